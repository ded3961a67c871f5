import Verif.Proofs.GreySignals
import Verif.Props.GreyOrder
import Verif.Props.HdrYuv

/-!
# C76: black-and-white pictures in YUV stay black-and-white
-/

namespace Ezk.Props
open Ezk F32 Spec

variable {p : Platform} {simd scalar : Libm} {src dst : Img} {sps dps : List Plane} {m m' : Mem}

theorem eight_depth {f : PixelFormat} (h8 : sampleBits f = 8) (w h : Nat) (ps : List Plane) (m : Mem) : InDepth f w h (shown f ps m) := by
  intro c x y l _ _ _
  have hb : sampleBytes f = 1 := by revert h8; cases f <;> simp [sampleBits, sampleBytes]
  rw [h8]; exact shown_le hb ..

/-- The float of a luma code, from 0 to 255. -/
theorem luma_app {n : Nat} (hn : n ≤ 255) : App (lumaFloat n) (((n : ℝ) - 16) / 219) (1 / 10 ^ 6) := by
  obtain ⟨X, ⟨s, q, h1, h2, h3⟩, hd, _⟩ := luma_is hn
  refine ⟨s, q, h1, h2, ?_⟩
  have : ((|X - ((n : ℚ) - 16) / 219| : ℚ) : ℝ) ≤ ((1 / 10 ^ 6 : ℚ) : ℝ) := by exact_mod_cast hd
  push_cast at this
  rwa [h3]

/-- **C76** without a change of transfer function or primaries. A pixel of an 8-bit limited-range YUV image whose chroma samples are
128 becomes a pixel with three equal RGB samples: those of the level `255·(Y - 16)/219`, clamped to what RGB can show, nearest where
stores round and the one below where they truncate.  Every luma, every matrix, every platform, whatever `powf` and the like compute. -/
theorem C76_same_partial (r : Run (p.ieee simd scalar) src dst sps dps m m') (hs : isYuv src.format = true) (hd : isYuv dst.format = false)
    {i : YuvColorInfo} (hi : src.color = .YUV i) (ht : i.transfer = dst.color.transfer) (hp : i.primaries = dst.color.primaries)
    (hcs : i.space = .BT601 ∨ i.space = .BT709 ∨ i.space = .BT2020) (hr : i.fullRange = false) (h8 : sampleBits src.format = 8)
    {x y : Nat} (hx : x < dst.width) (hy : y < dst.height) (hU : shown src.format sps m .U x y = 128)
    (hV : shown src.format sps m .V x y = 128) :
    ∃ n, (∀ c, c = .R ∨ c = .G ∨ c = .B → sample dst.format dps m' c x y = some n) ∧
      CodeOf p dst.width x (1 / 1000) n (clamp255 (255 * ((shown src.format sps m .Y x y : ℝ) - 16) / 219)) := by
  have hm : isMatrix i.space = true := by rcases hcs with h | h | h <;> rw [h] <;> rfl
  have hcol := column_ieee p simd scalar dst.width
  have hY : shown src.format sps m .Y x y ≤ 255 :=
    shown_le (by revert h8; cases src.format <;> simp [sampleBits, sampleBytes]) ..
  refine ⟨stored p simd scalar dst.width x .interleaved8 (F32.mul (lumaFloat (shown src.format sps m .Y x y)) (maxSample dst.format)),
    fun c hc => ?_, ?_⟩
  · obtain ⟨v, h1, h2, _⟩ := yuv_to_rgb_value r hs hd hi ht hp hm hc hx hy (eight_depth h8 _ _ _ _)
    rw [h1, h2, decode_neutral hcol hm hr h8 hY hU hV hc]
  · have y0 : (0 : ℝ) ≤ shown src.format sps m .Y x y := by positivity
    have y1 : (shown src.format sps m .Y x y : ℝ) ≤ 255 := by exact_mod_cast hY
    have ha := scale_app (hcol x) dst.format (luma_app hY) (by rw [abs_le]; constructor <;> linarith) (by norm_num)
    rw [(rgb8 hd).2, (hcol x).mul] at ha
    rw [show 255 * ((shown src.format sps m .Y x y : ℝ) - 16) / 219 =
      ((shown src.format sps m .Y x y : ℝ) - 16) / 219 * (2 ^ 8 - 1 : Nat) by norm_num; ring]
    refine codeOf_app ha ?_ ?_ (by norm_num) _ _ _ _ <;> norm_num <;> linarith

/-- The light of a luma code from 16 up. -/
theorem luma_light {rr : Arith ℝ} (he : Exact rr) {ar : Arith F32} (hf : Floats ar) (t : ColorTransfer) {n : Nat} (h0 : 16 ≤ n) (h1 : n ≤ 255)
    (hpq : t = .BT2100PQ → n ≤ 235) :
    ∃ q : ℚ, Is (decodeTransfer ar t (lumaFloat n)) q ∧ -1 / 10 ^ 4 ≤ (q : ℝ) ∧ (q : ℝ) ≤ 10010 ∧ (t ≠ .BT2100PQ → (q : ℝ) ≤ 100) := by
  -- from an approximation
  have fin : ∀ {v : F32} {l : ℝ}, App v l (42 / 10 ^ 6) → 0 ≤ l → l ≤ 67 / 10 →
      ∃ q : ℚ, Is v q ∧ -1 / 10 ^ 4 ≤ (q : ℝ) ∧ (q : ℝ) ≤ 10010 ∧ (t ≠ .BT2100PQ → (q : ℝ) ≤ 100) := by
    intro v l h l0 l1
    obtain ⟨q, hq, hd⟩ := h.is
    rw [abs_le] at hd
    have d1 := hd.1
    have d2 := hd.2
    norm_num at d1 d2
    exact ⟨q, hq, by norm_num; linarith, by linarith, fun _ => by linarith⟩
  by_cases hz : n = 16
  · subst hz
    obtain ⟨X, hX, _, h⟩ := luma_is (n := 16) (by norm_num)
    have e : lumaFloat 16 = ar.div (FOps.ofNat 0) (FOps.ofNat 255) := by
      rw [(h rfl).2, hf.div]; decide +kernel
    rw [e]
    by_cases ht : t = .BT2100PQ
    · subst ht
      have h := light_pq_app he hf (n := 0) (by norm_num)
      obtain ⟨q, hq, hd⟩ := h.1.is
      rw [abs_le] at hd
      obtain ⟨-, l0, l1⟩ := h
      have d1 := hd.1
      have d2 := hd.2
      norm_num at d1 d2 l0 l1
      exact ⟨q, hq, by norm_num; linarith, by linarith, fun h => absurd rfl h⟩
    · obtain ⟨a, l0, l1⟩ := light_app hf he ht (n := 0) (by norm_num)
      exact fin (a.mono (by norm_num)) l0 (by linarith)
  have hn : (17 : ℝ) ≤ n := by exact_mod_cast (show 17 ≤ n by omega)
  have hn1 : (n : ℝ) ≤ 255 := by exact_mod_cast h1
  obtain ⟨X, hX, hdX, _⟩ := luma_is h1
  have hd : |(X : ℝ) - ((n : ℝ) - 16) / 219| ≤ 24 / 10 ^ 7 := by
    have : ((|X - ((n : ℚ) - 16) / 219| : ℚ) : ℝ) ≤ ((1 / 10 ^ 6 : ℚ) : ℝ) := by exact_mod_cast hdX
    push_cast at this
    exact this.trans (by norm_num)
  have hd' : |(X : ℝ) - ((n : ℝ) - 16) / 219| ≤ 1 / 10 ^ 6 := by
    have : ((|X - ((n : ℚ) - 16) / 219| : ℚ) : ℝ) ≤ ((1 / 10 ^ 6 : ℚ) : ℝ) := by exact_mod_cast hdX
    push_cast at this
    exact this
  have d1 := (abs_le.mp hd').1
  have d2 := (abs_le.mp hd').2
  norm_num at d1 d2
  have hg : Good (lumaFloat n) := luma_good n
  have s0 : 0 ≤ ((n : ℝ) - 16) / 219 := by linarith
  have s1 : ((n : ℝ) - 16) / 219 ≤ 11 / 10 := by linarith
  have s2 : 1 / 250 ≤ ((n : ℝ) - 16) / 219 := by linarith
  have s3 : t = .BT2100PQ → ((n : ℝ) - 16) / 219 ≤ 1 := by
    intro h
    have : (n : ℝ) ≤ 235 := by exact_mod_cast hpq h
    linarith
  have X0 : ((0 : ℚ) : ℝ) ≤ X := by push_cast; linarith
  have X1 : (X : ℝ) ≤ ((22 / 10 : ℚ) : ℝ) := by push_cast; linarith
  have X0' : 0 ≤ X := by exact_mod_cast X0
  have X1' : X ≤ 22 / 10 := by exact_mod_cast X1
  have sgn : SignedTransfer t → 0 ≤ decodeTransfer rr t (((n : ℝ) - 16) / 219) →
      ∃ q : ℚ, Is (decodeTransfer ar t (lumaFloat n)) q ∧ -1 / 10 ^ 4 ≤ (q : ℝ) ∧ (q : ℝ) ≤ 10010 ∧ (t ≠ .BT2100PQ → (q : ℝ) ≤ 100) :=
    fun ht hpos => fin (dec_signed_app he hf ht hX hg (by linarith) X1' (by linarith) hd fun h => absurd h (not_lt.mpr X0')) hpos
      (abs_le.mp (dec_wide_range he ht (by linarith) (by linarith))).2
  have rng : InRange t (((n : ℝ) - 16) / 219) → 0 ≤ decodeTransfer rr t (((n : ℝ) - 16) / 219) →
      ∃ q : ℚ, Is (decodeTransfer ar t (lumaFloat n)) q ∧ -1 / 10 ^ 4 ≤ (q : ℝ) ∧ (q : ℝ) ≤ 10010 ∧ (t ≠ .BT2100PQ → (q : ℝ) ≤ 100) := by
    intro ht hpos
    obtain ⟨a, b⟩ := dec_range_app he hf ht hX hg hd
    exact fin a hpos (abs_le.mp b).2
  generalize ((n : ℝ) - 16) / 219 = s at *
  cases t
  case Linear => exact sgn (.inl rfl) s0
  case SRGB =>
    refine sgn (.inr (.inl rfl)) ?_
    rw [dec_srgb he]
    split
    · positivity
    · exact Real.rpow_nonneg (by positivity) _
  case SDR =>
    refine sgn (.inr (.inr rfl)) ?_
    rw [dec_sdr he]
    split
    · positivity
    · exact Real.rpow_nonneg (by positivity) _
  case Gamma22 =>
    exact rng (.inl ⟨.inl rfl, by norm_num; linarith, by linarith⟩) (by rw [dec_gamma22 he]; exact Real.rpow_nonneg s0 _)
  case Gamma28 =>
    exact rng (.inl ⟨.inr rfl, by norm_num; linarith, by linarith⟩) (by rw [dec_gamma28 he]; exact Real.rpow_nonneg s0 _)
  case BT2100HLG =>
    refine rng (.inr ⟨rfl, s1⟩) ?_
    rw [dec_hlg he]
    split <;> positivity
  case BT2100PQ =>
    have s4 := s3 rfl
    have X2 : (X : ℝ) ≤ ((1 + 3 / 10 ^ 6 : ℚ) : ℝ) := by push_cast; norm_num; linarith
    obtain ⟨a, l0, l1⟩ := dec_pq_signal he hf hX hg (by exact_mod_cast X2)
    obtain ⟨q, hq, hd⟩ := a.is
    rw [abs_le] at hd
    have d1 := hd.1
    have d2 := hd.2
    norm_num at d1 d2
    exact ⟨q, hq, by norm_num; linarith, by linarith, fun h => absurd rfl h⟩

/-- **C76** with a change of transfer function or primaries (partial: the codes may differ by one, as those of RGB greys may,
`C62_white_false`; luma below black is left out, PQ luma above white too, and PQ images converted to `Linear` by AVX2 or AVX-512). -/
theorem C76_change_partial (r : Run (p.real scalar) src dst sps dps m m') (ha : scalar.Accurate) (hs : isYuv src.format = true)
    (hd : isYuv dst.format = false) {i : YuvColorInfo} (hi : src.color = .YUV i)
    (hne : ¬ (src.color.transfer = dst.color.transfer ∧ src.color.primaries = dst.color.primaries))
    (hcs : i.space = .BT601 ∨ i.space = .BT709 ∨ i.space = .BT2020) (hr : i.fullRange = false) (h8 : sampleBits src.format = 8)
    {x y : Nat} (hx : x < dst.width) (hy : y < dst.height) (hU : shown src.format sps m .U x y = 128)
    (hV : shown src.format sps m .V x y = 128) (hY : 16 ≤ shown src.format sps m .Y x y)
    (hpq : i.transfer = .BT2100PQ → shown src.format sps m .Y x y ≤ 235)
    (hlin : i.transfer = .BT2100PQ → dst.color.transfer = .Linear → Truncates p dst.width x) :
    ∃ k : Chan → Nat, (∀ c, c = .R ∨ c = .G ∨ c = .B → sample dst.format dps m' c x y = some (k c)) ∧
      ∀ c d, c = .R ∨ c = .G ∨ c = .B → d = .R ∨ d = .G ∨ d = .B → k c ≤ k d + 1 := by
  have hm : isMatrix i.space = true := by rcases hcs with h | h | h <;> rw [h] <;> rfl
  have hcol : ∀ x, IsIeee (columnArith (p.real scalar) dst.width x) := column_ieee p (p.libm scalar) scalar dst.width
  have hY1 : shown src.format sps m .Y x y ≤ 255 :=
    shown_le (by revert h8; cases src.format <;> simp [sampleBits, sampleBytes]) ..
  have hti : src.color.transfer = i.transfer := by rw [hi]; rfl
  have hdec := fun c hc => decode_neutral (ar := columnArith (p.real scalar) dst.width) hcol hm hr h8 hY1 hU hV (c := c) hc
  have val := fun c hc => yuv_change_pick r hs hd hi hne (c := c) hc hx hy
  obtain ⟨q, hq, q0, q1, q2⟩ := luma_light (exactAr_exact x) (column_floats p ha dst.width x) src.color.transfer hY hY1 (hti ▸ hpq)
  refine ⟨fun c => stored p (p.libm scalar) scalar dst.width x .interleaved8 ((columnArith (p.real scalar) dst.width x).mul
    (encodeTransfer (columnArith (p.real scalar) dst.width x) dst.color.transfer (component (rowMul (columnArith (p.real scalar) dst.width x)
      (rowMul (columnArith (p.real scalar) dst.width x) (decodeTransfer (columnArith (p.real scalar) dst.width x) src.color.transfer
        (lumaFloat (shown src.format sps m .Y x y)), decodeTransfer (columnArith (p.real scalar) dst.width x) src.color.transfer
        (lumaFloat (shown src.format sps m .Y x y)), decodeTransfer (columnArith (p.real scalar) dst.width x) src.color.transfer
        (lumaFloat (shown src.format sps m .Y x y))) src.color.primaries.rgbToXyzMat) dst.color.primaries.xyzToRgbMat) c))
    (maxSample dst.format)), fun c hc => ?_, fun c d hc hd' => ?_⟩
  · rw [val c hc]
    have e : changeColor (columnArith (p.real scalar) dst.width) src.color dst.color (decode (columnArith (p.real scalar) dst.width) i
        (Spec.normalize (columnArith (p.real scalar) dst.width) src.format (shown src.format sps m))) c x y =
        encodeTransfer (columnArith (p.real scalar) dst.width x) dst.color.transfer (component (rowMul (columnArith (p.real scalar) dst.width x)
        (rowMul (columnArith (p.real scalar) dst.width x) (decodeTransfer (columnArith (p.real scalar) dst.width x) src.color.transfer
        (lumaFloat (shown src.format sps m .Y x y)), decodeTransfer (columnArith (p.real scalar) dst.width x) src.color.transfer
        (lumaFloat (shown src.format sps m .Y x y)), decodeTransfer (columnArith (p.real scalar) dst.width x) src.color.transfer
        (lumaFloat (shown src.format sps m .Y x y))) src.color.primaries.rgbToXyzMat) dst.color.primaries.xyzToRgbMat) c) := by
      simp only [changeColor, hdec .R (by simp), hdec .G (by simp), hdec .B (by simp)]
      rcases hc with rfl | rfl | rfl <;> rfl
    rw [e]
  · exact grey_codes_light ha src.color.primaries dst.color.primaries dst.color.transfer hd dst.width x hq q0 q1 (fun h => by
      by_cases ht : src.color.transfer = .BT2100PQ
      · exact .inr (hlin (hti ▸ ht) h)
      · exact .inl (q2 ht)) hc hd'

/-! ## To YUV -/

/-- The signals of the three components of a grey with the light `L` are near the one of that light. -/
theorem grey_signal {rr : Arith ℝ} (he : Exact rr) (ha : scalar.Accurate) (sp dp : ColorPrimaries) (t : ColorTransfer) (w x : Nat) {L : F32}
    {q : ℚ} (hq : Is L q) (q0 : -1 / 10 ^ 4 ≤ (q : ℝ)) (q1 : (q : ℝ) ≤ 11 / 10) (hgam : GammaTransfer t → 16 / 10 ^ 8 ≤ (q : ℝ)) {c : Chan}
    (hc : c = .R ∨ c = .G ∨ c = .B) :
    let ar := columnArith (p.real scalar) w x
    App (encodeTransfer ar t (component (rowMul ar (rowMul ar (L, L, L) sp.rgbToXyzMat) dp.xyzToRgbMat) c))
      (encodeTransfer rr t (max 0 (q : ℝ))) (32 / 10 ^ 4) ∧ |encodeTransfer rr t (max 0 (q : ℝ))| ≤ 1006 / 100 := by
  intro ar
  have hf : Floats ar := column_floats p ha w x
  have hS : max (1 / 10 ^ 4) |(q : ℝ)| ≤ 11 / 10 := max_le (by norm_num) (abs_le.mpr ⟨by norm_num at q0; linarith, q1⟩)
  obtain ⟨m1, m2, m3⟩ := mix_grey_app he hf.toIsIeee sp dp hq (le_max_left _ _) (hS.trans (by norm_num))
    (le_max_right (1 / 10 ^ 4) |(q : ℝ)|)
  have comp : App (component (rowMul ar (rowMul ar (L, L, L) sp.rgbToXyzMat) dp.xyzToRgbMat) c) q (35 / 10 ^ 7 * max (1 / 10 ^ 4) |(q : ℝ)|) ∧
      Good (component (rowMul ar (rowMul ar (L, L, L) sp.rgbToXyzMat) dp.xyzToRgbMat) c) := by
    rcases hc with rfl | rfl | rfl
    · exact ⟨m1, good_dot hf.toIsIeee⟩
    · exact ⟨m2, good_dot hf.toIsIeee⟩
    · exact ⟨m3, good_dot hf.toIsIeee⟩
  obtain ⟨hu, hg⟩ := comp
  generalize component (rowMul ar (rowMul ar (L, L, L) sp.rgbToXyzMat) dp.xyzToRgbMat) c = u at *
  obtain ⟨U, hU, dU⟩ := hu.is
  have hS2 : 35 / 10 ^ 7 * max (1 / 10 ^ 4) |(q : ℝ)| ≤ 4 / 10 ^ 6 := by
    refine (mul_le_mul_of_nonneg_left hS (by norm_num)).trans (by norm_num)
  have dU4 := abs_le.mp (dU.trans hS2)
  have d1 := (abs_le.mp dU).1
  have d2 := (abs_le.mp dU).2
  norm_num at dU4
  have hmm : |max 0 (U : ℝ) - max 0 (q : ℝ)| ≤ |(U : ℝ) - q| := by
    rw [max_comm 0, max_comm 0]; exact abs_max_sub_max_le_abs _ _ 0
  have near : |max 0 (U : ℝ) - max 0 (q : ℝ)| ≤ 21 / 10 ^ 9 ∨ (99 / 10 ^ 6 ≤ max 0 (U : ℝ) ∧ 99 / 10 ^ 6 ≤ max 0 (q : ℝ)) ∧
      |max 0 (U : ℝ) - max 0 (q : ℝ)| ≤ 8 / 10 ^ 6 := by
    rcases le_or_gt |(q : ℝ)| (1 / 10 ^ 4) with h | h
    · left
      rw [max_eq_left h] at dU
      exact (hmm.trans dU).trans (by norm_num)
    · right
      have hp : 1 / 10 ^ 4 < (q : ℝ) := by
        rcases lt_abs.mp h with h | h
        · exact h
        · norm_num at h q0; linarith
      refine ⟨⟨le_max_of_le_right ?_, le_max_of_le_right ?_⟩, ((hmm.trans dU).trans hS2).trans (by norm_num)⟩
      · rw [max_eq_right h.le, abs_of_pos (lt_trans (by norm_num) hp)] at d1
        norm_num at hp d1 ⊢; linarith
      · norm_num at hp ⊢; linarith
  have u2 : max 0 (U : ℝ) ≤ 2 := max_le (by norm_num) (by linarith [dU4.2])
  have q2 : max 0 (q : ℝ) ≤ 2 := max_le (by norm_num) (by linarith)
  have cl := enc_close_grey he t (a := max 0 (U : ℝ)) (b := max 0 (q : ℝ)) (le_max_left _ _) (le_max_left _ _) (by linarith) (by linarith) near
  have U2 : U ≤ 2 := by
    have : (U : ℝ) ≤ ((2 : ℚ) : ℝ) := by push_cast; linarith [dU4.2]
    exact_mod_cast this
  have bnd : |encodeTransfer rr t (max 0 (q : ℝ))| ≤ 1006 / 100 := by
    by_cases ht : SignedTransfer t
    · exact enc_bound he ht (by linarith [le_max_left 0 (q : ℝ)]) (max_le (by norm_num) (by linarith))
    · have kinds : HdrTransfer t ∨ GammaTransfer t := by
        revert ht; unfold HdrTransfer GammaTransfer SignedTransfer; cases t <;> simp
      rcases kinds with (rfl | rfl) | hgt
      · have h := (enc_bounds he (t := .BT2100HLG) nofun (le_max_left 0 (q : ℝ)) q2).1
        have h0 := enc_hlg_mono he (le_max_left 0 (q : ℝ))
        have z : encodeTransfer rr .BT2100HLG 0 = 0 := by rw [enc_hlg he]; norm_num
        rw [z] at h0
        rw [abs_le]; constructor <;> norm_num at h0 ⊢ <;> linarith
      · have h3 := enc_pq_range he (l := max 0 (q : ℝ)) (by linarith)
        rw [abs_of_nonneg h3.1]; linarith [h3.2]
      · have hne : t ≠ .BT2100PQ := by rcases hgt with rfl | rfl <;> nofun
        have h := (enc_bounds he hne (le_max_left 0 (q : ℝ)) q2).1
        have h0 : 0 ≤ encodeTransfer rr t (max 0 (q : ℝ)) := by
          rcases hgt with rfl | rfl
          · rw [enc_gamma22 he]; positivity
          · rw [enc_gamma28 he]; positivity
        rw [abs_of_nonneg h0]; linarith
  refine ⟨?_, bnd⟩
  by_cases ht : SignedTransfer t
  · have U0 : ((-1 / 1000 : ℚ) : ℝ) ≤ U := by push_cast; norm_num at q0; linarith [dU4.1]
    have U0' : -1 / 1000 ≤ U := by exact_mod_cast U0
    have cmp : ∀ b : ℚ, 2 / 1000 ≤ b → U < 0 → Compares ar U b := by
      intro b hb hneg
      refine column_compares p (by linarith) fun _ => ?_
      rw [abs_of_neg hneg]; linarith
    have h := enc_signed_app he hf ht hU hg (by linarith) U2 (L := max 0 (q : ℝ)) (e := 1 / 10 ^ 5 + 1 / 10 ^ 4) ?_
      fun h _ => ⟨cmp _ (by norm_num) h, cmp _ (by norm_num) h⟩
    · refine h.mono ?_
      rcases ht with rfl | rfl | rfl <;> norm_num [encodeSlope, encodeJump]
    · have e : |(U : ℝ) - max 0 (q : ℝ)| ≤ |(U : ℝ) - q| + |(q : ℝ) - max 0 (q : ℝ)| := abs_sub_le _ _ _
      have e2 : |(q : ℝ) - max 0 (q : ℝ)| ≤ 1 / 10 ^ 4 := by
        rw [abs_le]
        constructor
        · rcases max_cases 0 (q : ℝ) with ⟨h, _⟩ | ⟨h, _⟩ <;> rw [h] <;> norm_num at q0 ⊢ <;> linarith
        · linarith [le_max_right 0 (q : ℝ)]
      have e3 : |(U : ℝ) - q| ≤ 1 / 10 ^ 5 := (dU.trans hS2).trans (by norm_num)
      linarith
  · have kinds : HdrTransfer t ∨ GammaTransfer t := by
      revert ht; unfold HdrTransfer GammaTransfer SignedTransfer; cases t <;> simp
    have pos : HdrTransfer t ∨ GammaTransfer t ∧ 0 ≤ U := by
      refine kinds.imp_right fun h => ⟨h, ?_⟩
      have hq' := hgam h
      have : (0 : ℝ) ≤ U := by
        rcases le_or_gt |(q : ℝ)| (1 / 10 ^ 4) with h | h
        · rw [max_eq_left (by norm_num at h ⊢; linarith)] at d1
          norm_num at d1 hq'; linarith
        · have h2 : |(q : ℝ)| = q := abs_of_nonneg (by norm_num at hq'; linarith)
          rw [h2] at h d1
          rw [max_eq_right (by norm_num at h ⊢; linarith)] at d1
          norm_num at h; linarith
      exact_mod_cast this
    obtain ⟨a, -⟩ := enc_steep_app he hf pos hU hg (fun _ => U2) (by linarith)
    exact (a.shift cl).mono (by norm_num)

/-- Chroma of signals with equal components. -/
theorem ideal_neutral {cs : ColorSpace} {k : ℝ × ℝ × ℝ} (hk : IsStandard cs k) (f : PixelFormat) (full : Bool) (e : Nat → Nat → ℝ) {c : Chan}
    (hc : c = .U ∨ c = .V) (x y : Nat) : idealCodes k f full (fun _ => e) c x y =
      ((2 ^ sampleBits f - 1 : Nat) : ℝ) * if full then 1 / 2 else 128 / 255 := by
  obtain ⟨hsum, _⟩ := weights_sum hk
  have hz : ∀ v : ℝ, standardYuv k v v v = (v, 0, 0) := by
    intro v
    have : k.1 * v + k.2.1 * v + k.2.2 * v = v := by linear_combination v * hsum
    simp only [standardYuv, this, sub_self, zero_div]
  rcases hc with rfl | rfl <;> simp only [idealCodes, hz, cellMean, Finset.sum_const_zero, zero_div, chromaCode, zero_add, mul_zero, add_zero]

/-- Chroma made from a cell of pixels that are read with three equal components, of moderate light, is neutral. -/
theorem grey_chroma (r : Run (p.real scalar) src dst sps dps m m') (ha : scalar.Accurate)
    (hd : isYuv dst.format = true) {j : YuvColorInfo} (hj : dst.color = .YUV j)
    (hne : ¬ (src.color.transfer = dst.color.transfer ∧ src.color.primaries = dst.color.primaries))
    (hcs : j.space = .BT601 ∨ j.space = .BT709) {c : Chan} (hc : c = .U ∨ c = .V) {x y : Nat} (hx : x < dst.width) (hy : y < dst.height)
    (hread : ∀ x' y', SameCell dst.format x y x' y' → ∃ (v : F32) (q : ℚ), (∀ c, (c = .R ∨ c = .G ∨ c = .B) →
      readPic (columnArith (p.real scalar) dst.width) src.format src.color (shown src.format sps m) c x' y' = v) ∧
      Is (decodeTransfer (columnArith (p.real scalar) dst.width x') src.color.transfer v) q ∧ -1 / 10 ^ 4 ≤ (q : ℝ) ∧ (q : ℝ) ≤ 11 / 10 ∧
      (GammaTransfer j.transfer → 16 / 10 ^ 8 ≤ (q : ℝ))) :
    ∃ n : Nat, sample dst.format dps m' c x y = some n ∧
      |(n : ℝ) - ((2 ^ sampleBits dst.format - 1 : Nat) : ℝ) * (if j.fullRange then 1 / 2 else 128 / 255)| <
        1 + 33 / 10 ^ 4 * ((2 ^ sampleBits dst.format - 1 : Nat) : ℝ) ∧
      (sampleBits dst.format = 8 → j.fullRange = false → n = 127 ∨ n = 128 ∨ n = 129) := by
  obtain ⟨k, hk⟩ : ∃ k, lumaWeights j.space = some k := by rcases hcs with h | h <;> rw [h] <;> exact ⟨_, rfl⟩
  have hstd : IsStandard j.space k := ⟨hcs, hk⟩
  have hjt : dst.color.transfer = j.transfer := by rw [hj]; rfl
  -- the signal of each pixel
  have key : ∀ x' y', ∃ e : ℝ, SameCell dst.format x y x' y' → ∀ c, (c = .R ∨ c = .G ∨ c = .B) →
      App (changeColor (columnArith (p.real scalar) dst.width) src.color dst.color
        (readPic (columnArith (p.real scalar) dst.width) src.format src.color (shown src.format sps m)) c x' y') e (32 / 10 ^ 4) ∧
      |e| ≤ 1006 / 100 := by
    intro x' y'
    by_cases hcell : SameCell dst.format x y x' y'
    swap
    · exact ⟨0, fun h => absurd h hcell⟩
    obtain ⟨v, q, hv, hq, q0, q1, qg⟩ := hread x' y' hcell
    refine ⟨encodeTransfer (exactAr x') j.transfer (max 0 (q : ℝ)), fun _ c hc => ?_⟩
    have := grey_signal (p := p) (exactAr_exact x') ha src.color.primaries dst.color.primaries j.transfer dst.width x' hq q0 q1 qg hc
    refine ⟨?_, this.2⟩
    convert this.1 using 1
    simp only [changeColor, hjt]
    rw [hv .R (by simp), hv .G (by simp), hv .B (by simp)]
    rcases hc with rfl | rfl | rfl <;> rfl
  choose e he using key
  have hM : 255 ≤ 2 ^ sampleBits dst.format - 1 := by cases dst.format <;> simp [sampleBits]
  have hM1 : (255 : ℝ) ≤ (2 ^ sampleBits dst.format - 1 : Nat) := by exact_mod_cast hM
  have hid := ideal_neutral hstd dst.format j.fullRange e hc x y
  obtain ⟨n, h1, h2⟩ := to_yuv_signals r hd hj hne hstd (c := c) (by rcases hc with rfl | rfl <;> simp) hx hy (E := fun _ => e)
    (D := 32 / 10 ^ 4) (T := 33 / 10 ^ 4) (by norm_num) (by norm_num) (fun c hc x' y' _ _ ex ey => he x' y' ⟨ex, ey⟩ c hc)
    (by rw [hid]; split <;> norm_num at hM1 ⊢ <;> linarith) (by rw [hid]; split <;> norm_num at hM1 ⊢ <;> linarith)
  rw [hid] at h2
  refine ⟨n, h1, h2, fun h8 hr => ?_⟩
  rw [h8, hr, abs_lt] at h2
  norm_num at h2
  have a : (126 : ℝ) < n := by linarith [h2.1]
  have b : (n : ℝ) < 130 := by linarith [h2.2]
  have a' : 126 < n := by exact_mod_cast a
  have b' : n < 130 := by exact_mod_cast b
  omega

/-- **C76** to YUV (partial: BT.601 and BT.709; not PQ sources; not black in gamma destinations). Chroma made from a cell of grey pixels,
given another transfer function or other primaries, is neutral up to one code and 0.33% of the range of codes: in 8 bits limited range
it is 127, 128 or 129. -/
theorem C76_to_yuv_partial (r : Run (p.real scalar) src dst sps dps m m') (ha : scalar.Accurate) (hs : isYuv src.format = false)
    (hd : isYuv dst.format = true) {j : YuvColorInfo} (hj : dst.color = .YUV j)
    (hne : ¬ (src.color.transfer = dst.color.transfer ∧ src.color.primaries = dst.color.primaries))
    (hst : src.color.transfer ≠ .BT2100PQ) (hcs : j.space = .BT601 ∨ j.space = .BT709)
    {c : Chan} (hc : c = .U ∨ c = .V) {x y : Nat} (hx : x < dst.width) (hy : y < dst.height)
    (hgrey : GreyCell dst.format (shown src.format sps m) x y)
    (hblack : j.transfer = .Gamma22 ∨ j.transfer = .Gamma28 → ∀ x' y', SameCell dst.format x y x' y' → 1 ≤ shown src.format sps m .R x' y') :
    ∃ n : Nat, sample dst.format dps m' c x y = some n ∧
      |(n : ℝ) - ((2 ^ sampleBits dst.format - 1 : Nat) : ℝ) * (if j.fullRange then 1 / 2 else 128 / 255)| <
        1 + 33 / 10 ^ 4 * ((2 ^ sampleBits dst.format - 1 : Nat) : ℝ) ∧
      (sampleBits dst.format = 8 → j.fullRange = false → n = 127 ∨ n = 128 ∨ n = 129) := by
  have e1 : readPic (columnArith (p.real scalar) dst.width) src.format src.color (shown src.format sps m) =
      withAlpha src.format (Spec.normalize (columnArith (p.real scalar) dst.width) src.format (shown src.format sps m)) := by
    cases src.color <;> simp [readPic, hs]
  have e3 : ∀ c x y, c ≠ .A → withAlpha src.format (Spec.normalize (columnArith (p.real scalar) dst.width) src.format
      (shown src.format sps m)) c x y =
      (columnArith (p.real scalar) dst.width x).div (FOps.ofNat (shown src.format sps m c x y)) (FOps.ofNat 255) := by
    intro c x y h
    rw [withAlpha, if_neg (by rintro ⟨rfl, _⟩; exact h rfl), Spec.normalize, maxSample, (rgb8 hs).2]
  refine grey_chroma r ha hd hj hne hcs hc hx hy fun x' y' hcell => ?_
  obtain ⟨g1, g2⟩ := hgrey x' y' hcell.1 hcell.2
  have hle := shown_le (rgb8 hs).1 sps m .R x' y'
  have hb := fun h => hblack h x' y' hcell
  have hf := column_floats p ha dst.width x'
  have he := exactAr_exact x'
  obtain ⟨a, l0, l1⟩ := light_app hf he hst hle
  obtain ⟨q, hq, hdq⟩ := a.is
  have d1 := (abs_le.mp hdq).1
  have d2 := (abs_le.mp hdq).2
  norm_num at d1 d2
  have low : 1 ≤ shown src.format sps m .R x' y' → 16 / 10 ^ 8 ≤ (q : ℝ) := by
    intro h1
    rcases Nat.lt_or_ge (shown src.format sps m .R x' y') 255 with h2 | h2
    · obtain ⟨a, b, ha', hb', hbr⟩ := lights_brighter he hf hf src.color.transfer h1 h2 (le_refl _)
      rw [hq.unique ha']
      exact le_trans (by norm_num) hbr.1
    · obtain ⟨a, b, ha', hb', hbr⟩ := lights_brighter he hf hf src.color.transfer (show 1 ≤ 254 by norm_num)
        (show 254 < shown src.format sps m .R x' y' by omega) hle
      rw [hq.unique hb']
      have h3 := hbr.1
      have h4 := hbr.2.1
      norm_num at h3 h4 ⊢
      linarith
  refine ⟨_, q, fun c hc => ?_, hq, by norm_num; linarith, by linarith, fun h => low (hb h)⟩
  rw [e1, e3 _ _ _ (by rintro rfl; simp at hc)]
  rcases hc with rfl | rfl | rfl
  · rfl
  · rw [g1]
  · rw [g2]

/-- **C76** from YUV to YUV (partial: BT.601 and BT.709 destinations; not PQ sources; luma from 16 to 235, and from 17 in gamma
destinations, in which black is not a number, see `C50_gamma_yuv_black`). Chroma made from a cell of pixels without colour, given another
transfer function or other primaries, is neutral up to one code and 0.33% of the range of codes: in 8 bits limited range it is 127, 128
or 129. -/
theorem C76_yuv_yuv_partial (r : Run (p.real scalar) src dst sps dps m m') (ha : scalar.Accurate) (hs : isYuv src.format = true)
    (hd : isYuv dst.format = true) {i j : YuvColorInfo} (hi : src.color = .YUV i) (hm : isMatrix i.space = true) (hr : i.fullRange = false)
    (h8 : sampleBits src.format = 8) (hj : dst.color = .YUV j)
    (hne : ¬ (src.color.transfer = dst.color.transfer ∧ src.color.primaries = dst.color.primaries))
    (hst : i.transfer ≠ .BT2100PQ) (hcs : j.space = .BT601 ∨ j.space = .BT709)
    {c : Chan} (hc : c = .U ∨ c = .V) {x y : Nat} (hx : x < dst.width) (hy : y < dst.height)
    (hgrey : ∀ x' y', SameCell dst.format x y x' y' → shown src.format sps m .U x' y' = 128 ∧ shown src.format sps m .V x' y' = 128 ∧
      16 ≤ shown src.format sps m .Y x' y' ∧ shown src.format sps m .Y x' y' ≤ 235)
    (hblack : j.transfer = .Gamma22 ∨ j.transfer = .Gamma28 → ∀ x' y', SameCell dst.format x y x' y' → shown src.format sps m .Y x' y' ≠ 16) :
    ∃ n : Nat, sample dst.format dps m' c x y = some n ∧
      |(n : ℝ) - ((2 ^ sampleBits dst.format - 1 : Nat) : ℝ) * (if j.fullRange then 1 / 2 else 128 / 255)| <
        1 + 33 / 10 ^ 4 * ((2 ^ sampleBits dst.format - 1 : Nat) : ℝ) ∧
      (sampleBits dst.format = 8 → j.fullRange = false → n = 127 ∨ n = 128 ∨ n = 129) := by
  have hcol : ∀ x, IsIeee (columnArith (p.real scalar) dst.width x) := column_ieee p (p.libm scalar) scalar dst.width
  have hti : src.color.transfer = i.transfer := by rw [hi]; rfl
  have e1 : readPic (columnArith (p.real scalar) dst.width) src.format src.color (shown src.format sps m) =
      decode (columnArith (p.real scalar) dst.width) i (Spec.normalize (columnArith (p.real scalar) dst.width) src.format
        (shown src.format sps m)) := by
    rw [hi]; simp [readPic, hs]
  refine grey_chroma r ha hd hj hne hcs hc hx hy fun x' y' hcell => ?_
  obtain ⟨hU, hV, hY0, hY1⟩ := hgrey x' y' hcell
  have hb := fun h => hblack h x' y' hcell
  have hf := column_floats p ha dst.width x'
  rw [hti]
  obtain ⟨q, hq, q0, q1, q2⟩ : ∃ q : ℚ, Is (decodeTransfer (columnArith (p.real scalar) dst.width x') i.transfer
      (lumaFloat (shown src.format sps m .Y x' y'))) q ∧ -1 / 10 ^ 4 ≤ (q : ℝ) ∧ (q : ℝ) ≤ 11 / 10 ∧
      (GammaTransfer j.transfer → 16 / 10 ^ 8 ≤ (q : ℝ)) := by
    rcases eq_or_lt_of_le hY0 with h16 | h16
    · obtain ⟨q, hq, d⟩ := (black_light (exactAr_exact x') hf i.transfer).is
      have e := ramp_luma.black hf
      rw [← h16, e]
      have d1 := (abs_le.mp d).1
      have d2 := (abs_le.mp d).2
      norm_num at d1 d2
      exact ⟨q, hq, by norm_num; linarith, by linarith, fun h => absurd h16.symm (hb h)⟩
    · obtain ⟨q, hq, q0, q1⟩ := ramp_luma.light hf i.transfer h16 hY1
      norm_num at q0
      exact ⟨q, hq, by norm_num; linarith, q1 hst, fun _ => by norm_num; linarith⟩
  exact ⟨_, q, fun c hc => by rw [e1, decode_neutral hcol hm hr h8 (hY1.trans (by norm_num)) hU hV hc], hq, q0, q1, q2⟩

/-! ## Examples -/

/-- A 4:2:0 image of 34×2 pixels with luma 200 and no chroma, on AVX2: the last columns are those of the scalar code. -/
example (simd scalar : Libm) (x : Nat) (hx : x < 34) : ∃ (mo : Mem) (n : Nat), ∀ c, c = .R ∨ c = .G ∨ c = .B →
    sample .RGB [⟨⟨400, 204⟩, 102⟩] mo c x 1 = some n := by
  obtain ⟨mo, r⟩ := run_exists (c := Platform.avx2.ieee simd scalar) (platform_lawful .avx2 _ _)
    (src := .raw .I420 34 2 [⟨⟨0, 68⟩, 34⟩, ⟨⟨100, 17⟩, 17⟩, ⟨⟨200, 17⟩, 17⟩] (.YUV ⟨.SRGB, .BT709, .BT2020, false⟩))
    (dst := .raw .RGB 34 2 [⟨⟨400, 204⟩, 102⟩] (.RGB ⟨.SRGB, .BT709⟩))
    (sps := [⟨⟨0, 68⟩, 34⟩, ⟨⟨100, 17⟩, 17⟩, ⟨⟨200, 17⟩, 17⟩]) (dps := [⟨⟨400, 204⟩, 102⟩]) rfl rfl
    (planesDisjoint_of (by decide)) (separate_of (by decide)) (uniform_of (by decide)) (by decide) fun a => if a < 100 then 200 else 128
  have key : ∀ x : Fin 34, shown .I420 [⟨⟨0, 68⟩, 34⟩, ⟨⟨100, 17⟩, 17⟩, ⟨⟨200, 17⟩, 17⟩] (fun a => if a < 100 then 200 else 128) .U x 1 = 128 ∧
    shown .I420 [⟨⟨0, 68⟩, 34⟩, ⟨⟨100, 17⟩, 17⟩, ⟨⟨200, 17⟩, 17⟩] (fun a => if a < 100 then 200 else 128) .V x 1 = 128 := by decide
  obtain ⟨n, h, _⟩ := C76_same_partial r rfl rfl rfl rfl rfl (by simp) rfl rfl (x := x) (y := 1) hx (by decide) (key ⟨x, hx⟩).1 (key ⟨x, hx⟩).2
  exact ⟨mo, n, h⟩

/-- The same image, given PQ and the primaries of BT.2020. -/
example (x : Nat) (hx : x < 34) : ∃ (scalar : Libm) (mo : Mem) (k : Chan → Nat), scalar.Accurate ∧ (∀ c, c = .R ∨ c = .G ∨ c = .B →
    sample .RGB [⟨⟨400, 204⟩, 102⟩] mo c x 1 = some (k c)) ∧ k .R ≤ k .G + 1 ∧ k .G ≤ k .R + 1 := by
  obtain ⟨scalar, ha⟩ := libm_exists
  obtain ⟨mo, r⟩ := run_exists (c := Platform.avx2.real scalar) (platform_lawful .avx2 _ _)
    (src := .raw .I420 34 2 [⟨⟨0, 68⟩, 34⟩, ⟨⟨100, 17⟩, 17⟩, ⟨⟨200, 17⟩, 17⟩] (.YUV ⟨.SRGB, .BT709, .BT2020, false⟩))
    (dst := .raw .RGB 34 2 [⟨⟨400, 204⟩, 102⟩] (.RGB ⟨.BT2100PQ, .BT2020⟩))
    (sps := [⟨⟨0, 68⟩, 34⟩, ⟨⟨100, 17⟩, 17⟩, ⟨⟨200, 17⟩, 17⟩]) (dps := [⟨⟨400, 204⟩, 102⟩]) rfl rfl
    (planesDisjoint_of (by decide)) (separate_of (by decide)) (uniform_of (by decide)) (by decide) fun a => if a < 100 then 200 else 128
  have key : ∀ x : Fin 34, shown .I420 [⟨⟨0, 68⟩, 34⟩, ⟨⟨100, 17⟩, 17⟩, ⟨⟨200, 17⟩, 17⟩] (fun a => if a < 100 then 200 else 128) .U x 1 = 128 ∧
    shown .I420 [⟨⟨0, 68⟩, 34⟩, ⟨⟨100, 17⟩, 17⟩, ⟨⟨200, 17⟩, 17⟩] (fun a => if a < 100 then 200 else 128) .V x 1 = 128 ∧
    16 ≤ shown .I420 [⟨⟨0, 68⟩, 34⟩, ⟨⟨100, 17⟩, 17⟩, ⟨⟨200, 17⟩, 17⟩] (fun a => if a < 100 then 200 else 128) .Y x 1 := by decide
  obtain ⟨k, h1, h2⟩ := C76_change_partial r ha rfl rfl rfl (by simp [Img.color, ColorInfo.transfer]) (by simp) rfl rfl (x := x) (y := 1) hx
    (by decide) (key ⟨x, hx⟩).1 (key ⟨x, hx⟩).2.1 (key ⟨x, hx⟩).2.2 nofun nofun
  exact ⟨scalar, mo, k, ha, h1, h2 _ _ (by simp) (by simp), h2 _ _ (by simp) (by simp)⟩

/-- A grey 34×2 image made an HLG image in 4:2:0. -/
example (x : Nat) (hx : x < 34) : ∃ (scalar : Libm) (mo : Mem) (n : Nat), scalar.Accurate ∧
    sample .I420 [⟨⟨400, 68⟩, 34⟩, ⟨⟨500, 17⟩, 17⟩, ⟨⟨600, 17⟩, 17⟩] mo .V x 1 = some n ∧ (n = 127 ∨ n = 128 ∨ n = 129) := by
  obtain ⟨scalar, ha⟩ := libm_exists
  obtain ⟨mo, r⟩ := run_exists (c := Platform.avx2.real scalar) (platform_lawful .avx2 _ _)
    (src := .raw .RGB 34 2 [⟨⟨0, 204⟩, 102⟩] (.RGB ⟨.SRGB, .BT709⟩))
    (dst := .raw .I420 34 2 [⟨⟨400, 68⟩, 34⟩, ⟨⟨500, 17⟩, 17⟩, ⟨⟨600, 17⟩, 17⟩] (.YUV ⟨.BT2100HLG, .BT2020, .BT709, false⟩))
    (sps := [⟨⟨0, 204⟩, 102⟩]) (dps := [⟨⟨400, 68⟩, 34⟩, ⟨⟨500, 17⟩, 17⟩, ⟨⟨600, 17⟩, 17⟩]) rfl rfl
    (planesDisjoint_of (by decide)) (separate_of (by decide)) (uniform_of (by decide)) (by decide) fun a => if a < 102 then 90 else 200
  have key : ∀ x : Fin 34, ∀ y : Fin 2, shown .RGB [⟨⟨0, 204⟩, 102⟩] (fun a => if a < 102 then 90 else 200) .G x y =
      shown .RGB [⟨⟨0, 204⟩, 102⟩] (fun a => if a < 102 then 90 else 200) .R x y ∧
      shown .RGB [⟨⟨0, 204⟩, 102⟩] (fun a => if a < 102 then 90 else 200) .B x y =
      shown .RGB [⟨⟨0, 204⟩, 102⟩] (fun a => if a < 102 then 90 else 200) .R x y := by decide
  obtain ⟨n, h1, _, h3⟩ := C76_to_yuv_partial r ha rfl rfl rfl (by simp [Img.color, ColorInfo.transfer]) nofun (by simp) (c := .V) (by simp)
    (x := x) (y := 1) hx (by decide) (fun x' y' ex ey => key ⟨x', by change x' / 2 = x / 2 at ex; omega⟩ ⟨y', by change y' / 2 = 1 / 2 at ey; omega⟩)
    (by simp)
  exact ⟨scalar, mo, n, ha, h1, h3 rfl rfl⟩

/-- An SDR 4:2:0 image of 34×2 pixels without colour made an HLG image in NV12. -/
example (x : Nat) (hx : x < 34) : ∃ (scalar : Libm) (mo : Mem) (n : Nat), scalar.Accurate ∧
    sample .NV12 [⟨⟨400, 68⟩, 34⟩, ⟨⟨500, 34⟩, 34⟩] mo .U x 1 = some n ∧ (n = 127 ∨ n = 128 ∨ n = 129) := by
  obtain ⟨scalar, ha⟩ := libm_exists
  obtain ⟨mo, r⟩ := run_exists (c := Platform.avx2.real scalar) (platform_lawful .avx2 _ _)
    (src := .raw .I420 34 2 [⟨⟨0, 68⟩, 34⟩, ⟨⟨100, 17⟩, 17⟩, ⟨⟨200, 17⟩, 17⟩] (.YUV ⟨.SDR, .BT709, .BT709, false⟩))
    (dst := .raw .NV12 34 2 [⟨⟨400, 68⟩, 34⟩, ⟨⟨500, 34⟩, 34⟩] (.YUV ⟨.BT2100HLG, .BT2020, .BT709, false⟩))
    (sps := [⟨⟨0, 68⟩, 34⟩, ⟨⟨100, 17⟩, 17⟩, ⟨⟨200, 17⟩, 17⟩]) (dps := [⟨⟨400, 68⟩, 34⟩, ⟨⟨500, 34⟩, 34⟩]) rfl rfl
    (planesDisjoint_of (by decide)) (separate_of (by decide)) (uniform_of (by decide)) (by decide) fun a => if a < 34 then 16 else if a < 100 then 200 else 128
  have key : ∀ x : Fin 34, ∀ y : Fin 2, ∀ mi : Mem, mi = (fun a => if a < 34 then 16 else if a < 100 then 200 else 128) →
      shown .I420 [⟨⟨0, 68⟩, 34⟩, ⟨⟨100, 17⟩, 17⟩, ⟨⟨200, 17⟩, 17⟩] mi .U x y = 128 ∧
      shown .I420 [⟨⟨0, 68⟩, 34⟩, ⟨⟨100, 17⟩, 17⟩, ⟨⟨200, 17⟩, 17⟩] mi .V x y = 128 ∧
      16 ≤ shown .I420 [⟨⟨0, 68⟩, 34⟩, ⟨⟨100, 17⟩, 17⟩, ⟨⟨200, 17⟩, 17⟩] mi .Y x y ∧
      shown .I420 [⟨⟨0, 68⟩, 34⟩, ⟨⟨100, 17⟩, 17⟩, ⟨⟨200, 17⟩, 17⟩] mi .Y x y ≤ 235 := by
    intro x y mi h
    subst h
    revert x y
    decide
  obtain ⟨n, h1, _, h3⟩ := C76_yuv_yuv_partial r ha rfl rfl rfl rfl rfl rfl rfl (by simp [Img.color, ColorInfo.transfer]) nofun (by simp)
    (c := .U) (by simp) (x := x) (y := 1) hx (by decide)
    (fun x' y' h => key ⟨x', by have := h.1; change x' / 2 = x / 2 at this; omega⟩ ⟨y', by have := h.2; change y' / 2 = 1 / 2 at this; omega⟩ _ rfl)
    (by simp)
  exact ⟨scalar, mo, n, ha, h1, h3 rfl rfl⟩

end Ezk.Props

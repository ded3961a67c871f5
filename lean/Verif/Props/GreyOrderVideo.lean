import Verif.Proofs.GreySteep
import Verif.Props.GreyOrderYuv
import Verif.Props.VideoLevels

/-!
# C75: a brighter grey does not become darker, from YUV
-/

namespace Ezk.Props
open Ezk Ezk.F32 Ezk.Spec

attribute [local instance] ratOps

variable {p : Platform} {scalar : Libm} {src dst : Img} {sps dps : List Plane} {m m' : Mem}

/-- **C75** from YUV to RGB with a change of transfer function or primaries, for lumas above black. -/
theorem video_order (r : Run (p.real scalar) src dst sps dps m m') (ha : scalar.Accurate) (hs : isYuv src.format = true)
    (hd : isYuv dst.format = false) {i : YuvColorInfo} (hi : src.color = .YUV i) (hm : isMatrix i.space = true) (hr : i.fullRange = false)
    (h8 : sampleBits src.format = 8)
    (hne : ¬ (src.color.transfer = dst.color.transfer ∧ src.color.primaries = dst.color.primaries)) {c c' : Chan} (hc : c = .R ∨ c = .G ∨ c = .B)
    (hc' : c' = .R ∨ c' = .G ∨ c' = .B) {x y x' y' n n' : Nat} (hx : x < dst.width) (hy : y < dst.height) (hx' : x' < dst.width)
    (hy' : y' < dst.height) (ht : Truncates p dst.width x' → Truncates p dst.width x)
    (hlin : src.color.transfer = .BT2100PQ → dst.color.transfer = .Linear → Truncates p dst.width x')
    (hn : shown src.format sps m .Y x y = n) (hU : shown src.format sps m .U x y = 128) (hV : shown src.format sps m .V x y = 128)
    (hn' : shown src.format sps m .Y x' y' = n') (hU' : shown src.format sps m .U x' y' = 128) (hV' : shown src.format sps m .V x' y' = 128)
    (h1 : 17 ≤ n) (hlt : n < n') (h235 : n' ≤ 235) :
    ∃ k k', sample dst.format dps m' c x y = some k ∧ sample dst.format dps m' c' x' y' = some k' ∧ k ≤ k' := by
  have hv := video_value r hs hd hi hne hm hr h8 hx hy hU hV hc
  have hv' := video_value r hs hd hi hne hm hr h8 hx' hy' hU' hV' hc'
  dsimp only at hv hv'
  rw [hn] at hv
  rw [hn'] at hv'
  refine ⟨_, _, hv, hv', ?_⟩
  clear hv hv'
  have hf := column_floats p ha dst.width x
  have hf' := column_floats p ha dst.width x'
  obtain ⟨q, q', hq, hq', hb⟩ := luma_lights hf hf' src.color.transfer h1 hlt h235
  have small' : src.color.transfer ≠ .BT2100PQ → (q' : ℝ) ≤ 11 / 10 := by
    obtain ⟨q2, hq2, -, h⟩ := ramp_luma.light hf' src.color.transfer (n := n') (by omega) h235
    obtain rfl := hq'.unique hq2
    exact h
  obtain ⟨steep, top⟩ := luma_steep hf hf' src.color.transfer h1 hlt h235 hq hq'
  generalize decodeTransfer (columnArith (p.real scalar) dst.width x) src.color.transfer
    (lumaFloat n) = l at *
  generalize decodeTransfer (columnArith (p.real scalar) dst.width x') src.color.transfer
    (lumaFloat n') = l' at *
  have q0 : (0 : ℝ) ≤ q := by have := hb.1; norm_num at this; linarith
  have q1 : (q : ℝ) ≤ q' := by have := hb.2.1; norm_num at this; linarith
  have q2 : (q' : ℝ) ≤ 10016 := hb.2.2.1
  have q0' : (0 : ℝ) ≤ q' := by linarith
  have q1' : (q : ℝ) ≤ 10016 := by linarith
  obtain ⟨X, hX, hg, dX⟩ := grey_mixed hf.toIsIeee src.color.primaries dst.color.primaries hq (by exact_mod_cast q0)
    (by exact_mod_cast q1') hc
  obtain ⟨X', hX', hg', dX'⟩ := grey_mixed hf'.toIsIeee src.color.primaries dst.color.primaries hq' (by exact_mod_cast q0')
    (by exact_mod_cast q2) hc'
  have hm := hb.mix dX dX'
  have hst := steep.mix q1 dX dX'
  generalize component (rowMul (columnArith (p.real scalar) dst.width x) (rowMul (columnArith (p.real scalar) dst.width x) (l, l, l)
        src.color.primaries.rgbToXyzMat) dst.color.primaries.xyzToRgbMat) c = v at *
  generalize component (rowMul (columnArith (p.real scalar) dst.width x') (rowMul (columnArith (p.real scalar) dst.width x') (l', l', l')
        src.color.primaries.rgbToXyzMat) dst.color.primaries.xyzToRgbMat) c' = v' at *
  have hmax : Is (maxSample dst.format : F32) 255 := by
    rw [maxSample, (rgb8 hd).2]; exact ⟨false, 255, ofNat_eq (by norm_num), by norm_num, rfl⟩
  have keep : ∀ {e e' : F32}, Ord 4 e e' → stored p (p.libm scalar) scalar dst.width x .interleaved8
      ((columnArith (p.real scalar) dst.width x).mul e (maxSample dst.format)) ≤ stored p (p.libm scalar) scalar dst.width x' .interleaved8
      ((columnArith (p.real scalar) dst.width x').mul e' (maxSample dst.format)) := by
    intro e e' ho
    have hs := ord_mul (K := 255) (C := 2040) ho hmax (by norm_num) (by norm_num) (by norm_num) (by norm_num) (by norm_num)
    rw [hf.mul, hf'.mul]
    obtain ⟨a, b, ia, ib, ba, bb, hab⟩ := hs
    refine stored_mono ht _ _ _ _ .interleaved8 ia ib (.inr ⟨rfl, ?_, ?_⟩) (.inr ⟨rfl, ?_, ?_⟩) hab
    · linarith [(abs_le.mp ba).1]
    · linarith [(abs_le.mp ba).2]
    · linarith [(abs_le.mp bb).1]
    · linarith [(abs_le.mp bb).2]
  by_cases hpq : dst.color.transfer = .BT2100PQ
  · rw [hpq]
    have t1 : (X' : ℝ) ≤ 100065 / 10 := by
      have h4 := (abs_le.mp dX').2
      have h6 : max (1 / 10 ^ 4) (q' : ℝ) ≤ 10006 := max_le (by norm_num) top
      generalize max (1 / 10 ^ 4) (q' : ℝ) = M at *
      norm_num at h4 h6 ⊢; linarith
    rcases order_pq (exactAr_exact x) hf hf' hX hg hX' hg' hm hst t1 with ⟨a, ia, a1, a2⟩ | ho
    · have zero : stored p (p.libm scalar) scalar dst.width x .interleaved8 ((columnArith (p.real scalar) dst.width x).mul
          (encodeTransfer (columnArith (p.real scalar) dst.width x) .BT2100PQ v) (maxSample dst.format)) = 0 := by
        rw [hf.mul]
        have b1 : a ≤ 19 / 10 ^ 4 := by
          have : (a : ℝ) ≤ ((19 / 10 ^ 4 : ℚ) : ℝ) := by push_cast; exact a1
          exact_mod_cast this
        have b2 : -1 ≤ a := by exact_mod_cast a2
        refine stored_bottom (is_mul_rds ia hmax ?_) ?_ ?_
        · rw [abs_le]; constructor <;> norm_num at * <;> linarith
        · have : rds (a * 255) ≤ rds (63 / 128) := rds_mono (by norm_num at b1; linarith)
          have e : rds (63 / 128) = 63 / 128 := by decide +kernel
          rwa [e] at this
        · have : rds (-255) ≤ rds (a * 255) := rds_mono (by linarith)
          have e : rds (-255) = -255 := by decide +kernel
          rw [e] at this
          linarith
      rw [zero]; exact Nat.zero_le _
    · exact keep ho
  rcases le_or_gt X' 2 with h2 | h2
  · exact keep (order_encode hf hf' hX hg hX' hg' hm h2 hpq)
  · have X1 : (X' : ℝ) ≤ ((19900 : ℚ) : ℝ) := by have := hm.2.2.1; push_cast; linarith
    obtain ⟨-, e, he, e1, e2, e3⟩ := enc_over (exactAr_exact x) hf' hpq hX' hg' h2.le (by exact_mod_cast X1)
    have e1q : 1 ≤ e := by exact_mod_cast e1
    have e4 : e ≤ 19900 := by
      by_cases hl : dst.color.transfer = .Linear
      · rw [e3 hl]; exact_mod_cast X1
      · have : (e : ℝ) ≤ ((110 : ℚ) : ℝ) := by push_cast; exact e2 hl
        have : e ≤ 110 := by exact_mod_cast this
        linarith
    have top : stored p (p.libm scalar) scalar dst.width x' .interleaved8 ((columnArith (p.real scalar) dst.width x').mul
        (encodeTransfer (columnArith (p.real scalar) dst.width x') dst.color.transfer v') (maxSample dst.format)) = 255 := by
      rw [hf'.mul]
      have hmul := is_mul_rds he hmax (by rw [abs_of_nonneg (by linarith)]; linarith)
      refine stored_top hmul ?_ ?_
      · have : rds 255 ≤ rds (e * 255) := rds_mono (by linarith)
        have e255 : rds 255 = 255 := by decide +kernel
        rwa [e255] at this
      · by_cases hl : dst.color.transfer = .Linear
        · right
          refine hlin ?_ hl
          by_contra hsp
          have h3 := small' hsp
          have h4 := (abs_le.mp dX').2
          have h5 : (2 : ℝ) < X' := by exact_mod_cast h2
          have h6 : max (1 / 10 ^ 4) (q' : ℝ) ≤ 2 := max_le (by norm_num) (by linarith)
          generalize max (1 / 10 ^ 4) (q' : ℝ) = M at *
          norm_num at h4 h6; linarith
        · left
          have : (e : ℝ) ≤ ((110 : ℚ) : ℝ) := by push_cast; exact e2 hl
          have h110 : e ≤ 110 := by exact_mod_cast this
          have h3 : rds (e * 255) ≤ rds 28050 := rds_mono (by linarith)
          have e3 : rds 28050 = 28050 := by decide +kernel
          rw [e3] at h3
          linarith
    rw [top]
    have := ((columnArith (p.ieee (p.libm scalar) scalar) dst.width x).q8i ((columnArith (p.real scalar) dst.width x).mul
      (encodeTransfer (columnArith (p.real scalar) dst.width x) dst.color.transfer v) (maxSample dst.format))).toNat_lt
    simp only [stored]; omega

/-- **C75** from YUV to RGB (partial: luma from 16 to 235; PQ sources with `Linear` destinations are left out where stores saturate wrongly, see `C50_linear_black`). Of two pixels without colour of an 8-bit limited-range YUV image
the brighter one does not become the darker one: every component of the one is at most every component of the other, whatever the two
columns, unless the brighter pixel is in a column whose stores truncate and the other in one whose stores round. -/
theorem C75_video_partial (r : Run (p.real scalar) src dst sps dps m m') (ha : scalar.Accurate) (hs : isYuv src.format = true)
    (hd : isYuv dst.format = false) {i : YuvColorInfo} (hi : src.color = .YUV i)
    (hcs : i.space = .BT601 ∨ i.space = .BT709 ∨ i.space = .BT2020) (hr : i.fullRange = false) (h8 : sampleBits src.format = 8)
    {c c' : Chan} (hc : c = .R ∨ c = .G ∨ c = .B)
    (hc' : c' = .R ∨ c' = .G ∨ c' = .B) {x y x' y' n n' : Nat} (hx : x < dst.width) (hy : y < dst.height) (hx' : x' < dst.width)
    (hy' : y' < dst.height) (ht : Truncates p dst.width x' → Truncates p dst.width x)
    (hlin : src.color.transfer = .BT2100PQ → dst.color.transfer = .Linear → Truncates p dst.width x')
    (hn : shown src.format sps m .Y x y = n) (hU : shown src.format sps m .U x y = 128) (hV : shown src.format sps m .V x y = 128)
    (hn' : shown src.format sps m .Y x' y' = n') (hU' : shown src.format sps m .U x' y' = 128) (hV' : shown src.format sps m .V x' y' = 128)
    (h16 : 16 ≤ n) (hlt : n < n') (h235 : n' ≤ 235) :
    ∃ k k', sample dst.format dps m' c x y = some k ∧ sample dst.format dps m' c' x' y' = some k' ∧ k ≤ k' := by
  have hm : isMatrix i.space = true := by rcases hcs with h | h | h <;> rw [h] <;> rfl
  have ti : src.color.transfer = i.transfer := by rw [hi]; rfl
  have pi : src.color.primaries = i.primaries := by rw [hi]; rfl
  by_cases hne : src.color.transfer = dst.color.transfer ∧ src.color.primaries = dst.color.primaries
  · obtain ⟨k, hk, ck⟩ := C76_same_partial r hs hd hi (ti ▸ hne.1) (pi ▸ hne.2) hcs hr h8 hx hy hU hV
    obtain ⟨k', hk', ck'⟩ := C76_same_partial r hs hd hi (ti ▸ hne.1) (pi ▸ hne.2) hcs hr h8 hx' hy' hU' hV'
    refine ⟨k, k', hk c hc, hk' c' hc', ?_⟩
    rw [hn] at ck
    rw [hn'] at ck'
    have n1 : (16 : ℝ) ≤ n := by exact_mod_cast h16
    have n2 : (n : ℝ) + 1 ≤ n' := by exact_mod_cast hlt
    have n3 : (n' : ℝ) ≤ 235 := by exact_mod_cast h235
    have e : ∀ z : ℝ, 16 ≤ z → z ≤ 235 → clamp255 (255 * (z - 16) / 219) = 255 * (z - 16) / 219 := by
      intro z h0 h1
      rw [clamp255, min_eq_right (by linarith), max_eq_right (by linarith)]
    rw [e _ n1 (by linarith)] at ck
    rw [e _ (by linarith) n3] at ck'
    have : (k : ℝ) < k' + 1 := by
      by_cases h : Truncates p dst.width x'
      · have h2 := (ck.2 (ht h)).1
        have h3 := (ck'.2 h).2
        linarith
      · have h3 := (abs_le.mp (ck'.1 h)).1
        by_cases h' : Truncates p dst.width x
        · have h2 := (ck.2 h').1
          linarith
        · have h2 := (abs_le.mp (ck.1 h')).2
          linarith
    have : k < k' + 1 := by exact_mod_cast this
    omega
  rcases Nat.eq_or_lt_of_le h16 with rfl | h17
  · have hv' := video_value r hs hd hi hne hm hr h8 hx' hy' hU' hV' hc'
    exact ⟨0, _, C77_black r ha hs hd hi hcs hr h8 hx hy hn hU hV hc, hv', Nat.zero_le _⟩
  · exact video_order r ha hs hd hi hm hr h8 hne hc hc' hx hy hx' hy' ht hlin
      hn hU hV hn' hU' hV' h17 hlt h235

/-- **C75** from YUV to YUV (partial: a change of transfer function or primaries, neither in PQ; luma from 16 to 235, and from 17 in gamma
destinations, in which black is not a number, see `C50_gamma_yuv_black`). Of two pixels without colour of an 8-bit limited-range image the
brighter one does not get the lower luma code, whatever the two columns, unless it is in a column whose stores truncate and the other in
one whose stores round. -/
theorem C75_video_luma_partial (r : Run (p.real scalar) src dst sps dps m m') (ha : scalar.Accurate) (hs : isYuv src.format = true)
    (hd : isYuv dst.format = true) {i j : YuvColorInfo} (hi : src.color = .YUV i) (hmi : isMatrix i.space = true) (hr : i.fullRange = false)
    (h8 : sampleBits src.format = 8) (hj : dst.color = .YUV j) (hm : isMatrix j.space = true)
    (hne : ¬ (src.color.transfer = dst.color.transfer ∧ src.color.primaries = dst.color.primaries))
    (hst : i.transfer ≠ .BT2100PQ) (hdt : j.transfer ≠ .BT2100PQ)
    {x y x' y' n n' : Nat} (hx : x < dst.width) (hy : y < dst.height) (hx' : x' < dst.width)
    (hy' : y' < dst.height) (ht : Truncates p dst.width x' → Truncates p dst.width x)
    (hn : shown src.format sps m .Y x y = n) (hU : shown src.format sps m .U x y = 128) (hV : shown src.format sps m .V x y = 128)
    (hn' : shown src.format sps m .Y x' y' = n') (hU' : shown src.format sps m .U x' y' = 128) (hV' : shown src.format sps m .V x' y' = 128)
    (h16 : 16 ≤ n) (hg : j.transfer = .Gamma22 ∨ j.transfer = .Gamma28 → n ≠ 16) (hlt : n < n') (h235 : n' ≤ 235) :
    ∃ k k', sample dst.format dps m' .Y x y = some k ∧ sample dst.format dps m' .Y x' y' = some k' ∧ k ≤ k' := by
  have hcol : ∀ x, IsIeee (columnArith (p.real scalar) dst.width x) := column_ieee p (p.libm scalar) scalar dst.width
  have ti : src.color.transfer = i.transfer := by rw [hi]; rfl
  have e1 : readPic (columnArith (p.real scalar) dst.width) src.format src.color (shown src.format sps m) =
      decode (columnArith (p.real scalar) dst.width) i (Spec.normalize (columnArith (p.real scalar) dst.width) src.format
        (shown src.format sps m)) := by
    rw [hi]; simp [readPic, hs]
  refine luma_order ramp_luma r ha hd hj hm hne (by rw [ti]; exact hst) hdt hx hy hx' hy' ht (fun c hc => ?_) (fun c hc => ?_)
    (fun h => lt_of_le_of_ne h16 (Ne.symm (hg h))) h16 hlt h235
  · rw [e1, decode_neutral hcol hmi hr h8 (by rw [hn]; omega) hU hV hc, hn]
  · rw [e1, decode_neutral hcol hmi hr h8 (by rw [hn']; omega) hU' hV' hc, hn']

/-! ## Examples -/

/-- A ramp of lumas in SDR made an sRGB or a PQ image by AVX2, from video black on. -/
example {n : Nat} (hn : n < 16) {t : ColorTransfer} (ht : t = .SRGB ∨ t = .BT2100PQ) : ∃ (scalar : Libm) (mo : Mem) (k k' : Nat), scalar.Accurate ∧
    sample .RGB [⟨⟨400, 192⟩, 96⟩] mo .R n 0 = some k ∧ sample .RGB [⟨⟨400, 192⟩, 96⟩] mo .B (n + 1) 0 = some k' ∧ k ≤ k' := by
  obtain ⟨scalar, ha⟩ := libm_exists
  obtain ⟨mo, r⟩ := run_exists (c := Platform.avx2.real scalar) (platform_lawful .avx2 _ _)
    (src := .raw .I420 32 2 [⟨⟨0, 64⟩, 32⟩, ⟨⟨100, 16⟩, 16⟩, ⟨⟨200, 16⟩, 16⟩] (.YUV ⟨.SDR, .BT709, .BT709, false⟩))
    (dst := .raw .RGB 32 2 [⟨⟨400, 192⟩, 96⟩] (.RGB ⟨t, .BT709⟩))
    (sps := [⟨⟨0, 64⟩, 32⟩, ⟨⟨100, 16⟩, 16⟩, ⟨⟨200, 16⟩, 16⟩]) (dps := [⟨⟨400, 192⟩, 96⟩]) rfl rfl
    (planesDisjoint_of (by decide)) (separate_of (by decide)) (uniform_of (by decide)) (by rcases ht with rfl | rfl <;> decide)
    fun a => if a < 100 then UInt8.ofNat (a + 16) else 128
  have key : ∀ n : Fin 17, ∀ mi : Mem, mi = (fun a => if a < 100 then UInt8.ofNat (a + 16) else 128) →
      shown .I420 [⟨⟨0, 64⟩, 32⟩, ⟨⟨100, 16⟩, 16⟩, ⟨⟨200, 16⟩, 16⟩] mi .Y n 0 = n + 16 ∧
      shown .I420 [⟨⟨0, 64⟩, 32⟩, ⟨⟨100, 16⟩, 16⟩, ⟨⟨200, 16⟩, 16⟩] mi .U n 0 = 128 ∧
      shown .I420 [⟨⟨0, 64⟩, 32⟩, ⟨⟨100, 16⟩, 16⟩, ⟨⟨200, 16⟩, 16⟩] mi .V n 0 = 128 := by
    intro n mi h
    subst h
    revert n
    decide
  obtain ⟨a1, a2, a3⟩ := key ⟨n, by omega⟩ _ rfl
  obtain ⟨b1, b2, b3⟩ := key ⟨n + 1, by omega⟩ _ rfl
  obtain ⟨k, k', h⟩ := C75_video_partial r ha rfl rfl rfl (.inr (.inl rfl)) rfl rfl (c := .R) (c' := .B) (.inl rfl) (.inr (.inr rfl))
    (x := n) (y := 0) (x' := n + 1) (y' := 0) (by change n < 32; omega) (by change 0 < 2; omega) (by change n + 1 < 32; omega)
    (by change 0 < 2; omega) (by
      rintro (h | h | h)
      · cases h
      · cases h
      · exact absurd (by rcases ht with rfl | rfl <;> (change n + 1 < 32; omega)) h) nofun a1 a2 a3 b1 b2 b3 (by simp) (by simp) (by change n + 1 + 16 ≤ 235; omega)
  exact ⟨scalar, mo, k, k', ha, h⟩

end Ezk.Props

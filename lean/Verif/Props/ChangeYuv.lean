import Verif.Proofs.DecodeInRange
import Verif.Proofs.DecodeTight
import Verif.Proofs.EncodeLip
import Verif.Props.Change

/-!
# C52: RGB images from YUV images in another transfer function or with other primaries
-/

namespace Ezk.Props
open Ezk F32 Spec

variable {p : Platform} {scalar : Libm} {src dst : Img} {sps dps : List Plane} {m m' : Mem}

/-- The light that the signals `s` of a pixel stand for, in the primaries of the destination: exact arithmetic with the numbers
of the source code. -/
noncomputable def lightOf (sc dc : ColorInfo) (x : Nat) (s : Chan → ℝ) (c : Chan) : ℝ :=
  let light (c : Chan) : ℝ := decodeTransfer (exactAr x) sc.transfer (s c)
  component (rowMul (exactAr x) (rowMul (exactAr x) (light .R, light .G, light .B) sc.primaries.rgbToXyzMat)
    dc.primaries.xyzToRgbMat) c

/-- The ideal RGB signals of a YUV pixel. -/
noncomputable def signalsOf (k : ℝ × ℝ × ℝ) (f : PixelFormat) (full : Bool) (V : Pic Nat) (x y : Nat) (c : Chan) : ℝ :=
  idealRgb k f full V c x y / 255

/-- What is asked of the signals of the pixels of column `x`: those of transfer functions that are defined below 0 may have any
value, except that vector code of NEON, which compares magnitudes, wants them to be at least -0.04; gamma wants signals from
10⁻⁵ to 1.9; HLG wants signals up to 1.1, which is more than what limited-range luma can show. Not for PQ. -/
def Decodable (p : Platform) (w x : Nat) (t : ColorTransfer) (s : Chan → ℝ) : Prop :=
  match t with
  | .Linear | .SRGB | .SDR => p = .neon ∧ x < w - w % 8 → ∀ c, c = .R ∨ c = .G ∨ c = .B → -(1 / 25) ≤ s c
  | .Gamma22 | .Gamma28 => ∀ c, c = .R ∨ c = .G ∨ c = .B → 1 / 10 ^ 5 ≤ s c ∧ s c ≤ 19 / 10
  | .BT2100HLG => ∀ c, c = .R ∨ c = .G ∨ c = .B → s c ≤ 11 / 10
  | .BT2100PQ => False

theorem decodable_signed {w x : Nat} {t : ColorTransfer} {s : Chan → ℝ} (ht : SignedTransfer t)
    (h : Magnitudes p w x → ∀ c, c = .R ∨ c = .G ∨ c = .B → -(1 / 25) ≤ s c) : Decodable p w x t s := by
  rcases ht with rfl | rfl | rfl <;> exact h

theorem decodable_cases {w x : Nat} {t : ColorTransfer} {s : Chan → ℝ} (h : Decodable p w x t s) :
    SignedTransfer t ∧ (Magnitudes p w x → ∀ c, c = .R ∨ c = .G ∨ c = .B → -(1 / 25) ≤ s c) ∨
      ∀ c, c = .R ∨ c = .G ∨ c = .B → InRange t (s c) := by
  cases t
  case Linear => exact .inl ⟨.inl rfl, h⟩
  case SRGB => exact .inl ⟨.inr (.inl rfl), h⟩
  case SDR => exact .inl ⟨.inr (.inr rfl), h⟩
  case Gamma22 => exact .inr fun c hc => .inl ⟨.inl rfl, h c hc⟩
  case Gamma28 => exact .inr fun c hc => .inl ⟨.inr rfl, h c hc⟩
  case BT2100HLG => exact .inr fun c hc => .inr ⟨rfl, h c hc⟩
  case BT2100PQ => exact absurd h id

/-- The matrices applied to three lights. -/
theorem mix_signed {ar : Arith F32} {rr : Arith ℝ} (he : Exact rr) (hi : IsIeee ar) (sp dp : ColorPrimaries) {v : C3 F32} {q : C3 ℝ}
    (h1 : App v.1 q.1 (42 / 10 ^ 6)) (h2 : App v.2.1 q.2.1 (42 / 10 ^ 6)) (h3 : App v.2.2 q.2.2 (42 / 10 ^ 6))
    (b1 : |q.1| ≤ 67 / 10) (b2 : |q.2.1| ≤ 67 / 10) (b3 : |q.2.2| ≤ 67 / 10) {c : Chan} (hc : c = .R ∨ c = .G ∨ c = .B) :
    let V := rowMul ar (rowMul ar v sp.rgbToXyzMat) dp.xyzToRgbMat
    let L := component (rowMul rr (rowMul rr q sp.rgbToXyzMat) dp.xyzToRgbMat) c
    let w := match c with | .R => V.1 | .G => V.2.1 | _ => V.2.2
    App w L (133 / 10 ^ 6) ∧ Good w ∧ |L| ≤ 18 := by
  intro V L w
  obtain ⟨P1, i1, d1⟩ := h1.is
  obtain ⟨P2, i2, d2⟩ := h2.is
  obtain ⟨P3, i3, d3⟩ := h3.is
  have big : ∀ {P : ℚ} {q : ℝ}, |(P : ℝ) - q| ≤ 42 / 10 ^ 6 → |q| ≤ 67 / 10 → |(P : ℝ)| ≤ 10011 / 10000 * 7 := by
    intro P q h1 h2
    rw [abs_le] at *
    have := h1.1; have := h1.2
    constructor <;> norm_num at * <;> linarith
  obtain ⟨a1, a2, a3⟩ := mix_round_scaled he hi sp dp (p := v) (q := ((P1 : ℝ), (P2 : ℝ), (P3 : ℝ))) (S := 7) (by norm_num) (by norm_num)
    i1.app i2.app i3.app (big d1 b1) (big d2 b2) (big d3 b3)
  obtain ⟨l1, l2, l3⟩ := mix_lipschitz he sp dp (p := ((P1 : ℝ), (P2 : ℝ), (P3 : ℝ))) (q := q) d1 d2 d3
  obtain ⟨g1, g2, g3⟩ := mix_lipschitz he sp dp (p := q) (q := (0, 0, 0)) (e := 67 / 10) (by simpa using b1) (by simpa using b2)
    (by simpa using b3)
  have z : ∀ M : Mat ℝ, rowMul rr ((0 : ℝ), (0 : ℝ), (0 : ℝ)) M = (0, 0, 0) := by
    intro M; simp [rowMul, dot, he.add, he.mul]
  rw [z, z, sub_zero] at g1 g2 g3
  rcases hc with rfl | rfl | rfl
  · exact ⟨(a1.shift l1).mono (by norm_num), good_dot hi, g1.trans (by norm_num)⟩
  · exact ⟨(a2.shift l2).mono (by norm_num), good_dot hi, g2.trans (by norm_num)⟩
  · exact ⟨(a3.shift l3).mono (by norm_num), good_dot hi, g3.trans (by norm_num)⟩

/-- The samples of a YUV pixel, as floats. -/
theorem yuv_samples {ar : Nat → Arith F32} (hi : ∀ x, IsIeee (ar x)) {f : PixelFormat} (hs : isYuv f = true) {w h : Nat} {V : Pic Nat}
    (hV : InDepth f w h V) {x y : Nat} (hx : x < w) (hy : y < h) {c : Chan} (hc : c = .Y ∨ c = .U ∨ c = .V) :
    App (Spec.normalize ar f V c x y) ((V c x y : ℝ) / (2 ^ sampleBits f - 1 : Nat)) (1 / 10 ^ 7) ∧
      0 ≤ (V c x y : ℝ) / (2 ^ sampleBits f - 1 : Nat) ∧ (V c x y : ℝ) / (2 ^ sampleBits f - 1 : Nat) ≤ 1 := by
  obtain ⟨l, hl⟩ : ∃ l, sampleLoc f c x y = some l := by
    revert hs; rcases hc with rfl | rfl | rfl <;> cases f <;> simp [isYuv, sampleLoc]
  have hm := max_lt f
  have h1 := sample_app (hi x) hm.1 (by omega) (hV c x y l hx hy hl)
  exact ⟨h1.1, by positivity, (abs_le.mp h1.2).2⟩

/-- The RGB signals as computed. -/
theorem yuv_signals (r : Run (p.real scalar) src dst sps dps m m') (hs : isYuv src.format = true) {i : YuvColorInfo}
    {k : ℝ × ℝ × ℝ} (hst : IsStandard i.space k) {x y : Nat} (hx : x < dst.width) (hy : y < dst.height)
    (hV : InDepth src.format src.width src.height (shown src.format sps m)) {c : Chan} (hc : c = .R ∨ c = .G ∨ c = .B) :
    let s := signalsOf k src.format i.fullRange (shown src.format sps m) x y c
    ∃ X : ℚ, Is (decode (columnArith (p.real scalar) dst.width) i (Spec.normalize (columnArith (p.real scalar) dst.width) src.format
        (shown src.format sps m)) c x y) X ∧
      Good (decode (columnArith (p.real scalar) dst.width) i (Spec.normalize (columnArith (p.real scalar) dst.width) src.format
        (shown src.format sps m)) c x y) ∧ |(X : ℝ) - s| ≤ 24 / 10 ^ 7 ∧ -117 / 100 ≤ s ∧ s ≤ 219 / 100 := by
  intro s
  have hcol : ∀ x, IsIeee (columnArith (p.real scalar) dst.width x) := column_ieee p (p.libm scalar) scalar dst.width
  obtain ⟨a1, a2, a3⟩ := decode_tight hcol exactAr_exact (q := fun c x y =>
    (shown src.format sps m c x y : ℝ) / (2 ^ sampleBits src.format - 1 : Nat)) hst.1
    (fun c hc => yuv_samples hcol hs hV (r.returned.width ▸ hx) (r.returned.height ▸ hy) hc) hc
  have e : decode exactAr i (fun c x y => (shown src.format sps m c x y : ℝ) / (2 ^ sampleBits src.format - 1 : Nat)) c x y = s := by
    rw [show s = idealRgb k src.format i.fullRange (shown src.format sps m) c x y / 255 from rfl, ← decode_ideal hst _ _ hc]
    rw [mul_div_assoc, div_self (by norm_num), mul_one]
  rw [e] at a1 a3
  obtain ⟨X, hX, hd⟩ := a1.is
  rw [abs_le] at a3
  exact ⟨X, hX, a2, hd, by linarith [a3.1], by linarith [a3.2]⟩

/-- What a YUV image becomes as an RGB image, in terms of `decode`. -/
theorem yuv_change_pick (r : Run (p.real scalar) src dst sps dps m m') (hs : isYuv src.format = true)
    (hd : isYuv dst.format = false) {i : YuvColorInfo} (hi : src.color = .YUV i)
    (hne : ¬ (src.color.transfer = dst.color.transfer ∧ src.color.primaries = dst.color.primaries))
    {c : Chan} (hc : c = .R ∨ c = .G ∨ c = .B) {x y : Nat} (hx : x < dst.width) (hy : y < dst.height) :
    sample dst.format dps m' c x y = some (stored p (p.libm scalar) scalar dst.width x .interleaved8
      ((columnArith (p.real scalar) dst.width x).mul (changeColor (columnArith (p.real scalar) dst.width) src.color dst.color
        (decode (columnArith (p.real scalar) dst.width) i (Spec.normalize (columnArith (p.real scalar) dst.width) src.format
          (shown src.format sps m))) c x y) (maxSample dst.format))) := by
  have hV := shown_depicts (w := src.width) (h := src.height) r.returned.vsrc.fits.1 m
  obtain ⟨a, hl⟩ : ∃ a, sampleLoc dst.format c x y = some a := by
    revert hd; rcases hc with rfl | rfl | rfl <;> cases dst.format <;> simp [isYuv, sampleLoc]
  have hb : ¬ BadChroma src.format src.color dst.format dst.color := by
    rintro ⟨_, h, _⟩
    revert h hd; cases dst.format <;> simp [isYuv, vsub]
  rw [r.depicts hb hV c x y a hx hy hl]
  have e1 : readPic (columnArith (p.real scalar) dst.width) src.format src.color (shown src.format sps m) =
      decode (columnArith (p.real scalar) dst.width) i
        (Spec.normalize (columnArith (p.real scalar) dst.width) src.format (shown src.format sps m)) := by
    rw [hi]; simp only [readPic, hs, if_true]
  have e2 : ∀ q : Pic F32, writePic (columnArith (p.real scalar) dst.width) dst.format dst.color q = q := by
    intro q; cases dst.color <;> simp [writePic, hd]
  rw [converted, convertedF, if_neg (fun h => hne ⟨by rw [h.2], by rw [h.2]⟩), e1, adaptPic, if_neg hne, e2]
  simp only [quantize, hd, if_true]
  rfl

/-- The light `X` as computed. -/
theorem yuv_light (r : Run (p.real scalar) src dst sps dps m m') (ha : scalar.Accurate) (hs : isYuv src.format = true)
    {i : YuvColorInfo} (hi : src.color = .YUV i)
    {k : ℝ × ℝ × ℝ} (hst : IsStandard i.space k)
    {c : Chan} (hc : c = .R ∨ c = .G ∨ c = .B) {x y : Nat} (hx : x < dst.width) (hy : y < dst.height)
    (hV : InDepth src.format src.width src.height (shown src.format sps m))
    (ht : Decodable p dst.width x i.transfer (signalsOf k src.format i.fullRange (shown src.format sps m) x y)) :
    let L := lightOf src.color dst.color x (signalsOf k src.format i.fullRange (shown src.format sps m) x y) c
    ∃ (v : F32) (X : ℚ), Is v X ∧ Good v ∧ |(X : ℝ) - L| ≤ 133 / 10 ^ 6 ∧ |L| ≤ 18 ∧
      changeColor (columnArith (p.real scalar) dst.width) src.color dst.color
        (decode (columnArith (p.real scalar) dst.width) i (Spec.normalize (columnArith (p.real scalar) dst.width) src.format
          (shown src.format sps m))) c x y =
        encodeTransfer (columnArith (p.real scalar) dst.width x) dst.color.transfer v := by
  intro L
  have hf := column_floats p ha dst.width x
  have he := exactAr_exact x
  have hti : src.color.transfer = i.transfer := by rw [hi]; rfl
  have light : ∀ c, (c = .R ∨ c = .G ∨ c = .B) →
      App (decodeTransfer (columnArith (p.real scalar) dst.width x) src.color.transfer
        (decode (columnArith (p.real scalar) dst.width) i (Spec.normalize (columnArith (p.real scalar) dst.width) src.format
          (shown src.format sps m)) c x y))
        (decodeTransfer (exactAr x) src.color.transfer (signalsOf k src.format i.fullRange (shown src.format sps m) x y c)) (42 / 10 ^ 6) ∧
      |decodeTransfer (exactAr x) src.color.transfer (signalsOf k src.format i.fullRange (shown src.format sps m) x y c)| ≤ 67 / 10 := by
    intro c hc
    obtain ⟨X, hX, hg, hd, s0, s1⟩ := yuv_signals r hs hst hx hy hV hc
    have hd' := abs_le.mp hd
    have hd1 := hd'.1
    have hd2 := hd'.2
    norm_num at hd1 hd2
    have X0 : ((-12 / 10 : ℚ) : ℝ) ≤ X := by push_cast; linarith
    have X1 : (X : ℝ) ≤ ((22 / 10 : ℚ) : ℝ) := by push_cast; linarith
    rw [hti]
    rcases decodable_cases ht with ⟨ht, hneon⟩ | hin
    swap
    · exact dec_range_app he hf (hin c hc) hX hg hd
    have cmp : ∀ b : ℚ, 4045 / 100000 ≤ b + 1 / 10 ^ 8 → X < 0 → Compares (columnArith (p.real scalar) dst.width x) X b := by
      intro b hb hneg
      refine column_compares p (by norm_num at hb; linarith) fun hmag => ?_
      have h1 := hneon hmag c hc
      have h2 : ((-401 / 10000 : ℚ) : ℝ) ≤ X := by push_cast; linarith
      have h3 : (-401 / 10000 : ℚ) ≤ X := by exact_mod_cast h2
      rw [abs_of_neg hneg]
      norm_num at hb
      linarith
    exact ⟨dec_signed_app he hf ht hX hg (by exact_mod_cast X0) (by exact_mod_cast X1) (s1.trans (by norm_num)) hd
      (fun h => ⟨cmp _ (by norm_num) h, cmp _ (by norm_num) h⟩), dec_wide_range he ht (le_trans (by norm_num) s0) (s1.trans (by norm_num))⟩
  have l1 := light .R (by simp)
  have l2 := light .G (by simp)
  have l3 := light .B (by simp)
  obtain ⟨a1, a2, a3⟩ := mix_signed he hf.toIsIeee src.color.primaries dst.color.primaries (v := (_, _, _)) (q := (_, _, _)) l1.1 l2.1 l3.1
    l1.2 l2.2 l3.2 hc
  obtain ⟨X, hX, hdX⟩ := a1.is
  refine ⟨_, X, hX, a2, hdX, a3, ?_⟩
  rcases hc with rfl | rfl | rfl <;> rfl

/-- What is stored: the light `X` as computed, encoded. -/
theorem yuv_change_stored (r : Run (p.real scalar) src dst sps dps m m') (ha : scalar.Accurate) (hs : isYuv src.format = true)
    (hd : isYuv dst.format = false) {i : YuvColorInfo} (hi : src.color = .YUV i)
    (hne : ¬ (src.color.transfer = dst.color.transfer ∧ src.color.primaries = dst.color.primaries))
    {k : ℝ × ℝ × ℝ} (hst : IsStandard i.space k)
    {c : Chan} (hc : c = .R ∨ c = .G ∨ c = .B) {x y : Nat} (hx : x < dst.width) (hy : y < dst.height)
    (hV : InDepth src.format src.width src.height (shown src.format sps m))
    (ht : Decodable p dst.width x i.transfer (signalsOf k src.format i.fullRange (shown src.format sps m) x y)) :
    let L := lightOf src.color dst.color x (signalsOf k src.format i.fullRange (shown src.format sps m) x y) c
    ∃ (v : F32) (X : ℚ), Is v X ∧ Good v ∧ |(X : ℝ) - L| ≤ 133 / 10 ^ 6 ∧ |L| ≤ 18 ∧
      sample dst.format dps m' c x y = some (stored p (p.libm scalar) scalar dst.width x .interleaved8
        ((columnArith (p.real scalar) dst.width x).mul
          (encodeTransfer (columnArith (p.real scalar) dst.width x) dst.color.transfer v) (maxSample dst.format))) := by
  intro L
  obtain ⟨v, X, hX, hg, hdX, hL, e⟩ := yuv_light r ha hs hi hst hc hx hy hV ht
  refine ⟨v, X, hX, hg, hdX, hL, ?_⟩
  rw [yuv_change_pick r hs hd hi hne hc hx hy, e]

/-- **C52** (partial: matrices BT.601 and BT.709; signals as `Decodable` says; PQ sources see `C52_pq_light_partial`). Every component stored is, within 1.001
codes (PQ: 1.02), the encoding of a light that differs from the exact one by at most 1.4·10⁻⁴ of reference white; light below 0
counts as 0. -/
theorem C52_light_partial (r : Run (p.real scalar) src dst sps dps m m') (ha : scalar.Accurate) (hs : isYuv src.format = true)
    (hd : isYuv dst.format = false) {i : YuvColorInfo} (hi : src.color = .YUV i)
    (hne : ¬ (src.color.transfer = dst.color.transfer ∧ src.color.primaries = dst.color.primaries))
    (hcs : i.space = .BT601 ∨ i.space = .BT709) {k : ℝ × ℝ × ℝ} (hk : lumaWeights i.space = some k)
    {c : Chan} (hc : c = .R ∨ c = .G ∨ c = .B) {x y : Nat} (hx : x < dst.width) (hy : y < dst.height)
    (hV : InDepth src.format src.width src.height (shown src.format sps m))
    (hsig : Decodable p dst.width x i.transfer (signalsOf k src.format i.fullRange (shown src.format sps m) x y)) :
    ∃ (n : Nat) (l : ℝ), sample dst.format dps m' c x y = some n ∧ 0 ≤ l ∧
      |l - max 0 (lightOf src.color dst.color x (signalsOf k src.format i.fullRange (shown src.format sps m) x y) c)| ≤ 14 / 10 ^ 5 ∧
      |(n : ℝ) - clamp255 (encodeTransfer (exactAr x) dst.color.transfer l * 255)| < storeTolerance dst.color.transfer := by
  obtain ⟨v, X, hX, hg, hL, hb, e⟩ := yuv_change_stored r ha hs hd hi hne ⟨hcs, hk⟩ hc hx hy hV hsig
  generalize lightOf src.color dst.color x (signalsOf k src.format i.fullRange (shown src.format sps m) x y) c = L at *
  have hL' := abs_le.mp hL
  have hL1 := hL'.1
  have hL2 := hL'.2
  norm_num at hL1 hL2
  rw [abs_le] at hb
  have X1 : ((-19900 : ℚ) : ℝ) ≤ X := by push_cast; linarith [hb.1]
  have X2 : (X : ℝ) ≤ ((19900 : ℚ) : ℝ) := by push_cast; linarith [hb.2]
  obtain ⟨l, h0, hl, hen⟩ := enc_any (exactAr_exact x) (column_floats p ha dst.width x) dst.color.transfer hX hg (by exact_mod_cast X1)
    (by exact_mod_cast X2)
  have h4 : |max 0 (X : ℝ) - max 0 L| ≤ |(X : ℝ) - L| := by
    rw [max_comm 0, max_comm 0]; exact abs_max_sub_max_le_abs _ _ 0
  have h5 := abs_sub_le l (max 0 (X : ℝ)) (max 0 L)
  have h6 : |l - max 0 L| ≤ 14 / 10 ^ 5 := by norm_num at hl hL ⊢; linarith
  refine ⟨_, l, e, h0, h6, stored_encodes hen p _ _ _ _ hd fun _ => .inl ?_⟩
  have h7 := (abs_le.mp h6).2
  have h8 : max 0 L ≤ 18 := max_le (by norm_num) hb.2
  norm_num at h7
  linarith

/-- **C52** for destinations that do not magnify errors near black: the stored codes, compared with the exact formulas. -/
theorem C52_codes_partial (r : Run (p.real scalar) src dst sps dps m m') (ha : scalar.Accurate) (hs : isYuv src.format = true)
    (hd : isYuv dst.format = false) {i : YuvColorInfo} (hi : src.color = .YUV i)
    (hne : ¬ (src.color.transfer = dst.color.transfer ∧ src.color.primaries = dst.color.primaries))
    (hcs : i.space = .BT601 ∨ i.space = .BT709) {k : ℝ × ℝ × ℝ} (hk : lumaWeights i.space = some k)
    (ht' : dst.color.transfer = .Linear ∨ dst.color.transfer = .SRGB ∨ dst.color.transfer = .SDR)
    {c : Chan} (hc : c = .R ∨ c = .G ∨ c = .B) {x y : Nat} (hx : x < dst.width) (hy : y < dst.height)
    (hV : InDepth src.format src.width src.height (shown src.format sps m))
    (hsig : Decodable p dst.width x i.transfer (signalsOf k src.format i.fullRange (shown src.format sps m) x y)) :
    ∃ n : Nat, sample dst.format dps m' c x y = some n ∧
      |(n : ℝ) - clamp255 (encodeTransfer (exactAr x) dst.color.transfer (max 0 (lightOf src.color dst.color x
        (signalsOf k src.format i.fullRange (shown src.format sps m) x y) c)) * 255)| <
        if dst.color.transfer = .Linear then 1 + 4 / 100 else if dst.color.transfer = .SRGB then 1 + 47 / 100 else 1 + 25 / 100 := by
  obtain ⟨n, l, h1, h0, h2, h3⟩ := C52_light_partial r ha hs hd hi hne hcs hk hc hx hy hV hsig
  refine ⟨n, h1, ?_⟩
  generalize max 0 (lightOf src.color dst.color x (signalsOf k src.format i.fullRange (shown src.format sps m) x y) c) = L at *
  have h4 := enc_lip (exactAr_exact x) ht' l L
  have h5 := clamp_lipschitz (encodeTransfer (exactAr x) dst.color.transfer l * 255) (encodeTransfer (exactAr x)
    dst.color.transfer L * 255)
  rw [← sub_mul, abs_mul, abs_of_nonneg (show (0 : ℝ) ≤ 255 by norm_num)] at h5
  have h6 := abs_sub_le (n : ℝ) (clamp255 (encodeTransfer (exactAr x) dst.color.transfer l * 255)) (clamp255 (encodeTransfer
    (exactAr x) dst.color.transfer L * 255))
  norm_num at h2
  rcases ht' with e | e | e <;> rw [e] at h3 h4 h5 h6 ⊢
  · rw [if_pos rfl]
    rw [storeTolerance, if_neg nofun] at h3
    simp only [encodeSlope, encodeJump] at h4
    norm_num at h3 h4 ⊢
    linarith
  · rw [if_neg nofun, if_pos rfl]
    rw [storeTolerance, if_neg nofun] at h3
    simp only [encodeSlope, encodeJump] at h4
    norm_num at h3 h4 ⊢
    linarith
  · rw [if_neg nofun, if_neg nofun]
    rw [storeTolerance, if_neg nofun] at h3
    rw [show encodeSlope .SDR = 5 from rfl, show encodeJump .SDR = 26 / 10 ^ 5 from rfl] at h4
    norm_num at h3 h4 ⊢
    linarith

/-! ## PQ -/

/-- The brightest of the lights of a pixel before the primaries change. -/
noncomputable def brightestOf (sc : ColorInfo) (x : Nat) (s : Chan → ℝ) : ℝ :=
  max (decodeTransfer (exactAr x) sc.transfer (s .R)) (max (decodeTransfer (exactAr x) sc.transfer (s .G))
    (decodeTransfer (exactAr x) sc.transfer (s .B)))

/-- The PQ decoder for a signal `X` as computed. -/
theorem dec_pq_signal {rr : Arith ℝ} (he : Exact rr) {ar : Arith F32} (hf : Floats ar) {x : F32} {X : ℚ} (hx : Is x X) (hg : Good x)
    (h1 : X ≤ 1 + 3 / 10 ^ 6) :
    App (decodeTransfer ar .BT2100PQ x) (decodeTransfer rr .BT2100PQ (min 1 (X : ℝ)))
      (5 / 10 ^ 4 * decodeTransfer rr .BT2100PQ (min 1 (X : ℝ)) + 1 / 10 ^ 10) ∧
    0 ≤ decodeTransfer rr .BT2100PQ (min 1 (X : ℝ)) ∧ decodeTransfer rr .BT2100PQ (min 1 (X : ℝ)) ≤ 10000 := by
  have h := dec_pq_clamp hf hx hg h1
  rw [dec_pq he, max_comm (min 1 (X : ℝ)) 0]
  have z0 : 0 ≤ max 0 (min 1 (X : ℝ)) := le_max_left _ _
  have z1 : max 0 (min 1 (X : ℝ)) ≤ 1 := max_le (by norm_num) (min_le_left _ _)
  generalize max 0 (min 1 (X : ℝ)) = z at *
  have q0 : 0 ≤ z ^ (1 / 78.84375 : ℝ) := Real.rpow_nonneg z0 _
  have q1 : z ^ (1 / 78.84375 : ℝ) ≤ 1 := Real.rpow_le_one z0 z1 (by norm_num)
  refine ⟨h, ?_⟩
  generalize z ^ (1 / 78.84375 : ℝ) = q at *
  have d0 : 0 < 18.851563 - q * 18.6875 := by norm_num; linarith
  have n0 : 0 ≤ max (q - 0.8359375) 0 := le_max_right _ _
  have b1 : max (q - 0.8359375) 0 / (18.851563 - q * 18.6875) ≤ 1 := by
    rw [div_le_one d0]
    refine max_le ?_ d0.le
    norm_num; linarith
  have b0 := div_nonneg n0 d0.le
  have g1 := Real.rpow_le_one b0 b1 (show (0 : ℝ) ≤ 1 / 0.15930176 by norm_num)
  have g0 := Real.rpow_nonneg b0 (1 / 0.15930176 : ℝ)
  constructor <;> linarith

/-- **C52** for PQ sources (partial: matrices BT.601 and BT.709, signals up to 1, not PQ light beyond 128 written to a `Linear`
image by AVX2 or AVX-512). Every component stored is, within 1.001 codes (PQ: 1.02), the encoding of the light of signals that
differ from the exact ones by at most 2.4·10⁻⁶, up to 0.15% of the brightest component; light below 0 counts as 0. -/
theorem C52_pq_light_partial (r : Run (p.real scalar) src dst sps dps m m') (ha : scalar.Accurate) (hs : isYuv src.format = true)
    (hd : isYuv dst.format = false) {i : YuvColorInfo} (hi : src.color = .YUV i)
    (hne : ¬ (src.color.transfer = dst.color.transfer ∧ src.color.primaries = dst.color.primaries))
    (hcs : i.space = .BT601 ∨ i.space = .BT709) {k : ℝ × ℝ × ℝ} (hk : lumaWeights i.space = some k) (ht : i.transfer = .BT2100PQ)
    {x y : Nat} (hx : x < dst.width) (hy : y < dst.height)
    (hV : InDepth src.format src.width src.height (shown src.format sps m))
    (hsig : ∀ c, c = .R ∨ c = .G ∨ c = .B → signalsOf k src.format i.fullRange (shown src.format sps m) x y c ≤ 1) :
    ∃ s : Chan → ℝ, (∀ c, c = .R ∨ c = .G ∨ c = .B →
        |s c - signalsOf k src.format i.fullRange (shown src.format sps m) x y c| ≤ 24 / 10 ^ 7) ∧
      ∀ c, c = .R ∨ c = .G ∨ c = .B →
        (dst.color.transfer = .Linear → lightOf src.color dst.color x s c + 15 / 10 ^ 4 * max (1 / 10 ^ 3) (brightestOf src.color x s) ≤ 128 ∨
          Truncates p dst.width x) →
        ∃ (n : Nat) (l : ℝ), sample dst.format dps m' c x y = some n ∧ 0 ≤ l ∧
          |l - max 0 (lightOf src.color dst.color x s c)| ≤ 15 / 10 ^ 4 * max (1 / 10 ^ 3) (brightestOf src.color x s) ∧
          |(n : ℝ) - clamp255 (encodeTransfer (exactAr x) dst.color.transfer l * 255)| < storeTolerance dst.color.transfer := by
  have hf := column_floats p ha dst.width x
  have he := exactAr_exact x
  have hti : src.color.transfer = i.transfer := by rw [hi]; rfl
  set F : Chan → F32 := fun c => decode (columnArith (p.real scalar) dst.width) i (Spec.normalize (columnArith (p.real scalar) dst.width)
    src.format (shown src.format sps m)) c x y with hF
  have sig : ∀ c, c = .R ∨ c = .G ∨ c = .B → ∃ X : ℚ, Is (F c) X ∧ Good (F c) ∧ X ≤ 1 + 3 / 10 ^ 6 ∧
      |min 1 (X : ℝ) - signalsOf k src.format i.fullRange (shown src.format sps m) x y c| ≤ 24 / 10 ^ 7 := by
    intro c hc
    obtain ⟨X, hX, hg, hdX, -, -⟩ := yuv_signals r hs ⟨hcs, hk⟩ hx hy hV hc
    have h1 := hsig c hc
    have h2 := (abs_le.mp hdX).2
    refine ⟨X, hX, hg, ?_, ?_⟩
    · have : (X : ℝ) ≤ ((1 + 3 / 10 ^ 6 : ℚ) : ℝ) := by push_cast; norm_num at h2 ⊢; linarith
      exact_mod_cast this
    · refine le_trans ?_ hdX
      have := abs_min_sub_min_le_max 1 (X : ℝ) 1 (signalsOf k src.format i.fullRange (shown src.format sps m) x y c)
      rw [min_eq_right h1, sub_self, abs_zero, max_eq_right (abs_nonneg _)] at this
      exact this
  choose! X hX hg hX1 hXs using sig
  refine ⟨fun c => min 1 (X c : ℝ), hXs, fun c hc hlin => ?_⟩
  have light : ∀ c, c = .R ∨ c = .G ∨ c = .B →
      App (decodeTransfer (columnArith (p.real scalar) dst.width x) src.color.transfer (F c))
        (decodeTransfer (exactAr x) src.color.transfer (min 1 (X c : ℝ)))
        (5 / 10 ^ 4 * decodeTransfer (exactAr x) src.color.transfer (min 1 (X c : ℝ)) + 1 / 10 ^ 10) ∧
      0 ≤ decodeTransfer (exactAr x) src.color.transfer (min 1 (X c : ℝ)) ∧
        decodeTransfer (exactAr x) src.color.transfer (min 1 (X c : ℝ)) ≤ 10000 := by
    intro c hc
    rw [hti, ht]
    exact dec_pq_signal he hf (hX c hc) (hg c hc) (hX1 c hc)
  have l1 := light .R (by simp)
  have l2 := light .G (by simp)
  have l3 := light .B (by simp)
  set S : ℝ := max (1 / 10 ^ 3) (brightestOf src.color x fun c => min 1 (X c : ℝ)) with hS
  have hS0 : 1 / 10 ^ 3 ≤ S := le_max_left _ _
  have hS1 : 1 / 10 ^ 4 ≤ S := le_trans (by norm_num) hS0
  have b1 : decodeTransfer (exactAr x) src.color.transfer (min 1 (X .R : ℝ)) ≤ S := le_max_of_le_right (le_max_left _ _)
  have b2 : decodeTransfer (exactAr x) src.color.transfer (min 1 (X .G : ℝ)) ≤ S :=
    le_max_of_le_right (le_max_of_le_right (le_max_left _ _))
  have b3 : decodeTransfer (exactAr x) src.color.transfer (min 1 (X .B : ℝ)) ≤ S :=
    le_max_of_le_right (le_max_of_le_right (le_max_right _ _))
  have hS2 : S ≤ 10000 := max_le (by norm_num) (max_le l1.2.2 (max_le l2.2.2 l3.2.2))
  have err : ∀ {q : ℝ}, q ≤ S → 5 / 10 ^ 4 * q + 1 / 10 ^ 10 ≤ 57 / 10 ^ 5 * S := by
    intro q hq
    norm_num at hS1 ⊢
    linarith
  obtain ⟨m1, m2, m3⟩ := mix_app_scaled he hf.toIsIeee src.color.primaries dst.color.primaries hS1 (hS2.trans (by norm_num))
    (p := (_, _, _)) (q := (_, _, _)) (l1.1.mono (err b1)) (l2.1.mono (err b2)) (l3.1.mono (err b3)) ⟨l1.2.1, b1⟩ ⟨l2.2.1, b2⟩ ⟨l3.2.1, b3⟩
  obtain ⟨g1, g2, g3⟩ := mix_range_scaled he src.color.primaries dst.color.primaries (p := (_, _, _)) (by norm_num at hS1; linarith)
    ⟨l1.2.1, b1⟩ ⟨l2.2.1, b2⟩ ⟨l3.2.1, b3⟩
  obtain ⟨v, L, hv, hgv, hL, eL, e⟩ : ∃ (v : F32) (L : ℝ), App v L (149 / 10 ^ 5 * S) ∧ Good v ∧ (-8 / 10 * S ≤ L ∧ L ≤ 19 / 10 * S) ∧
      lightOf src.color dst.color x (fun c => min 1 (X c : ℝ)) c = L ∧
      changeColor (columnArith (p.real scalar) dst.width) src.color dst.color
        (decode (columnArith (p.real scalar) dst.width) i (Spec.normalize (columnArith (p.real scalar) dst.width) src.format
          (shown src.format sps m))) c x y =
        encodeTransfer (columnArith (p.real scalar) dst.width x) dst.color.transfer v := by
    rcases hc with rfl | rfl | rfl
    · exact ⟨_, _, m1, good_dot hf.toIsIeee, g1, rfl, rfl⟩
    · exact ⟨_, _, m2, good_dot hf.toIsIeee, g2, rfl, rfl⟩
    · exact ⟨_, _, m3, good_dot hf.toIsIeee, g3, rfl, rfl⟩
  rw [eL] at hlin ⊢
  obtain ⟨Z, hZ, hdZ⟩ := hv.is
  have hd3 := (abs_le.mp hdZ).1
  have hd4 := (abs_le.mp hdZ).2
  norm_num at hd3 hd4
  have Z1 : ((-19900 : ℚ) : ℝ) ≤ Z := by push_cast; linarith [hL.1]
  have Z2 : (Z : ℝ) ≤ ((19900 : ℚ) : ℝ) := by push_cast; linarith [hL.2]
  obtain ⟨l, h0, hl, hen⟩ := enc_any he hf dst.color.transfer hZ hgv (by exact_mod_cast Z1) (by exact_mod_cast Z2)
  have h4 : |max 0 (Z : ℝ) - max 0 L| ≤ |(Z : ℝ) - L| := by
    rw [max_comm 0, max_comm 0]; exact abs_max_sub_max_le_abs _ _ 0
  have h5 := abs_sub_le l (max 0 (Z : ℝ)) (max 0 L)
  have h6 : |l - max 0 L| ≤ 15 / 10 ^ 4 * S := by norm_num at hl hdZ hS0 ⊢; linarith
  have est := yuv_change_pick r hs hd hi hne hc hx hy
  rw [e] at est
  refine ⟨_, l, est, h0, h6, stored_encodes hen p _ _ _ _ hd fun hlinear => ?_⟩
  rcases hlin hlinear with h | h
  · left
    have h7 := (abs_le.mp h6).2
    rcases max_cases 0 L with ⟨e, -⟩ | ⟨e, -⟩ <;> rw [e] at h7
    · norm_num at h7; linarith
    · linarith
  · exact .inr h

/-! ## Where it fails: gamma transfer functions -/

/-- What IEEE 754 demands of powers of NaN. -/
def NanPow (pow : F32 → F32 → F32) : Prop := ∀ {y : F32} {Y : ℚ}, Is y Y → Y ≠ 0 → pow .nan y = .nan

theorem x86Pow_nan (y : F32) : x86Libm.pow .nan y = .nan := by
  have h1 : x86Log .nan = .nan := by decide +kernel
  have h2 : x86Exp .nan = .nan := by decide +kernel
  change x86Exp (F32.mul y (x86Log .nan)) = .nan
  rw [h1, mul_nan, h2]

theorem nan_pow (hp : p ≠ .neon) (hpow : NanPow scalar.pow) (w x : Nat) : NanPow (columnArith (p.real scalar) w x).pow := by
  intro y Y hy hY
  have hscal : (scalarArith scalar).pow .nan y = .nan := hpow hy hY
  unfold columnArith
  cases p
  · split <;> exact hscal
  · split
    · exact x86Pow_nan y
    · exact hscal
  · split
    · exact x86Pow_nan y
    · exact hscal
  · exact absurd rfl hp

theorem nan_add (y : F32) : F32.add .nan y = .nan := by cases y <;> rfl
theorem nan_mul (y : F32) : F32.mul .nan y = .nan := by cases y <;> rfl
theorem nan_sub (y : F32) : F32.sub .nan y = .nan := by cases y <;> rfl

/-- A NaN light is stored as 0. -/
theorem stored_nan_light (hp : p ≠ .neon) (hpow : NanPow scalar.pow) {t : ColorTransfer}
    (ht : t = .Linear ∨ t = .SRGB ∨ t = .SDR ∨ t = .Gamma22 ∨ t = .Gamma28) (w x : Nat) (f : PixelFormat) :
    stored p (p.libm scalar) scalar w x .interleaved8 ((columnArith (p.real scalar) w x).mul
      (encodeTransfer (columnArith (p.real scalar) w x) t .nan) (maxSample f)) = 0 := by
  have hi : IsIeee (columnArith (p.real scalar) w x) := column_ieee p (p.libm scalar) scalar w x
  have cmp : ∀ c : F32, (columnArith (p.real scalar) w x).le .nan c = false ∧ (columnArith (p.real scalar) w x).lt .nan c = false := by
    intro c
    unfold columnArith
    cases p <;> first | exact absurd rfl hp | (split <;> cases c <;> exact ⟨rfl, rfl⟩)
  have pw : NanPow (columnArith (p.real scalar) w x).pow := nan_pow hp hpow w x
  have e : encodeTransfer (columnArith (p.real scalar) w x) t .nan = .nan := by
    rcases ht with rfl | rfl | rfl | rfl | rfl
    · rfl
    · simp only [encodeTransfer, (cmp _).1, hi.mul, hi.sub]
      rw [if_neg (by simp), pw is_i24 (by norm_num), mul_nan, nan_sub]
    · simp only [encodeTransfer, (cmp _).2, hi.mul, hi.sub]
      rw [if_neg (by simp), pw is_045 (by norm_num), mul_nan, nan_sub]
    · exact pw is_i22 (by norm_num)
    · exact pw is_i28 (by norm_num)
  rw [e, hi.mul, nan_mul, stored_nan]

/-- One component of a pixel whose light is NaN makes the pixel black: the matrices of the primaries spread it to all components,
and NaN is stored as 0. -/
theorem nan_pixel_black (r : Run (p.real scalar) src dst sps dps m m') (hp : p ≠ .neon) (hnan : NanPow scalar.pow)
    (hs : isYuv src.format = true) (hd : isYuv dst.format = false) {i : YuvColorInfo} (hi : src.color = .YUV i)
    (ht' : dst.color.transfer ≠ .BT2100PQ ∧ dst.color.transfer ≠ .BT2100HLG)
    (hne : ¬ (src.color.transfer = dst.color.transfer ∧ src.color.primaries = dst.color.primaries))
    {x y : Nat} (hx : x < dst.width) (hy : y < dst.height) {c : Chan} (hc : c = .R ∨ c = .G ∨ c = .B)
    (hl : decodeTransfer (columnArith (p.real scalar) dst.width x) src.color.transfer
      (decode (columnArith (p.real scalar) dst.width) i (Spec.normalize (columnArith (p.real scalar) dst.width) src.format
        (shown src.format sps m)) c x y) = .nan) :
    ∀ c', c' = .R ∨ c' = .G ∨ c' = .B → sample dst.format dps m' c' x y = some 0 := by
  intro c' hc'
  have hf : IsIeee (columnArith (p.real scalar) dst.width x) := column_ieee p (p.libm scalar) scalar dst.width x
  rw [yuv_change_pick r hs hd hi hne hc' hx hy]
  have hmix : ∀ (v : C3 F32) (M : Mat F32), v.1 = .nan ∨ v.2.1 = .nan ∨ v.2.2 = .nan →
      rowMul (columnArith (p.real scalar) dst.width x) v M = (.nan, .nan, .nan) := by
    rintro ⟨a, b, d⟩ M h
    simp only [rowMul, dot, hf.add, hf.mul]
    rcases h with h | h | h <;> simp only at h <;> subst h <;> simp only [nan_mul, nan_add, add_nan]
  have e : changeColor (columnArith (p.real scalar) dst.width) src.color dst.color
      (decode (columnArith (p.real scalar) dst.width) i (Spec.normalize (columnArith (p.real scalar) dst.width) src.format
        (shown src.format sps m))) c' x y =
      encodeTransfer (columnArith (p.real scalar) dst.width x) dst.color.transfer .nan := by
    simp only [changeColor, changeRgb, map3]
    rw [hmix (decodeTransfer _ _ _, decodeTransfer _ _ _, decodeTransfer _ _ _) _ (by
      rcases hc with rfl | rfl | rfl
      · exact Or.inl hl
      · exact Or.inr (Or.inl hl)
      · exact Or.inr (Or.inr hl)), hmix (.nan, .nan, .nan) _ (Or.inl rfl)]
    rcases hc' with rfl | rfl | rfl <;> rfl
  rw [e, stored_nan_light hp hnan ?_ dst.width x dst.format]
  revert ht'
  cases dst.color.transfer <;> simp

/-- On x86 and in scalar code, a colour one component of which is below 0 by a hundred-thousandth, in a YUV image with a gamma
transfer function, becomes black in RGB: the power of the negative signal is NaN, the matrices of the primaries spread it to all
components, and NaN is stored as 0. -/
theorem C52_gamma_black (r : Run (p.real scalar) src dst sps dps m m') (hp : p ≠ .neon) (hneg : NegativePow scalar.pow)
    (hnan : NanPow scalar.pow) (hs : isYuv src.format = true) (hd : isYuv dst.format = false) {i : YuvColorInfo}
    (hi : src.color = .YUV i) (hcs : i.space = .BT601 ∨ i.space = .BT709) {k : ℝ × ℝ × ℝ} (hk : lumaWeights i.space = some k)
    (ht : i.transfer = .Gamma22 ∨ i.transfer = .Gamma28)
    (ht' : dst.color.transfer ≠ .BT2100PQ ∧ dst.color.transfer ≠ .BT2100HLG)
    (hne : ¬ (src.color.transfer = dst.color.transfer ∧ src.color.primaries = dst.color.primaries))
    {x y : Nat} (hx : x < dst.width) (hy : y < dst.height) (hV : InDepth src.format src.width src.height (shown src.format sps m))
    {c : Chan} (hc : c = .R ∨ c = .G ∨ c = .B)
    (hlow : signalsOf k src.format i.fullRange (shown src.format sps m) x y c ≤ -(1 / 10 ^ 5)) :
    ∀ c', c' = .R ∨ c' = .G ∨ c' = .B → sample dst.format dps m' c' x y = some 0 := by
  have hti : src.color.transfer = i.transfer := by rw [hi]; rfl
  obtain ⟨X, hX, -, hdX, -, -⟩ := yuv_signals r hs ⟨hcs, hk⟩ hx hy hV hc
  have X0 : (X : ℝ) < ((0 : ℚ) : ℝ) := by
    have := (abs_le.mp hdX).2
    push_cast; norm_num at this hlow; linarith
  have X0' : X < 0 := by exact_mod_cast X0
  refine nan_pixel_black r hp hnan hs hd hi ht' hne hx hy hc ?_
  obtain ⟨s, q, e, hq, hq2⟩ := hX
  cases s with
  | false => exact absurd X0' (by rw [← hq2]; simpa [signed] using hq)
  | true =>
    have q0 : 0 < q := by rw [← hq2] at X0'; simpa [signed] using X0'
    rw [e, hti]
    have hpw : NegativePow (columnArith (p.real scalar) dst.width x).pow := negative_pow hp hneg dst.width x
    rcases ht with h | h <;> rw [h] <;> simp only [decodeTransfer]
    · exact hpw q0 is_22 (by decide +kernel)
    · exact hpw q0 is_28 (by decide +kernel)

/-! ## Where it fails: PQ -/

/-- The PQ decoder for signals from 2 to 2.2: the denominator is below 0, and the power of a number below 0 is NaN. -/
theorem dec_pq_nan {ar : Arith F32} (hf : Floats ar) (hneg : NegativePow ar.pow) {x : F32} {X : ℚ} (hx : Is x X) (hg : Good x)
    (h0 : 2 ≤ X) (h1 : X ≤ 22 / 10) : decodeTransfer ar .BT2100PQ x = .nan := by
  have hX0 : (2 : ℝ) ≤ X := by exact_mod_cast h0
  have hX1 : (X : ℝ) ≤ 22 / 10 := by
    have := (Rat.cast_le (K := ℝ)).mpr h1; push_cast at this; exact this
  have hl0 : 0.6931471803 < Real.log X := lt_of_lt_of_le Real.log_two_gt_d9 (Real.log_le_log (by norm_num) hX0)
  have hl1 : Real.log X ≤ 12 / 10 := by have := Real.log_le_sub_one_of_pos (show (0 : ℝ) < X by linarith); linarith
  obtain ⟨P, hP, hcase⟩ := pow_log hf hx hg (by linarith) (by linarith) is_pqN (by norm_num) (by norm_num) (fun _ => by
    push_cast; norm_num at hl1 ⊢; linarith)
  have hP2 : 10087895 / 10 ^ 7 ≤ (P : ℝ) ∧ (P : ℝ) ≤ 102 / 100 := by
    rcases hcase with ⟨-, P0, hPe⟩ | ⟨hs, -⟩
    · have eN : ((3404651 / 268435456 : ℚ) : ℝ) = 3404651 / 268435456 := by push_cast; rfl
      rw [eN, abs_of_nonneg (by norm_num at hl0; linarith : 0 ≤ Real.log X)] at hPe
      have p1 : 1 + 3404651 / 268435456 * Real.log X ≤ (X : ℝ) ^ (3404651 / 268435456 : ℝ) := by
        rw [Real.rpow_def_of_pos (by linarith)]
        have := Real.add_one_le_exp (Real.log X * (3404651 / 268435456 : ℝ))
        linarith
      have p2 : (X : ℝ) ^ (3404651 / 268435456 : ℝ) ≤ 1016 / 1000 := by
        refine (show (X : ℝ) ^ (3404651 / 268435456 : ℝ) ≤ 1 + 3404651 / 268435456 * ((X : ℝ) - 1) by
          have := rpow_one_add_le_one_add_mul_self (s := (X : ℝ) - 1) (p := 3404651 / 268435456) (by linarith) (by norm_num) (by norm_num)
          rwa [add_sub_cancel] at this).trans ?_
        norm_num at hX1 ⊢
        linarith
      generalize (X : ℝ) ^ (3404651 / 268435456 : ℝ) = W at *
      have co : 43 / 10 ^ 8 + 17 / 10 ^ 8 * (3404651 / 268435456 : ℝ) * (1 + Real.log X) ≤ 44 / 10 ^ 8 := by
        norm_num at hl1 ⊢; linarith
      have co2 := mul_le_mul co p2 (by norm_num at p1 hl0; linarith) (by norm_num)
      have := hPe.trans (add_le_add_left co2 _)
      rw [abs_le] at this
      norm_num at this p1 p2 hl0 ⊢
      constructor <;> linarith [this.1, this.2]
    · exfalso
      have : (2 : ℚ) ^ (-126 : Int) < 1 := by norm_num
      linarith
  obtain ⟨P1, P2⟩ := hP2
  obtain ⟨a, b, ha, hb, hae, hbe⟩ := pq_parts hP (by norm_num at P1; linarith) (by linarith)
  have a0 : (1 / 10 : ℝ) ≤ a := by
    norm_num at P1
    rw [abs_of_nonneg (by norm_num; linarith : (0 : ℝ) ≤ P - 0.8359375)] at hae
    have := (abs_le.mp hae).1
    norm_num at this
    linarith
  have a1 : (a : ℝ) ≤ 1 := by
    norm_num at P1
    rw [abs_of_nonneg (by norm_num; linarith : (0 : ℝ) ≤ P - 0.8359375)] at hae
    have := (abs_le.mp hae).2
    norm_num at this
    linarith
  have hbb : (b : ℝ) ≤ -1 / 10 ^ 4 ∧ -1 ≤ (b : ℝ) := by
    norm_num at P1
    rw [abs_of_nonneg (mul_nonneg (by linarith) (by norm_num) : (0 : ℝ) ≤ P * 18.6875),
      abs_of_nonpos (by norm_num; linarith : 18.851563 - (P : ℝ) * 18.6875 ≤ 0)] at hbe
    rw [abs_le] at hbe
    norm_num at hbe ⊢
    constructor <;> linarith [hbe.1, hbe.2]
  obtain ⟨b0, b1⟩ := hbb
  have a0' : (1 / 10 : ℚ) ≤ a := by
    have : ((1 / 10 : ℚ) : ℝ) ≤ a := by push_cast; exact a0
    exact_mod_cast this
  have a1' : a ≤ 1 := by exact_mod_cast a1
  have b0' : b ≤ -1 / 10 ^ 4 := by
    have : (b : ℝ) ≤ ((-1 / 10 ^ 4 : ℚ) : ℝ) := by push_cast; exact b0
    exact_mod_cast this
  have b1' : -1 ≤ b := by
    have : ((-1 : ℚ) : ℝ) ≤ b := by push_cast; exact b1
    exact_mod_cast this
  simp only [decodeTransfer, pqDecode]
  rw [hf.max_pos hx (by linarith), hf.mul, hf.div, hf.sub, hf.max_pos ha (by linarith)]
  have ea : F32.sub (ar.pow x (FOps.div (FOps.lit 1.0) Pq.M2)) Pq.C1 = .fin false a := ha.pos (by linarith)
  obtain ⟨s, q, eb, q0, rfl⟩ := hb
  have hs : s = true := by
    cases s
    · simp only [signed] at b0'; norm_num at b0'; exact absurd q0 (by linarith)
    · rfl
  subst hs
  simp only [signed, if_true] at b0' b1'
  have b0'' : 1 / 10 ^ 4 ≤ q := by norm_num at b0' ⊢; linarith
  have q0' : 0 < q := lt_of_lt_of_le (by norm_num) b0''
  rw [ea, eb]
  have lo : 1 / 16 ≤ a / q := by rw [le_div_iff₀ q0']; norm_num at a0' ⊢; linarith
  have hi : a / q ≤ 16384 := by rw [div_le_iff₀ q0']; norm_num at b0'' ⊢; linarith
  have r0 : 1 / 16 ≤ rnd (a / q) := by
    have := rnd_mono (by norm_num) lo
    rwa [rnd_rep (q := 1 / 16) ⟨1, -4, by norm_num, by norm_num, by norm_num⟩] at this
  have r1 : rnd (a / q) ≤ 16384 := by
    have := rnd_mono (le_trans (by norm_num) lo) hi
    rwa [rnd_rep (q := 16384) ⟨1, 14, by norm_num, by norm_num, by norm_num⟩] at this
  have e : F32.div (.fin false a) (.fin true q) = .fin true (rnd (a / q)) := by
    simp only [F32.div, if_neg q0'.ne', Bool.false_xor]
    rw [round_eq, if_neg]
    rw [limit_eq, not_le]
    exact lt_of_le_of_lt r1 (by norm_num)
  rw [e, hneg (lt_of_lt_of_le (by norm_num) r0) is_pqK (by decide +kernel), nan_mul]

/-- On x86 and in scalar code, a colour one component of which has the signal 2 or more becomes black in RGB when the transfer
function of the YUV image is PQ. -/
theorem C52_pq_black (r : Run (p.real scalar) src dst sps dps m m') (ha : scalar.Accurate) (hp : p ≠ .neon)
    (hneg : NegativePow scalar.pow) (hnan : NanPow scalar.pow) (hs : isYuv src.format = true) (hd : isYuv dst.format = false)
    {i : YuvColorInfo} (hi : src.color = .YUV i) (hcs : i.space = .BT601 ∨ i.space = .BT709) {k : ℝ × ℝ × ℝ}
    (hk : lumaWeights i.space = some k) (ht : i.transfer = .BT2100PQ)
    (ht' : dst.color.transfer ≠ .BT2100PQ ∧ dst.color.transfer ≠ .BT2100HLG)
    {x y : Nat} (hx : x < dst.width) (hy : y < dst.height) (hV : InDepth src.format src.width src.height (shown src.format sps m))
    {c : Chan} (hc : c = .R ∨ c = .G ∨ c = .B)
    (hhigh : 2 + 1 / 10 ^ 5 ≤ signalsOf k src.format i.fullRange (shown src.format sps m) x y c) :
    ∀ c', c' = .R ∨ c' = .G ∨ c' = .B → sample dst.format dps m' c' x y = some 0 := by
  have hti : src.color.transfer = i.transfer := by rw [hi]; rfl
  have hne : ¬ (src.color.transfer = dst.color.transfer ∧ src.color.primaries = dst.color.primaries) := by
    rintro ⟨h, -⟩
    exact ht'.1 (by rw [← h, hti, ht])
  obtain ⟨X, hX, hg, hdX, -, s1⟩ := yuv_signals r hs ⟨hcs, hk⟩ hx hy hV hc
  have h1 := (abs_le.mp hdX).1
  have h2 := (abs_le.mp hdX).2
  have X0 : ((2 : ℚ) : ℝ) ≤ X := by push_cast; norm_num at h1 hhigh; linarith
  have X1 : (X : ℝ) ≤ ((22 / 10 : ℚ) : ℝ) := by push_cast; norm_num at h2 s1 ⊢; linarith
  refine nan_pixel_black r hp hnan hs hd hi ht' hne hx hy hc ?_
  rw [hti, ht]
  exact dec_pq_nan (column_floats p ha dst.width x) (negative_pow hp hneg dst.width x) hX hg (by exact_mod_cast X0) (by exact_mod_cast X1)

/-! ## Where it fails: NEON -/

/-- The red component of the colour `(128, 128, 0)` of a BT.709 image with SDR transfer function in linear BT.2020, times 255, as
computed by the vector code of NEON. -/
def neonRed : F32 :=
  let ar : Arith F32 := (Platform.neon.real x86Libm).vec.ar
  F32.mul (changeColor (fun _ => ar) (.YUV ⟨.SDR, .BT709, .BT709, true⟩) (.RGB ⟨.Linear, .BT2020⟩)
    (decode (fun _ => ar) ⟨.SDR, .BT709, .BT709, true⟩ (fun c _ _ => F32.div (FOps.ofNat (match c with | .V => 0 | _ => 128))
      (FOps.ofNat 255))) .R 0 0) (FOps.ofNat 255)

theorem neonRed_code : asUnsigned 255 neonRed = 48 := by decide +kernel

theorem neonRed_ideal (x : Nat) {f : PixelFormat} (hb : sampleBits f = 8) {V : Pic Nat} {y : Nat} (hY : V .Y x y = 128)
    (hU : V .U x y = 128) (hV : V .V x y = 0) :
    lightOf (.YUV ⟨.SDR, .BT709, .BT709, true⟩) (.RGB ⟨.Linear, .BT2020⟩) x (signalsOf (0.2126, 0.7152, 0.0722) f true V x y) .R
      ≤ 40 / 255 := by
  have he := exactAr_exact x
  have e1 : signalsOf (0.2126, 0.7152, 0.0722) f true V x y .R ≤ -28 / 100 := by
    simp only [signalsOf, idealRgb, hb, hY, hU, hV, standardRgb, lumaOf, chromaOfCode, if_true]
    norm_num
  have e2 : signalsOf (0.2126, 0.7152, 0.0722) f true V x y .G ≤ 736 / 1000 ∧ 1 / 2 ≤ signalsOf (0.2126, 0.7152, 0.0722) f true V x y .G := by
    simp only [signalsOf, idealRgb, hb, hY, hU, hV, standardRgb, lumaOf, chromaOfCode, if_true]
    norm_num
  have e3 : signalsOf (0.2126, 0.7152, 0.0722) f true V x y .B ≤ 506 / 1000 ∧ 1 / 2 ≤ signalsOf (0.2126, 0.7152, 0.0722) f true V x y .B := by
    simp only [signalsOf, idealRgb, hb, hY, hU, hV, standardRgb, lumaOf, chromaOfCode, if_true]
    norm_num
  generalize signalsOf (0.2126, 0.7152, 0.0722) f true V x y = s at *
  have l1 : decodeTransfer (exactAr x) .SDR (s .R) ≤ -62 / 1000 := by
    rw [dec_sdr he, if_pos (by norm_num at *; linarith)]
    norm_num at *; linarith
  have hi : ∀ {a b q : ℝ}, 1 / 2 ≤ a → a ≤ b → 0 ≤ q → ((b + 0.0993) / 1.099) ^ 20 < q ^ 9 → decodeTransfer (exactAr x) .SDR a ≤ q := by
    intro a b q h1 h2 h3 h4
    rw [dec_sdr he, if_neg (by norm_num; linarith)]
    refine le_trans (Real.rpow_le_rpow (y := (b + 0.0993) / 1.099) ?_ ?_ (by norm_num)) (le_of_lt ?_)
    · apply div_nonneg <;> norm_num; linarith
    · gcongr
    · rw [rpow_lt_iff (m := 20) (n := 9) (by norm_num) (by norm_num) h3 (by apply div_nonneg <;> norm_num; linarith)]
      exact h4
  have l2 : decodeTransfer (exactAr x) .SDR (s .G) ≤ 545 / 1000 := hi e2.2 e2.1 (by norm_num) (by norm_num)
  have l3 : decodeTransfer (exactAr x) .SDR (s .B) ≤ 267 / 1000 := hi e3.2 e3.1 (by norm_num) (by norm_num)
  simp only [lightOf, component, show (ColorInfo.YUV ⟨.SDR, .BT709, .BT709, true⟩).transfer = .SDR from rfl,
    show (ColorInfo.YUV ⟨.SDR, .BT709, .BT709, true⟩).primaries = .BT709 from rfl,
    show (ColorInfo.RGB ⟨.Linear, .BT2020⟩).primaries = .BT2020 from rfl]
  generalize decodeTransfer (exactAr x) .SDR (s .R) = a at *
  generalize decodeTransfer (exactAr x) .SDR (s .G) = b at *
  generalize decodeTransfer (exactAr x) .SDR (s .B) = d at *
  simp only [rowMul, dot, he.add, he.mul, ColorPrimaries.rgbToXyzMat, BT709_RGB_TO_XYZ, ColorPrimaries.xyzToRgbMat, BT2020_XYZ_TO_RGB, lit_real]
  norm_num [Rat.cast_ofScientific]
  linarith

/-- The vector code of NEON compares magnitudes, so the signal -0.285 of red is not taken for a small one. It stores 48 where
at most 40 is right. -/
theorem C52_neon_false (r : Run (Platform.neon.real scalar) src dst sps dps m m') (hs : isYuv src.format = true)
    (hb : sampleBits src.format = 8) (hd : isYuv dst.format = false) (hi : src.color = .YUV ⟨.SDR, .BT709, .BT709, true⟩)
    (hi' : dst.color = .RGB ⟨.Linear, .BT2020⟩) {x y : Nat} (hx : x < dst.width - dst.width % 8) (hy : y < dst.height)
    (hY : shown src.format sps m .Y x y = 128) (hU : shown src.format sps m .U x y = 128)
    (hV : shown src.format sps m .V x y = 0) :
    sample dst.format dps m' .R x y = some 48 ∧
      clamp255 (encodeTransfer (exactAr x) dst.color.transfer (max 0 (lightOf src.color dst.color x
        (signalsOf (0.2126, 0.7152, 0.0722) src.format true (shown src.format sps m) x y) .R)) * 255) ≤ 40 := by
  have hx' : x < dst.width := by omega
  constructor
  · rw [yuv_change_pick r hs hd hi (by rw [hi, hi']; decide) (.inl rfl) hx' hy, stored_truncates (.inr (.inl rfl))]
    have hA : columnArith (Platform.neon.real scalar) dst.width x = (Platform.neon.real x86Libm).vec.ar := by
      unfold columnArith
      rw [if_pos (by exact hx)]
      rfl
    have max8 : (maxSample dst.format : F32) = FOps.ofNat 255 := by rw [maxSample, (rgb8 hd).2]
    have max8' : (maxSample src.format : F32) = FOps.ofNat 255 := by rw [maxSample, hb]
    rw [← neonRed_code, hi, hi', max8]
    congr 2
    simp only [changeColor, decode, Spec.normalize, hA, hY, hU, hV, max8']
    rfl
  · have h := neonRed_ideal x hb hY hU hV
    rw [hi, hi', show (ColorInfo.RGB ⟨.Linear, .BT2020⟩).transfer = .Linear from rfl]
    simp only [encodeTransfer]
    unfold clamp255
    refine max_le (by norm_num) ((min_le_right _ _).trans ?_)
    rcases max_cases 0 (lightOf (.YUV ⟨.SDR, .BT709, .BT709, true⟩) (.RGB ⟨.Linear, .BT2020⟩) x
      (signalsOf (0.2126, 0.7152, 0.0722) src.format true (shown src.format sps m) x y) .R) with ⟨e, -⟩ | ⟨e, -⟩ <;> rw [e]
    · norm_num
    · linarith

/-! ## Examples -/

/-- A limited-range BT.601 image of 10 bits with SDR transfer function becomes an sRGB image, on AVX2. -/
example (m : Mem) (hm : InDepth .I010 4 2 (shown .I010 (i012Planes 0) m)) : ∃ (m' : Mem) (n : Nat),
    sample .RGBA [⟨⟨200, 32⟩, 16⟩] m' .G 3 1 = some n ∧
    |(n : ℝ) - clamp255 (encodeTransfer (exactAr 3) .SRGB (max 0 (lightOf (.YUV ⟨.SDR, .BT709, .BT601, false⟩)
      (.RGB ⟨.SRGB, .BT2020⟩) 3 (signalsOf (0.299, 0.587, 0.114) .I010 false (shown .I010 (i012Planes 0) m) 3 1) .G)) * 255)| <
      1 + 47 / 100 := by
  obtain ⟨scalar, ha⟩ := libm_exists
  obtain ⟨m', r⟩ := run_exists (c := Platform.avx2.real scalar) (platform_lawful .avx2 _ _)
    (src := .raw .I010 4 2 (i012Planes 0) (.YUV ⟨.SDR, .BT709, .BT601, false⟩))
    (dst := .raw .RGBA 4 2 [⟨⟨200, 32⟩, 16⟩] (.RGB ⟨.SRGB, .BT2020⟩)) (sps := i012Planes 0) (dps := [⟨⟨200, 32⟩, 16⟩]) rfl rfl
    (planesDisjoint_of (by decide)) (separate_of (by decide)) (uniform_of (by decide)) (by decide) m
  obtain ⟨n, h1, h2⟩ := C52_codes_partial r ha rfl rfl rfl (by decide) (.inl rfl) (k := (0.299, 0.587, 0.114)) rfl
    (.inr (.inl rfl)) (c := .G) (by simp) (x := 3) (y := 1) (by decide) (by decide) hm nofun
  exact ⟨m', n, h1, h2⟩

/-- A libm whose powers of negative numbers and NaN are those of IEEE 754. -/
theorem nan_libm : ∃ scalar : Libm, NegativePow scalar.pow ∧ NanPow scalar.pow :=
  ⟨x86Libm, fun h _ _ => x86Pow_neg h _, fun _ _ => x86Pow_nan _⟩

/-- Red, as `(54, 98, 255)`, of an image with `Gamma22`, becomes black on AVX2. -/
example : ∃ m m' : Mem, (sample .I444 [⟨⟨0, 32⟩, 16⟩, ⟨⟨100, 32⟩, 16⟩, ⟨⟨200, 32⟩, 16⟩] m .Y 5 1 = some 54 ∧
      sample .I444 [⟨⟨0, 32⟩, 16⟩, ⟨⟨100, 32⟩, 16⟩, ⟨⟨200, 32⟩, 16⟩] m .V 5 1 = some 255) ∧
    ∀ c, c = .R ∨ c = .G ∨ c = .B → sample .RGB [⟨⟨300, 96⟩, 48⟩] m' c 5 1 = some 0 := by
  obtain ⟨scalar, h1, h2⟩ := nan_libm
  obtain ⟨m', r⟩ := run_exists (c := Platform.avx2.real scalar) (platform_lawful .avx2 _ _)
    (src := .raw .I444 16 2 [⟨⟨0, 32⟩, 16⟩, ⟨⟨100, 32⟩, 16⟩, ⟨⟨200, 32⟩, 16⟩] (.YUV ⟨.Gamma22, .BT709, .BT709, true⟩))
    (dst := .raw .RGB 16 2 [⟨⟨300, 96⟩, 48⟩] (.RGB ⟨.SRGB, .BT709⟩))
    (sps := [⟨⟨0, 32⟩, 16⟩, ⟨⟨100, 32⟩, 16⟩, ⟨⟨200, 32⟩, 16⟩]) (dps := [⟨⟨300, 96⟩, 48⟩]) rfl rfl
    (planesDisjoint_of (by decide)) (separate_of (by decide)) (uniform_of (by decide)) (by decide)
    (fun a => if a < 100 then 54 else if a < 200 then 98 else 255)
  have hb := C52_gamma_black r nofun h1 h2 rfl rfl rfl (.inr rfl) (k := (0.2126, 0.7152, 0.0722)) rfl (.inl rfl)
    ⟨nofun, nofun⟩ (by decide) (x := 5) (y := 1) (by decide) (by decide) (fun c x y l _ _ _ => shown_le rfl _ _ c x y) (c := .G)
    (.inr (.inl rfl)) ?_
  · exact ⟨fun a => if a < 100 then 54 else if a < 200 then 98 else 255, m', by decide, hb⟩
  · have e1 : shown .I444 [⟨⟨0, 32⟩, 16⟩, ⟨⟨100, 32⟩, 16⟩, ⟨⟨200, 32⟩, 16⟩]
      (fun a => if a < 100 then 54 else if a < 200 then 98 else 255) .Y 5 1 = 54 := by decide
    have e2 : shown .I444 [⟨⟨0, 32⟩, 16⟩, ⟨⟨100, 32⟩, 16⟩, ⟨⟨200, 32⟩, 16⟩]
      (fun a => if a < 100 then 54 else if a < 200 then 98 else 255) .U 5 1 = 98 := by decide
    have e3 : shown .I444 [⟨⟨0, 32⟩, 16⟩, ⟨⟨100, 32⟩, 16⟩, ⟨⟨200, 32⟩, 16⟩]
      (fun a => if a < 100 then 54 else if a < 200 then 98 else 255) .V 5 1 = 255 := by decide
    change signalsOf (0.2126, 0.7152, 0.0722) .I444 true _ 5 1 .G ≤ _
    simp only [Img.format, signalsOf, idealRgb, e1, e2, e3, standardRgb, lumaOf, chromaOfCode, if_true, sampleBits]
    norm_num

/-- The blue `(255, 255, 128)` of an image with PQ in limited range becomes black on AVX2. -/
example : ∃ m m' : Mem, (sample .I444 [⟨⟨0, 32⟩, 16⟩, ⟨⟨100, 32⟩, 16⟩, ⟨⟨200, 32⟩, 16⟩] m .Y 5 1 = some 255 ∧
      sample .I444 [⟨⟨0, 32⟩, 16⟩, ⟨⟨100, 32⟩, 16⟩, ⟨⟨200, 32⟩, 16⟩] m .V 5 1 = some 128) ∧
    ∀ c, c = .R ∨ c = .G ∨ c = .B → sample .RGB [⟨⟨300, 96⟩, 48⟩] m' c 5 1 = some 0 := by
  obtain ⟨m', r⟩ := run_exists (c := Platform.avx2.real x86Libm) (platform_lawful .avx2 _ _)
    (src := .raw .I444 16 2 [⟨⟨0, 32⟩, 16⟩, ⟨⟨100, 32⟩, 16⟩, ⟨⟨200, 32⟩, 16⟩] (.YUV ⟨.BT2100PQ, .BT709, .BT709, false⟩))
    (dst := .raw .RGB 16 2 [⟨⟨300, 96⟩, 48⟩] (.RGB ⟨.SRGB, .BT709⟩))
    (sps := [⟨⟨0, 32⟩, 16⟩, ⟨⟨100, 32⟩, 16⟩, ⟨⟨200, 32⟩, 16⟩]) (dps := [⟨⟨300, 96⟩, 48⟩]) rfl rfl
    (planesDisjoint_of (by decide)) (separate_of (by decide)) (uniform_of (by decide)) (by decide)
    (fun a => if a < 200 then 255 else 128)
  have hb := C52_pq_black r x86_accurate nofun (fun h _ _ => x86Pow_neg h _) (fun _ _ => x86Pow_nan _) rfl rfl rfl (.inr rfl)
    (k := (0.2126, 0.7152, 0.0722)) rfl rfl ⟨nofun, nofun⟩ (x := 5) (y := 1) (by decide) (by decide)
    (fun c x y l _ _ _ => shown_le rfl _ _ c x y) (c := .B) (.inr (.inr rfl)) ?_
  · exact ⟨fun a => if a < 200 then 255 else 128, m', by decide, hb⟩
  · have e1 : shown .I444 [⟨⟨0, 32⟩, 16⟩, ⟨⟨100, 32⟩, 16⟩, ⟨⟨200, 32⟩, 16⟩] (fun a => if a < 200 then 255 else 128) .Y 5 1 = 255 := by decide
    have e2 : shown .I444 [⟨⟨0, 32⟩, 16⟩, ⟨⟨100, 32⟩, 16⟩, ⟨⟨200, 32⟩, 16⟩] (fun a => if a < 200 then 255 else 128) .U 5 1 = 255 := by decide
    have e3 : shown .I444 [⟨⟨0, 32⟩, 16⟩, ⟨⟨100, 32⟩, 16⟩, ⟨⟨200, 32⟩, 16⟩] (fun a => if a < 200 then 255 else 128) .V 5 1 = 128 := by decide
    change _ ≤ signalsOf (0.2126, 0.7152, 0.0722) .I444 false _ 5 1 .B
    simp only [Img.format, signalsOf, idealRgb, e1, e2, e3, standardRgb, lumaOf, chromaOfCode, sampleBits]
    norm_num

/-- The luma code 255 of a limited-range HLG image, a signal of 1.09, becomes an sRGB image, on NEON. -/
example : ∃ (m' : Mem) (n : Nat), sample .RGB [⟨⟨300, 96⟩, 48⟩] m' .G 5 1 = some n ∧
    |(n : ℝ) - clamp255 (encodeTransfer (exactAr 5) .SRGB (max 0 (lightOf (.YUV ⟨.BT2100HLG, .BT709, .BT709, false⟩)
      (.RGB ⟨.SRGB, .BT2020⟩) 5 (signalsOf (0.2126, 0.7152, 0.0722) .I444 false
        (shown .I444 [⟨⟨0, 32⟩, 16⟩, ⟨⟨100, 32⟩, 16⟩, ⟨⟨200, 32⟩, 16⟩] (fun a => if a < 100 then 255 else 128)) 5 1) .G)) * 255)| < 1 + 47 / 100 := by
  obtain ⟨scalar, ha⟩ := libm_exists
  obtain ⟨m', r⟩ := run_exists (c := Platform.neon.real scalar) (platform_lawful .neon _ _)
    (src := .raw .I444 16 2 [⟨⟨0, 32⟩, 16⟩, ⟨⟨100, 32⟩, 16⟩, ⟨⟨200, 32⟩, 16⟩] (.YUV ⟨.BT2100HLG, .BT709, .BT709, false⟩))
    (dst := .raw .RGB 16 2 [⟨⟨300, 96⟩, 48⟩] (.RGB ⟨.SRGB, .BT2020⟩))
    (sps := [⟨⟨0, 32⟩, 16⟩, ⟨⟨100, 32⟩, 16⟩, ⟨⟨200, 32⟩, 16⟩]) (dps := [⟨⟨300, 96⟩, 48⟩]) rfl rfl
    (planesDisjoint_of (by decide)) (separate_of (by decide)) (uniform_of (by decide)) (by decide) (fun a => if a < 100 then 255 else 128)
  have e1 : shown .I444 [⟨⟨0, 32⟩, 16⟩, ⟨⟨100, 32⟩, 16⟩, ⟨⟨200, 32⟩, 16⟩] (fun a => if a < 100 then 255 else 128) .Y 5 1 = 255 := by decide
  have e2 : shown .I444 [⟨⟨0, 32⟩, 16⟩, ⟨⟨100, 32⟩, 16⟩, ⟨⟨200, 32⟩, 16⟩] (fun a => if a < 100 then 255 else 128) .U 5 1 = 128 := by decide
  have e3 : shown .I444 [⟨⟨0, 32⟩, 16⟩, ⟨⟨100, 32⟩, 16⟩, ⟨⟨200, 32⟩, 16⟩] (fun a => if a < 100 then 255 else 128) .V 5 1 = 128 := by decide
  obtain ⟨n, h1, h2⟩ := C52_codes_partial r ha rfl rfl rfl (by decide) (.inr rfl) (k := (0.2126, 0.7152, 0.0722)) rfl
    (.inr (.inl rfl)) (c := .G) (by simp) (x := 5) (y := 1) (by decide) (by decide) (fun c x y l _ _ _ => shown_le rfl _ _ c x y) (by
      change ∀ c, c = .R ∨ c = .G ∨ c = .B → signalsOf (0.2126, 0.7152, 0.0722) .I444 false _ 5 1 c ≤ 11 / 10
      rintro c (rfl | rfl | rfl) <;>
      · simp only [Img.format, signalsOf, idealRgb, e1, e2, e3, standardRgb, lumaOf, chromaOfCode, sampleBits]
        norm_num)
  exact ⟨m', n, h1, h2⟩

/-- The grey `(128, 128, 128)` of a PQ image becomes an HLG image, on AVX-512. -/
example : ∃ (m' : Mem) (s : Chan → ℝ), (∀ c, c = .R ∨ c = .G ∨ c = .B → |s c - signalsOf (0.2126, 0.7152, 0.0722) .I444 true
      (shown .I444 [⟨⟨0, 32⟩, 16⟩, ⟨⟨100, 32⟩, 16⟩, ⟨⟨200, 32⟩, 16⟩] (fun _ => 128)) 5 1 c| ≤ 24 / 10 ^ 7) ∧
    ∃ (n : Nat) (l : ℝ), sample .RGB [⟨⟨300, 96⟩, 48⟩] m' .G 5 1 = some n ∧ 0 ≤ l ∧
      |l - max 0 (lightOf (.YUV ⟨.BT2100PQ, .BT709, .BT709, true⟩) (.RGB ⟨.BT2100HLG, .BT2020⟩) 5 s .G)| ≤
        15 / 10 ^ 4 * max (1 / 10 ^ 3) (brightestOf (.YUV ⟨.BT2100PQ, .BT709, .BT709, true⟩) 5 s) ∧
      |(n : ℝ) - clamp255 (encodeTransfer (exactAr 5) .BT2100HLG l * 255)| < 1 + 1 / 1000 := by
  obtain ⟨scalar, ha⟩ := libm_exists
  obtain ⟨m', r⟩ := run_exists (c := Platform.avx512.real scalar) (platform_lawful .avx512 _ _)
    (src := .raw .I444 16 2 [⟨⟨0, 32⟩, 16⟩, ⟨⟨100, 32⟩, 16⟩, ⟨⟨200, 32⟩, 16⟩] (.YUV ⟨.BT2100PQ, .BT709, .BT709, true⟩))
    (dst := .raw .RGB 16 2 [⟨⟨300, 96⟩, 48⟩] (.RGB ⟨.BT2100HLG, .BT2020⟩))
    (sps := [⟨⟨0, 32⟩, 16⟩, ⟨⟨100, 32⟩, 16⟩, ⟨⟨200, 32⟩, 16⟩]) (dps := [⟨⟨300, 96⟩, 48⟩]) rfl rfl
    (planesDisjoint_of (by decide)) (separate_of (by decide)) (uniform_of (by decide)) (by decide) (fun _ => 128)
  have e1 : shown .I444 [⟨⟨0, 32⟩, 16⟩, ⟨⟨100, 32⟩, 16⟩, ⟨⟨200, 32⟩, 16⟩] (fun _ => 128) .Y 5 1 = 128 := by decide
  have e2 : shown .I444 [⟨⟨0, 32⟩, 16⟩, ⟨⟨100, 32⟩, 16⟩, ⟨⟨200, 32⟩, 16⟩] (fun _ => 128) .U 5 1 = 128 := by decide
  have e3 : shown .I444 [⟨⟨0, 32⟩, 16⟩, ⟨⟨100, 32⟩, 16⟩, ⟨⟨200, 32⟩, 16⟩] (fun _ => 128) .V 5 1 = 128 := by decide
  have grey : ∀ c, c = .R ∨ c = .G ∨ c = .B → signalsOf (0.2126, 0.7152, 0.0722) .I444 true
      (shown .I444 [⟨⟨0, 32⟩, 16⟩, ⟨⟨100, 32⟩, 16⟩, ⟨⟨200, 32⟩, 16⟩] (fun _ => 128)) 5 1 c ≤ 1 := by
    rintro c (rfl | rfl | rfl) <;>
    · simp only [signalsOf, idealRgb, e1, e2, e3, standardRgb, lumaOf, chromaOfCode, if_true, sampleBits]
      norm_num
  obtain ⟨s, h1, h2⟩ := C52_pq_light_partial r ha rfl rfl rfl (by decide) (.inr rfl) (k := (0.2126, 0.7152, 0.0722)) rfl rfl
    (x := 5) (y := 1) (by decide) (by decide) (fun c x y l _ _ _ => shown_le rfl _ _ c x y)
    grey
  exact ⟨m', s, h1, h2 .G (by simp) nofun⟩

/-- The colour of `C52_neon_false` in an image of 16 columns. -/
example : ∃ m' : Mem, sample .RGB [⟨⟨300, 96⟩, 48⟩] m' .R 5 1 = some 48 := by
  obtain ⟨m', r⟩ := run_exists (c := Platform.neon.real x86Libm) (platform_lawful .neon _ _)
    (src := .raw .I444 16 2 [⟨⟨0, 32⟩, 16⟩, ⟨⟨100, 32⟩, 16⟩, ⟨⟨200, 32⟩, 16⟩] (.YUV ⟨.SDR, .BT709, .BT709, true⟩))
    (dst := .raw .RGB 16 2 [⟨⟨300, 96⟩, 48⟩] (.RGB ⟨.Linear, .BT2020⟩))
    (sps := [⟨⟨0, 32⟩, 16⟩, ⟨⟨100, 32⟩, 16⟩, ⟨⟨200, 32⟩, 16⟩]) (dps := [⟨⟨300, 96⟩, 48⟩]) rfl rfl
    (planesDisjoint_of (by decide)) (separate_of (by decide)) (uniform_of (by decide)) (by decide)
    (fun a => if a < 200 then 128 else 0)
  exact ⟨m', (C52_neon_false r rfl rfl rfl rfl rfl (x := 5) (y := 1) (by decide) (by decide) (by decide) (by decide) (by decide)).1⟩

end Ezk.Props

import Verif.Proofs.EncodeLip
import Verif.Proofs.YuvYuv
import Verif.Proofs.Ideal

/-!
# YUV codes of light that is known approximately
-/

namespace Ezk
open F32 FOps Spec

section
variable {rr : Arith ℝ} (he : Exact rr)
include he

/-- The signal of light that may be below 0. -/
theorem enc_signed_app {ar : Arith F32} (hf : Floats ar) {t : ColorTransfer} (ht : SignedTransfer t) {x : F32} {X : ℚ} {L e : ℝ}
    (hx : Is x X) (hg : Good x) (h0 : -78 / 100 ≤ X) (h1 : X ≤ 2) (hd : |(X : ℝ) - L| ≤ e)
    (hc : X < 0 → t ≠ .Linear → Compares ar X (3361671 / 1073741824) ∧ Compares ar X (9692651 / 536870912)) :
    App (encodeTransfer ar t x) (encodeTransfer rr t L) (encodeSlope t * e + encodeJump t + 3 / 10 ^ 6) := by
  have h0r : (-78 / 100 : ℝ) ≤ X := by
    have := (Rat.cast_le (K := ℝ)).mpr h0; push_cast at this; exact this
  have step : ∀ a : ℝ, |a - L| ≤ e → |encodeTransfer rr t a - encodeTransfer rr t L| ≤ encodeSlope t * e + encodeJump t := by
    intro a h
    have hs : 0 ≤ encodeSlope t := by cases t <;> simp [encodeSlope]
    have := enc_lip he ht a L
    have := mul_le_mul_of_nonneg_left h hs
    linarith
  have key : App (encodeTransfer ar t x) (encodeTransfer rr t X) (2 / 10 ^ 6) →
      App (encodeTransfer ar t x) (encodeTransfer rr t L) (encodeSlope t * e + encodeJump t + 3 / 10 ^ 6) := fun h =>
    (h.shift (step X hd)).mono (by norm_num; linarith)
  rcases ht with rfl | rfl | rfl
  · exact key (hx.app.mono (by norm_num))
  · apply key
    rw [enc_srgb he]
    rcases lt_or_ge X 0 with h | h
    · have hr : (X : ℝ) < 0 := by exact_mod_cast h
      simp only [encodeTransfer]
      rw [((hc h nofun).1 hx is_srgb_enc).2, if_pos (decide_eq_true (by linarith)), if_pos (by norm_num; linarith), hf.mul]
      have hs : App (lit 12.92 : F32) 12.92 (1 / 10 ^ 7 * 4) := by
        refine (is_1292.app.shift (d := 1 / 10 ^ 7 * 4) ?_).mono (by norm_num)
        rw [abs_le]; constructor <;> norm_num
      exact (app_mul (B := 102 / 10) hx.app hs (A := 78 / 100) (C := 12.92) (by rw [abs_of_neg hr]; linarith)
        (by rw [abs_of_nonneg] <;> norm_num) (by norm_num) (by norm_num) (by norm_num)).mono (by norm_num)
    · exact enc_srgb_app hf hx hg h h1
  · rcases lt_or_ge X 0 with h | h
    · apply key
      rw [enc_sdr he]
      have hr : (X : ℝ) < 0 := by exact_mod_cast h
      simp only [encodeTransfer]
      rw [((hc h nofun).2 hx is_sdr_enc).1, if_pos (decide_eq_true (by linarith)), if_pos (by norm_num; linarith), hf.mul]
      have := app_mul (B := 4) is_45.app hx.app (A := 45 / 10) (C := 78 / 100) (by
        push_cast; rw [abs_of_nonneg] <;> norm_num) (by rw [abs_of_neg hr]; linarith) (by norm_num) (by norm_num) (by norm_num)
      refine (this.shift (d := 0) ?_).mono (by norm_num)
      push_cast
      rw [abs_le]; constructor <;> norm_num
    · by_cases hne : X = 9692651 / 536870912
      · have hb := enc_sdr_branch hf hx hg h h1
        rw [if_neg (by rw [hne]; exact lt_irrefl _)] at hb
        have hX : (X : ℝ) = 9692651 / 536870912 := by rw [hne]; push_cast; rfl
        have hT : |(0.01805397 : ℝ) - L| ≤ e + 2 / 10 ^ 9 := by
          have h1 := abs_sub_le (0.01805397 : ℝ) X L
          have h2 : |(0.01805397 : ℝ) - X| ≤ 2 / 10 ^ 9 := by rw [hX, abs_le]; constructor <;> norm_num
          linarith
        have hl := enc_lip he (t := .SDR) (.inr (.inr rfl)) 0.01805397 L
        rw [enc_sdr he 0.01805397, if_neg (lt_irrefl _), show encodeSlope .SDR = 5 from rfl,
          show encodeJump .SDR = 26 / 10 ^ 5 from rfl] at hl
        have hr := root_lip (a := X) (b := 0.01805397) (Z := 0.45) (T := 0.018) (by norm_num) (by rw [hX]; norm_num)
          (by rw [hX]; norm_num) (by norm_num) (by norm_num)
        have hr2 := Real.rpow_le_rpow (x := X) (y := 0.01805397) (z := 0.45) (by rw [hX]; norm_num) (by rw [hX]; norm_num) (by norm_num)
        have hT2 : (0.018 : ℝ) ^ (0.45 : ℝ) ≤ 1 := Real.rpow_le_one (by norm_num) (by norm_num) (by norm_num)
        have hr3 : (0.01805397 : ℝ) ^ (0.45 : ℝ) - (X : ℝ) ^ (0.45 : ℝ) ≤ 1 / 10 ^ 7 := by
          refine (sub_le_iff_le_add'.mpr ?_)
          have h6 : (0.45 : ℝ) * ((0.018 : ℝ) ^ (0.45 : ℝ) / 0.018) ≤ 30 := by
            generalize (0.018 : ℝ) ^ (0.45 : ℝ) = z at *
            norm_num at *; linarith
          have h7 : (0 : ℝ) ≤ 0.01805397 - X := by rw [hX]; norm_num
          have h8 : (0.01805397 : ℝ) - X ≤ 2 / 10 ^ 9 := by rw [hX]; norm_num
          have h9 := mul_le_mul_of_nonneg_right h6 h7
          have h10 : (30 : ℝ) * (0.01805397 - X) ≤ 1 / 10 ^ 7 := by norm_num at h8 ⊢; linarith
          linarith
        refine (hb.shift (d := 5 * e + 26 / 10 ^ 5 + 2 / 10 ^ 7) ?_).mono (by
          rw [show encodeSlope .SDR = 5 from rfl, show encodeJump .SDR = 26 / 10 ^ 5 from rfl]; norm_num; linarith)
        generalize encodeTransfer rr .SDR L = E at *
        generalize (0.01805397 : ℝ) ^ (0.45 : ℝ) = z at *
        generalize (X : ℝ) ^ (0.45 : ℝ) = w at *
        have hl2 := hl.trans (add_le_add_left (mul_le_mul_of_nonneg_left hT (by norm_num : (0:ℝ) ≤ 5)) _)
        rw [abs_le] at hl2 ⊢
        obtain ⟨l1, l2⟩ := hl2
        norm_num at l1 l2 hr2 hr3 ⊢
        constructor <;> linarith
      · apply key
        rw [enc_sdr he]
        exact enc_sdr_app hf hx hg h h1 hne

end

section
variable {rr : Arith ℝ} (he : Exact rr)
include he

/-- Signals of light of an image in other primaries. -/
theorem enc_bound {t : ColorTransfer} (ht : SignedTransfer t) {L : ℝ} (h0 : -778 / 1000 ≤ L) (h1 : L ≤ 195 / 100) :
    |encodeTransfer rr t L| ≤ 1006 / 100 := by
  have pw : ∀ {Z : ℝ}, 0 ≤ L → 0 ≤ Z → Z ≤ 1 → 0 ≤ L ^ Z ∧ L ^ Z ≤ 195 / 100 := by
    intro Z hL h2 h3
    refine ⟨Real.rpow_nonneg hL _, (Real.rpow_le_rpow hL h1 h2).trans ?_⟩
    calc (195 / 100 : ℝ) ^ Z ≤ (195 / 100 : ℝ) ^ (1 : ℝ) := Real.rpow_le_rpow_of_exponent_le (by norm_num) h3
      _ = 195 / 100 := Real.rpow_one _
  rw [abs_le]
  rcases ht with rfl | rfl | rfl
  · simp only [encodeTransfer]; constructor <;> linarith
  · rw [enc_srgb he]
    split
    · norm_num at *; constructor <;> linarith
    · rename_i h
      obtain ⟨a, b⟩ := pw (Z := 1 / 2.4) (by norm_num at h; linarith) (by norm_num) (by norm_num)
      generalize L ^ (1 / 2.4 : ℝ) = z at *
      norm_num at *; constructor <;> linarith
  · rw [enc_sdr he]
    split
    · norm_num at *; constructor <;> linarith
    · rename_i h
      obtain ⟨a, b⟩ := pw (Z := 0.45) (by norm_num at h; linarith) (by norm_num) (by norm_num)
      generalize L ^ (0.45 : ℝ) = z at *
      norm_num at *; constructor <;> linarith

/-- Light of an image in other primaries. -/
theorem mix_low (sp dp : ColorPrimaries) {p : C3 ℝ} (h1 : 0 ≤ p.1 ∧ p.1 ≤ 1001 / 1000) (h2 : 0 ≤ p.2.1 ∧ p.2.1 ≤ 1001 / 1000)
    (h3 : 0 ≤ p.2.2 ∧ p.2.2 ≤ 1001 / 1000) :
    -778 / 1000 ≤ (rowMul rr (rowMul rr p sp.rgbToXyzMat) dp.xyzToRgbMat).1 ∧
    -778 / 1000 ≤ (rowMul rr (rowMul rr p sp.rgbToXyzMat) dp.xyzToRgbMat).2.1 ∧
    -778 / 1000 ≤ (rowMul rr (rowMul rr p sp.rgbToXyzMat) dp.xyzToRgbMat).2.2 := by
  simp only [rowMul, dot, he.add, he.mul]
  have := h1.1
  have := h1.2
  have := h2.1
  have := h2.2
  have := h3.1
  have := h3.2
  cases sp <;> cases dp <;> simp only [ColorPrimaries.rgbToXyzMat, ST240_RGB_TO_XYZ, BT709_RGB_TO_XYZ, BT2020_RGB_TO_XYZ,
    ColorPrimaries.xyzToRgbMat, ST240_XYZ_TO_RGB, BT709_XYZ_TO_RGB, BT2020_XYZ_TO_RGB, lit_real] <;>
    norm_num [Rat.cast_ofScientific] at * <;> refine ⟨?_, ?_, ?_⟩ <;> linarith

end

/-- The value of a finite float. -/
noncomputable def F32.toReal : F32 → ℝ
  | .fin s q => (signed s q : ℚ)
  | _ => 0

theorem F32.Is.toReal {x : F32} {X : ℚ} (h : Is x X) : x.toReal = X := by
  obtain ⟨s, q, rfl, -, rfl⟩ := h
  rfl

/-! ## Ideal codes -/

/-- The exact formulas give the ideal codes. -/
theorem encode_codes {rr : Nat → Arith ℝ} (he : ∀ x, Exact (rr x)) {j : YuvColorInfo} {k : ℝ × ℝ × ℝ} (hk : IsStandard j.space k)
    (f : PixelFormat) (E : Pic ℝ) {c : Chan} (hc : c = .Y ∨ c = .U ∨ c = .V) (x y : Nat) :
    encode rr f j E c x y * (2 ^ sampleBits f - 1 : Nat) = idealCodes k f j.fullRange E c x y := by
  have hch := chromaOf_ideal he hk f E x y
  have cc : ∀ u, compressChroma (rr x) j.fullRange u * (2 ^ sampleBits f - 1 : Nat) =
      chromaCode j.fullRange (2 ^ sampleBits f - 1) u := by
    intro u
    cases j.fullRange
    · rw [compressChroma_real (he x), chromaCode, if_neg (by simp)]; ring
    · rw [compressChroma_full (he x), chromaCode, if_pos rfl]; ring
  rcases hc with rfl | rfl | rfl
  · simp only [encode, yuvAt, rgbToYuv_matrix _ hk.isMatrix, forward_standard (he x) hk, idealCodes]
    generalize (standardYuv _ _ _ _).1 = v
    cases j.fullRange
    · rw [compressLuma_real (he x), lumaCode, if_neg (by simp)]; ring
    · rw [compressLuma, if_pos rfl, lumaCode, if_pos rfl]; ring
  · simp only [encode, hch, cc]; rfl
  · simp only [encode, hch, cc]; rfl

/-- Errors of the signals are not magnified by the matrices. -/
theorem standardYuv_lip {cs : ColorSpace} {k : ℝ × ℝ × ℝ} (hk : IsStandard cs k) {r g b r' g' b' d : ℝ} (h1 : |r - r'| ≤ d)
    (h2 : |g - g'| ≤ d) (h3 : |b - b'| ≤ d) :
    |(standardYuv k r g b).1 - (standardYuv k r' g' b').1| ≤ d ∧ |(standardYuv k r g b).2.1 - (standardYuv k r' g' b').2.1| ≤ d ∧
      |(standardYuv k r g b).2.2 - (standardYuv k r' g' b').2.2| ≤ d := by
  obtain ⟨hc, hk⟩ := hk
  rw [abs_le] at h1 h2 h3
  obtain ⟨a1, b1⟩ := h1
  obtain ⟨a2, b2⟩ := h2
  obtain ⟨a3, b3⟩ := h3
  rcases hc with rfl | rfl <;> cases hk <;>
  · simp only [standardYuv]
    simp only [abs_le]
    norm_num
    refine ⟨⟨?_, ?_⟩, ⟨?_, ?_⟩, ?_, ?_⟩ <;> linarith

theorem cellMean_lip (f : PixelFormat) {g g' : Nat → Nat → ℝ} {x y : Nat} {d : ℝ}
    (h : ∀ x' y', x' / hsub f = x / hsub f → y' / vsub f = y / vsub f → |g x' y' - g' x' y'| ≤ d) :
    |cellMean f g x y - cellMean f g' x y| ≤ d := by
  have hs : (0 : ℝ) < hsub f * vsub f := by cases f <;> norm_num [hsub, vsub]
  have hs1 : 0 < hsub f := by cases f <;> simp [hsub]
  have hs2 : 0 < vsub f := by cases f <;> simp [vsub]
  rw [cellMean, cellMean, ← sub_div, abs_div, abs_of_pos hs, div_le_iff₀ hs, ← Finset.sum_sub_distrib]
  refine (Finset.abs_sum_le_sum_abs _ _).trans ?_
  have : ∀ a ∈ Finset.range (hsub f), |∑ b ∈ Finset.range (vsub f), g (x / hsub f * hsub f + a) (y / vsub f * vsub f + b) -
      ∑ b ∈ Finset.range (vsub f), g' (x / hsub f * hsub f + a) (y / vsub f * vsub f + b)| ≤ vsub f * d := by
    intro a ha
    rw [← Finset.sum_sub_distrib]
    refine (Finset.abs_sum_le_sum_abs _ _).trans ?_
    refine (Finset.sum_le_card_nsmul _ _ d fun b hb => ?_).trans (by rw [Finset.card_range, nsmul_eq_mul])
    refine h _ _ ?_ ?_
    · rw [mul_comm, Nat.mul_add_div hs1, Nat.div_eq_of_lt (Finset.mem_range.mp ha), add_zero]
    · rw [mul_comm, Nat.mul_add_div hs2, Nat.div_eq_of_lt (Finset.mem_range.mp hb), add_zero]
  refine (Finset.sum_le_card_nsmul _ _ _ this).trans ?_
  rw [Finset.card_range, nsmul_eq_mul]
  linarith

theorem idealCodes_lip {cs : ColorSpace} {k : ℝ × ℝ × ℝ} (hk : IsStandard cs k) (f : PixelFormat) (full : Bool) {E E' : Pic ℝ}
    {x y : Nat} {d : ℝ} (h : ∀ c, (c = .R ∨ c = .G ∨ c = .B) → ∀ x' y', x' / hsub f = x / hsub f → y' / vsub f = y / vsub f →
      |E c x' y' - E' c x' y'| ≤ d) (c : Chan) :
    |idealCodes k f full E c x y - idealCodes k f full E' c x y| ≤ d * (2 ^ sampleBits f - 1 : Nat) := by
  have hM : (0 : ℝ) ≤ (2 ^ sampleBits f - 1 : Nat) := Nat.cast_nonneg _
  have hd : 0 ≤ d := (abs_nonneg _).trans (h .R (by simp) x y rfl rfl)
  have hp : ∀ x' y', x' / hsub f = x / hsub f → y' / vsub f = y / vsub f → _ := fun x' y' ex ey =>
    standardYuv_lip hk (h .R (by simp) x' y' ex ey) (h .G (by simp) x' y' ex ey) (h .B (by simp) x' y' ex ey)
  have luma : ∀ {u v : ℝ}, |u - v| ≤ d → |lumaCode full (2 ^ sampleBits f - 1) u - lumaCode full (2 ^ sampleBits f - 1) v| ≤
      d * (2 ^ sampleBits f - 1 : Nat) := by
    intro u v huv
    rw [lumaCode, lumaCode, ← mul_sub, abs_mul, abs_of_nonneg hM, mul_comm]
    refine mul_le_mul_of_nonneg_right ?_ hM
    rw [abs_le] at huv ⊢
    obtain ⟨h1, h2⟩ := huv
    cases full <;> simp only [Bool.false_eq_true, if_false, if_true] <;> constructor <;> linarith
  have chroma : ∀ {u v : ℝ}, |u - v| ≤ d → |chromaCode full (2 ^ sampleBits f - 1) u - chromaCode full (2 ^ sampleBits f - 1) v| ≤
      d * (2 ^ sampleBits f - 1 : Nat) := by
    intro u v huv
    rw [chromaCode, chromaCode, ← mul_sub, abs_mul, abs_of_nonneg hM, mul_comm]
    refine mul_le_mul_of_nonneg_right ?_ hM
    rw [abs_le] at huv ⊢
    obtain ⟨h1, h2⟩ := huv
    cases full <;> simp only [Bool.false_eq_true, if_false, if_true] <;> constructor <;> linarith
  have hy := luma (hp x y rfl rfl).1
  have hu := chroma (cellMean_lip f fun x' y' ex ey => (hp x' y' ex ey).2.1)
  have hv := chroma (cellMean_lip f fun x' y' ex ey => (hp x' y' ex ey).2.2)
  cases c <;> first | exact hu | exact hv | exact hy

/-! ## Stores -/

/-- The code stored for a value close to an exact one. -/
theorem F32.Near.near {T M : Nat} {q : F32 → Nat} (h : Near T q) (hM : M ≤ T) {x : F32} {r e : ℝ} (hx : App x r e)
    (h0 : e ≤ r + 49 / 100) (h1 : r + e ≤ M + 49 / 100) : |(q x : ℝ) - r| < 1 + e := by
  obtain ⟨s, p, rfl, _, ha⟩ := hx
  have hMT : (M : ℝ) ≤ T := by exact_mod_cast hM
  rw [abs_le] at ha
  have b1 : ((-1 / 2 : ℚ) : ℝ) ≤ (signed s p : ℝ) := by push_cast; linarith [ha.1]
  have b2 : (signed s p : ℝ) < ((T + 1 / 2 : ℚ) : ℝ) := by push_cast; linarith [ha.2]
  obtain ⟨n1, n2⟩ := h s p (by exact_mod_cast b1) (by exact_mod_cast b2)
  have n3 : ((|(q (fin s p) : ℚ) - signed s p| : ℚ) : ℝ) < 1 := by exact_mod_cast n1
  push_cast at n3
  rw [abs_lt] at n3 ⊢
  constructor <;> linarith [n3.1, n3.2, ha.1, ha.2]

end Ezk

import Verif.Proofs.Transfer
import Mathlib.Analysis.MeanInequalitiesPow
import Mathlib.Analysis.Convex.SpecificFunctions.Basic

/-!
# How much small differences in light change the encoded signal
-/

namespace Ezk
open FOps Spec

/-- Differences of roots. -/
theorem root_sub {a b Z d : ℝ} (h0 : 0 ≤ a) (hd : b ≤ a + d) (hd0 : 0 ≤ d) (hb : 0 ≤ b) (hZ : 0 < Z) (hZ1 : Z ≤ 1) :
    b ^ Z ≤ a ^ Z + d ^ Z :=
  (Real.rpow_le_rpow hb hd hZ.le).trans (Real.rpow_add_le_add_rpow h0 hd0 hZ.le hZ1)

/-- Differences of roots away from zero. -/
theorem root_lip {a b Z T : ℝ} (hT : 0 < T) (ha : T ≤ a) (hab : a ≤ b) (hZ : 0 ≤ Z) (hZ1 : Z ≤ 1) :
    b ^ Z ≤ a ^ Z + Z * (T ^ Z / T) * (b - a) := by
  have a0 : 0 < a := by linarith
  have hs : 0 ≤ (b - a) / a := by apply div_nonneg <;> linarith
  have e : b = a * (1 + (b - a) / a) := by field_simp; ring
  have h1 : b ^ Z = a ^ Z * (1 + (b - a) / a) ^ Z := by
    conv_lhs => rw [e]
    rw [Real.mul_rpow a0.le (by linarith)]
  have h2 := rpow_one_add_le_one_add_mul_self (s := (b - a) / a) (by linarith) hZ hZ1
  have h3 : a ^ Z / a ≤ T ^ Z / T := by
    rw [← Real.rpow_sub_one a0.ne', ← Real.rpow_sub_one hT.ne']
    exact Real.rpow_le_rpow_of_nonpos hT ha (by linarith)
  rw [h1]
  have h4 := mul_le_mul_of_nonneg_left h2 (Real.rpow_nonneg a0.le Z)
  have h5 : a ^ Z * (1 + Z * ((b - a) / a)) = a ^ Z + Z * (a ^ Z / a) * (b - a) := by field_simp
  have h6 : Z * (a ^ Z / a) * (b - a) ≤ Z * (T ^ Z / T) * (b - a) := by
    apply mul_le_mul_of_nonneg_right _ (by linarith)
    exact mul_le_mul_of_nonneg_left h3 hZ
  linarith

/-- How far encoded signals can be apart for light that differs by at most 1.2·10⁻⁵. -/
noncomputable def encodeGap : ColorTransfer → ℝ
  | .Linear => 12 / 10 ^ 6
  | .Gamma22 => 58 / 10 ^ 4
  | .Gamma28 => 175 / 10 ^ 4
  | .SRGB => 16 / 10 ^ 5
  | .SDR => 32 / 10 ^ 5
  | .BT2100PQ => 0
  | .BT2100HLG => 601 / 10 ^ 5

section
variable {rr : Arith ℝ} (he : Exact rr)
include he

theorem enc_up {t : ColorTransfer} (ht : t ≠ .BT2100PQ) {a b : ℝ} (h0 : 0 ≤ a) (hab : a ≤ b) (hd : b ≤ a + 12 / 10 ^ 6) :
    encodeTransfer rr t b ≤ encodeTransfer rr t a + encodeGap t := by
  have hb : 0 ≤ b := h0.trans hab
  cases t with
  | Linear => exact hd
  | Gamma22 =>
    rw [enc_gamma22 he, enc_gamma22 he]
    refine (root_sub h0 hd (by norm_num) hb (by norm_num) (by norm_num)).trans (add_le_add_right (le_of_lt ?_) _)
    rw [encodeGap, rpow_lt_iff (m := 5) (n := 11) (by norm_num) (by norm_num) (by norm_num) (by norm_num)]; norm_num
  | Gamma28 =>
    rw [enc_gamma28 he, enc_gamma28 he]
    refine (root_sub h0 hd (by norm_num) hb (by norm_num) (by norm_num)).trans (add_le_add_right (le_of_lt ?_) _)
    rw [encodeGap, rpow_lt_iff (m := 5) (n := 14) (by norm_num) (by norm_num) (by norm_num) (by norm_num)]; norm_num
  | SRGB =>
    rw [enc_srgb he, enc_srgb he]
    have hT : (0.0031308 : ℝ) ^ (1 / 2.4 : ℝ) < 0.0904739 := by
      rw [rpow_lt_iff (m := 5) (n := 12) (by norm_num) (by norm_num) (by norm_num) (by norm_num)]; norm_num
    have hT0 : 0 ≤ (0.0031308 : ℝ) ^ (1 / 2.4 : ℝ) := by positivity
    have hi : ∀ {u v : ℝ}, 0.0031308 ≤ u → u ≤ v → v ≤ u + 12 / 10 ^ 6 →
        1.055 * v ^ (1 / 2.4 : ℝ) - 0.055 ≤ 1.055 * u ^ (1 / 2.4 : ℝ) - 0.055 + 13 * (v - u) := by
      intro u v h1 h2 h3
      have h4 := root_lip (Z := 1 / 2.4) (by norm_num) h1 h2 (by norm_num) (by norm_num)
      have h5 : (1 / 2.4 : ℝ) * ((0.0031308 : ℝ) ^ (1 / 2.4 : ℝ) / 0.0031308) * (v - u) ≤ 121 / 10 * (v - u) := by
        apply mul_le_mul_of_nonneg_right _ (by linarith)
        have : (0.0031308 : ℝ) ^ (1 / 2.4 : ℝ) / 0.0031308 ≤ 0.0904739 / 0.0031308 := by gcongr
        norm_num at this ⊢; linarith
      generalize v ^ (1 / 2.4 : ℝ) = A at *
      generalize u ^ (1 / 2.4 : ℝ) = B at *
      norm_num at *
      linarith
    by_cases hB : b ≤ 0.0031308
    · rw [if_pos hB, if_pos (hab.trans hB), encodeGap]; norm_num at hd ⊢; linarith
    · rw [if_neg hB]
      rw [not_le] at hB
      by_cases hA : a ≤ 0.0031308
      · rw [if_pos hA]
        have := hi (le_refl _) hB.le (by linarith)
        rw [encodeGap]
        generalize b ^ (1 / 2.4 : ℝ) = A at *
        generalize (0.0031308 : ℝ) ^ (1 / 2.4 : ℝ) = B at *
        norm_num at *
        linarith
      · rw [if_neg hA]
        rw [not_le] at hA
        have := hi hA.le hab hd
        rw [encodeGap]
        norm_num at *
        linarith
  | SDR =>
    rw [enc_sdr he, enc_sdr he]
    have hT : (0.01805397 : ℝ) ^ (0.45 : ℝ) < 0.16423198 := by
      rw [rpow_lt_iff (m := 9) (n := 20) (by norm_num) (by norm_num) (by norm_num) (by norm_num)]; norm_num
    have hT0 : 0 ≤ (0.01805397 : ℝ) ^ (0.45 : ℝ) := by positivity
    have hi : ∀ {u v : ℝ}, 0.01805397 ≤ u → u ≤ v → v ≤ u + 12 / 10 ^ 6 →
        1.099 * v ^ (0.45 : ℝ) - 0.099 ≤ 1.099 * u ^ (0.45 : ℝ) - 0.099 + 5 * (v - u) := by
      intro u v h1 h2 h3
      have h4 := root_lip (Z := 0.45) (by norm_num) h1 h2 (by norm_num) (by norm_num)
      have h5 : (0.45 : ℝ) * ((0.01805397 : ℝ) ^ (0.45 : ℝ) / 0.01805397) * (v - u) ≤ 42 / 10 * (v - u) := by
        apply mul_le_mul_of_nonneg_right _ (by linarith)
        have : (0.01805397 : ℝ) ^ (0.45 : ℝ) / 0.01805397 ≤ 0.16423198 / 0.01805397 := by gcongr
        norm_num at this ⊢; linarith
      generalize v ^ (0.45 : ℝ) = A at *
      generalize u ^ (0.45 : ℝ) = B at *
      norm_num at *
      linarith
    by_cases hB : b < 0.01805397
    · rw [if_pos hB, if_pos (lt_of_le_of_lt hab hB), encodeGap]; norm_num at hd ⊢; linarith
    · rw [if_neg hB]
      rw [not_lt] at hB
      by_cases hA : a < 0.01805397
      · rw [if_pos hA]
        have := hi (le_refl _) hB (by linarith)
        rw [encodeGap]
        generalize b ^ (0.45 : ℝ) = A at *
        generalize (0.01805397 : ℝ) ^ (0.45 : ℝ) = B at *
        norm_num at *
        linarith
      · rw [if_neg hA]
        rw [not_lt] at hA
        have := hi hA hab hd
        rw [encodeGap]
        norm_num at *
        linarith
  | BT2100PQ => exact absurd rfl ht
  | BT2100HLG =>
    rw [enc_hlg he, enc_hlg he, max_eq_left h0, max_eq_left hb, encodeGap]
    have sq : Real.sqrt (12 / 10 ^ 6 * 3) ≤ 6 / 10 ^ 3 := by
      rw [Real.sqrt_le_left (by norm_num)]; norm_num
    have low : ∀ {u v : ℝ}, 0 ≤ u → u ≤ v → v ≤ u + 12 / 10 ^ 6 → Real.sqrt (v * 3) ≤ Real.sqrt (u * 3) + 6 / 10 ^ 3 := by
      intro u v h1 h2 h3
      refine le_trans (Real.sqrt_le_sqrt (show v * 3 ≤ u * 3 + 12 / 10 ^ 6 * 3 by linarith)) ?_
      have : Real.sqrt (u * 3 + 12 / 10 ^ 6 * 3) ≤ Real.sqrt (u * 3) + Real.sqrt (12 / 10 ^ 6 * 3) := by
        simp only [Real.sqrt_eq_rpow]
        exact Real.rpow_add_le_add_rpow (by linarith) (by norm_num) (by norm_num) (by norm_num)
      linarith
    have high : ∀ {u v : ℝ}, 1 / 12 ≤ u → u ≤ v → v ≤ u + 12 / 10 ^ 6 →
        0.17883277 * Real.log (12 * v - 0.28466892) + 0.5599107 ≤
          0.17883277 * Real.log (12 * u - 0.28466892) + 0.5599107 + 1 / 10 ^ 4 := by
      intro u v h1 h2 h3
      have u0 : (7 / 10 : ℝ) ≤ 12 * u - 0.28466892 := by norm_num; linarith
      have v0 : (7 / 10 : ℝ) ≤ 12 * v - 0.28466892 := by linarith
      have h4 : Real.log (12 * v - 0.28466892) - Real.log (12 * u - 0.28466892) ≤
          (12 * v - 0.28466892) / (12 * u - 0.28466892) - 1 := by
        rw [← Real.log_div (by linarith) (by linarith)]
        exact Real.log_le_sub_one_of_pos (by apply div_pos <;> linarith)
      have h5 : (12 * v - 0.28466892) / (12 * u - 0.28466892) - 1 ≤ 3 / 10 ^ 4 := by
        rw [sub_le_iff_le_add, div_le_iff₀ (by linarith)]
        norm_num at *
        linarith
      generalize Real.log (12 * v - 0.28466892) = A at *
      generalize Real.log (12 * u - 0.28466892) = B at *
      norm_num at *
      linarith
    have top : (0.17883277 : ℝ) * Real.log (12 * (1 / 12) - 0.28466892) + 0.5599107 ≤ 5001 / 10 ^ 4 := by
      have : Real.log (12 * (1 / 12) - 0.28466892) ≤ (0.5001 - 0.5599107) / 0.17883277 := by
        rw [Real.log_le_iff_le_exp (by norm_num)]
        refine le_trans (b := (0.71569 : ℝ)) (by norm_num) (le_exp (by rw [abs_le]; norm_num) ?_)
        rw [abs_of_neg (by norm_num)]; norm_num
      norm_num at this ⊢
      linarith
    by_cases hB : b ≤ 1 / 12
    · rw [if_pos hB, if_pos (hab.trans hB)]
      have := low h0 hab hd
      norm_num at this ⊢; linarith
    · rw [if_neg hB]
      rw [not_le] at hB
      by_cases hA : a ≤ 1 / 12
      · rw [if_pos hA]
        have g1 := high (le_refl _) hB.le (by linarith)
        have g2 : (0.499 : ℝ) ≤ Real.sqrt (a * 3) := by
          apply Real.le_sqrt_of_sq_le
          norm_num at *
          linarith
        norm_num at *
        linarith
      · rw [if_neg hA]
        rw [not_le] at hA
        have := high hA.le hab hd
        norm_num at *
        linarith

theorem enc_down {t : ColorTransfer} (ht : t ≠ .BT2100PQ) {a b : ℝ} (h0 : 0 ≤ a) (hab : a ≤ b) :
    encodeTransfer rr t a ≤ encodeTransfer rr t b + 1 / 10 ^ 7 := by
  cases t with
  | Linear => simp only [encodeTransfer]; norm_num; linarith
  | Gamma22 =>
    rw [enc_gamma22 he, enc_gamma22 he]
    have := Real.rpow_le_rpow h0 hab (show (0 : ℝ) ≤ 1 / 2.2 by norm_num)
    norm_num at this ⊢; linarith
  | Gamma28 =>
    rw [enc_gamma28 he, enc_gamma28 he]
    have := Real.rpow_le_rpow h0 hab (show (0 : ℝ) ≤ 1 / 2.8 by norm_num)
    norm_num at this ⊢; linarith
  | SRGB => refine (enc_srgb_mono he h0 hab).trans ?_; norm_num
  | SDR => have := enc_sdr_mono he h0 hab; linarith [show (0 : ℝ) ≤ 1 / 10 ^ 7 by norm_num]
  | BT2100PQ => exact absurd rfl ht
  | BT2100HLG => refine (enc_hlg_mono he hab).trans ?_; norm_num

/-- Close lights have close encodings. -/
theorem enc_cont {t : ColorTransfer} (ht : t ≠ .BT2100PQ) {a b : ℝ} (h0 : 0 ≤ a) (h1 : 0 ≤ b) (hd : |a - b| ≤ 12 / 10 ^ 6) :
    |encodeTransfer rr t a - encodeTransfer rr t b| ≤ encodeGap t := by
  have hg : (1 : ℝ) / 10 ^ 7 ≤ encodeGap t := by
    cases t <;> first | exact absurd rfl ht | (simp only [encodeGap]; norm_num)
  rw [abs_le] at hd ⊢
  rcases le_total a b with h | h
  · have u := enc_up he ht h0 h (by linarith [hd.1])
    have d := enc_down he ht h0 h
    constructor <;> linarith
  · have u := enc_up he ht h1 h (by linarith [hd.2])
    have d := enc_down he ht h1 h
    constructor <;> linarith

end
end Ezk

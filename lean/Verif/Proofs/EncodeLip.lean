import Verif.Proofs.EncodeCont
import Verif.Proofs.DecodeWideLip

/-!
# How encoding magnifies errors of the light, for the transfer functions that are defined below 0
-/

namespace Ezk
open FOps Spec

/-- The steepest slope of the encoders. -/
noncomputable def encodeSlope : ColorTransfer → ℝ
  | .Linear => 1
  | .SRGB => 13
  | _ => 5

/-- The largest jump of the encoders. -/
noncomputable def encodeJump : ColorTransfer → ℝ
  | .Linear => 0
  | .SRGB => 2 / 10 ^ 7
  | _ => 26 / 10 ^ 5

/-- A function given by a line below a threshold and by a root above. -/
theorem root_split_lip {A B Z D T J K : ℝ} {lo : ℝ → Prop} [DecidablePred lo] (hlo : ∀ z, lo z → z ≤ T) (hhi : ∀ z, ¬ lo z → T ≤ z)
    (hA : 0 ≤ A) (hZ : 0 ≤ Z) (hZ1 : Z ≤ 1) (hT0 : 0 < T) (hD : 0 ≤ D) (hDK : D ≤ K) (hK : A * (Z * (T ^ Z / T)) ≤ K)
    (hT : |A * T ^ Z - B - D * T| ≤ J) (hJ : 0 ≤ J) {a b : ℝ} :
    |(if lo a then D * a else A * a ^ Z - B) - (if lo b then D * b else A * b ^ Z - B)| ≤ K * |a - b| + J := by
  have high : ∀ {u v : ℝ}, T ≤ u → u ≤ v → |(A * u ^ Z - B) - (A * v ^ Z - B)| ≤ K * (v - u) := by
    intro u v h1 h2
    have r1 := root_lip hT0 h1 h2 hZ hZ1
    have r2 := Real.rpow_le_rpow (by linarith : 0 ≤ u) h2 hZ
    have r3 := mul_le_mul_of_nonneg_left r1 hA
    have r4 := mul_le_mul_of_nonneg_left r2 hA
    have r5 := mul_le_mul_of_nonneg_right hK (by linarith : 0 ≤ v - u)
    rw [abs_le]
    constructor
    · nlinarith
    · have := mul_nonneg (hD.trans hDK) (by linarith : 0 ≤ v - u)
      linarith
  have main : ∀ {a b : ℝ}, a ≤ b →
      |(if lo a then D * a else A * a ^ Z - B) - (if lo b then D * b else A * b ^ Z - B)| ≤ K * (b - a) + J := by
    intro a b hab
    by_cases h1 : lo a <;> by_cases h2 : lo b
    · rw [if_pos h1, if_pos h2, ← mul_sub, abs_mul, abs_of_nonneg hD, abs_of_nonpos (by linarith)]
      have := mul_le_mul_of_nonneg_right hDK (by linarith : 0 ≤ b - a)
      linarith
    · rw [if_pos h1, if_neg h2]
      have l1 := hlo a h1
      have l2 := hhi b h2
      have e1 := high le_rfl l2
      have e2 : |D * a - D * T| ≤ K * (T - a) := by
        rw [← mul_sub, abs_mul, abs_of_nonneg hD, abs_of_nonpos (by linarith)]
        have := mul_le_mul_of_nonneg_right hDK (by linarith : 0 ≤ T - a)
        linarith
      rw [abs_le] at *
      constructor <;> linarith [e1.1, e1.2, e2.1, e2.2, hT.1, hT.2]
    · rw [if_neg h1, if_pos h2]
      have l1 := hhi a h1
      have l2 := hlo b h2
      obtain rfl : a = T := by linarith
      obtain rfl : b = a := by linarith
      rw [sub_self, mul_zero, zero_add]
      exact hT
    · rw [if_neg h1, if_neg h2]
      exact (high (hhi a h1) hab).trans (by linarith)
  rcases le_total a b with h | h
  · rw [abs_of_nonpos (by linarith : a - b ≤ 0), neg_sub]; exact main h
  · rw [abs_sub_comm, abs_of_nonneg (by linarith : 0 ≤ a - b)]; exact main h

section
variable {rr : Arith ℝ} (he : Exact rr)
include he

theorem enc_lip {t : ColorTransfer} (ht : SignedTransfer t) (a b : ℝ) :
    |encodeTransfer rr t a - encodeTransfer rr t b| ≤ encodeSlope t * |a - b| + encodeJump t := by
  rcases ht with rfl | rfl | rfl
  · simp only [encodeTransfer, encodeSlope, encodeJump]
    linarith
  · rw [enc_srgb he, enc_srgb he, encodeSlope, encodeJump, mul_comm a, mul_comm b]
    have hT : (0.0031308 : ℝ) ^ (1 / 2.4 : ℝ) < 0.0904739 := by
      rw [rpow_lt_iff (m := 5) (n := 12) (by norm_num) (by norm_num) (by norm_num) (by norm_num)]; norm_num
    have hT1 : (0.0904738 : ℝ) ≤ (0.0031308 : ℝ) ^ (1 / 2.4 : ℝ) := by
      rw [le_rpow_iff (m := 5) (n := 12) (by norm_num) (by norm_num) (by norm_num) (by norm_num)]; norm_num
    refine root_split_lip (T := 0.0031308) (lo := fun z => z ≤ 0.0031308) (fun z h => h) (fun z h => (not_le.mp h).le) (by norm_num)
      (by norm_num) (by norm_num) (by norm_num) (by norm_num) (by norm_num) ?_ ?_ (by norm_num)
    · generalize (0.0031308 : ℝ) ^ (1 / 2.4 : ℝ) = z at *
      norm_num at *; linarith
    · generalize (0.0031308 : ℝ) ^ (1 / 2.4 : ℝ) = z at *
      rw [abs_le]
      constructor <;> norm_num at * <;> linarith
  · rw [enc_sdr he, enc_sdr he, show encodeSlope .SDR = 5 from rfl, show encodeJump .SDR = 26 / 10 ^ 5 from rfl]
    have hT : (0.01805397 : ℝ) ^ (0.45 : ℝ) < 0.16423198 := by
      rw [rpow_lt_iff (m := 9) (n := 20) (by norm_num) (by norm_num) (by norm_num) (by norm_num)]; norm_num
    have hT1 : (0.1642 : ℝ) ≤ (0.01805397 : ℝ) ^ (0.45 : ℝ) := by
      rw [le_rpow_iff (m := 9) (n := 20) (by norm_num) (by norm_num) (by norm_num) (by norm_num)]; norm_num
    refine root_split_lip (T := 0.01805397) (lo := fun z => z < 0.01805397) (fun z h => h.le) (fun z h => (not_lt.mp h)) (by norm_num)
      (by norm_num) (by norm_num) (by norm_num) (by norm_num) (by norm_num) ?_ ?_ (by norm_num)
    · generalize (0.01805397 : ℝ) ^ (0.45 : ℝ) = z at *
      norm_num at *; linarith
    · generalize (0.01805397 : ℝ) ^ (0.45 : ℝ) = z at *
      rw [abs_le]
      constructor <;> norm_num at * <;> linarith

end
end Ezk

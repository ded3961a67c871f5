import Verif.Proofs.Ideal

/-!
# YUV codes that are off by one, and the colours they stand for
-/

namespace Ezk
open Spec

theorem lumaOf_near (full : Bool) {M : Nat} (hM : M = 255 ∨ 1023 ≤ M) {y Y : ℝ}
    (h : |y - lumaCode full M Y| < 1 + 5 / 10 ^ 6 * M) :
    |255 * (lumaOf full M y - Y)| < if M = 255 then 1166 / 1000 else 292 / 1000 := by
  have hM0 : (255 : ℝ) ≤ M := by
    rcases hM with rfl | h
    · norm_num
    · have : (1023 : ℝ) ≤ M := by exact_mod_cast h
      linarith
  have hMp : (0 : ℝ) < M := by linarith
  have e : 255 * (lumaOf full M y - Y) = (255 * if full then 1 else 255 / 219) / M * (y - lumaCode full M Y) := by
    cases full <;> simp only [lumaOf, lumaCode, Bool.false_eq_true, if_false, if_true] <;> field_simp <;> ring
  have hs : (0 : ℝ) ≤ (255 * if full then 1 else 255 / 219) ∧ (255 * if full then 1 else 255 / 219 : ℝ) ≤ 255 * 255 / 219 := by
    cases full <;> norm_num
  rw [e, abs_mul, abs_of_nonneg (div_nonneg hs.1 hMp.le)]
  refine lt_of_le_of_lt (mul_le_mul (div_le_div_of_nonneg_right hs.2 hMp.le) h.le (abs_nonneg _) (by positivity)) ?_
  have e2 : (255 * 255 / 219 : ℝ) / M * (1 + 5 / 10 ^ 6 * M) = 255 * 255 / 219 / M + 255 * 255 / 219 * (5 / 10 ^ 6) := by
    field_simp
  rw [e2]
  rcases hM with rfl | h
  · norm_num
  · have h' : (1023 : ℝ) ≤ M := by exact_mod_cast h
    have h3 : (255 * 255 / 219 : ℝ) / M ≤ 255 * 255 / 219 / 1023 := by gcongr
    rw [if_neg (by omega)]
    refine lt_of_le_of_lt (add_le_add_left h3 _) (by norm_num)

theorem chromaOf_near (full : Bool) {M : Nat} (hM : M = 255 ∨ 1023 ≤ M) {u U : ℝ}
    (h : |u - chromaCode full M U| < 1 + 5 / 10 ^ 6 * M) :
    |255 * (chromaOfCode full M u - U)| < if M = 255 then 1140 / 1000 else 286 / 1000 := by
  have hM0 : (255 : ℝ) ≤ M := by
    rcases hM with rfl | h
    · norm_num
    · have : (1023 : ℝ) ≤ M := by exact_mod_cast h
      linarith
  have hMp : (0 : ℝ) < M := by linarith
  have e : 255 * (chromaOfCode full M u - U) = (255 * if full then 1 else 255 / 224) / M * (u - chromaCode full M U) := by
    cases full <;> simp only [chromaOfCode, chromaCode, Bool.false_eq_true, if_false, if_true] <;> field_simp <;> ring
  have hs : (0 : ℝ) ≤ (255 * if full then 1 else 255 / 224) ∧ (255 * if full then 1 else 255 / 224 : ℝ) ≤ 255 * 255 / 224 := by
    cases full <;> norm_num
  rw [e, abs_mul, abs_of_nonneg (div_nonneg hs.1 hMp.le)]
  refine lt_of_le_of_lt (mul_le_mul (div_le_div_of_nonneg_right hs.2 hMp.le) h.le (abs_nonneg _) (by positivity)) ?_
  have e2 : (255 * 255 / 224 : ℝ) / M * (1 + 5 / 10 ^ 6 * M) = 255 * 255 / 224 / M + 255 * 255 / 224 * (5 / 10 ^ 6) := by
    field_simp
  rw [e2]
  rcases hM with rfl | h
  · norm_num
  · have h' : (1023 : ℝ) ≤ M := by exact_mod_cast h
    have h3 : (255 * 255 / 224 : ℝ) / M ≤ 255 * 255 / 224 / 1023 := by gcongr
    rw [if_neg (by omega)]
    refine lt_of_le_of_lt (add_le_add_left h3 _) (by norm_num)

theorem round_trip_core {cs : ColorSpace} {k : ℝ × ℝ × ℝ} (hk : IsStandard cs k) (full : Bool) {M : Nat}
    (hM : M = 255 ∨ 1023 ≤ M) {r g b y u v : ℝ}
    (hy : |y - lumaCode full M (standardYuv k r g b).1| < 1 + 5 / 10 ^ 6 * M)
    (hu : |u - chromaCode full M (standardYuv k r g b).2.1| < 1 + 5 / 10 ^ 6 * M)
    (hv : |v - chromaCode full M (standardYuv k r g b).2.2| < 1 + 5 / 10 ^ 6 * M) :
    let p := standardRgb k (lumaOf full M y) (chromaOfCode full M u) (chromaOfCode full M v)
    let E : ℝ := if M = 255 then 330 / 100 else 90 / 100
    |255 * p.1 - 255 * r| < E ∧ |255 * p.2.1 - 255 * g| < E ∧ |255 * p.2.2 - 255 * b| < E := by
  have h1 := lumaOf_near full hM hy
  have h2 := chromaOf_near full hM hu
  have h3 := chromaOf_near full hM hv
  clear hy hu hv
  generalize lumaOf full M y = y at *
  generalize chromaOfCode full M u = u at *
  generalize chromaOfCode full M v = v at *
  obtain ⟨hc, hkk⟩ := hk
  rw [abs_lt] at h1 h2 h3
  obtain ⟨hy1, hy2⟩ := h1
  obtain ⟨hu1, hu2⟩ := h2
  obtain ⟨hv1, hv2⟩ := h3
  by_cases hM : M = 255
  · simp only [hM, if_true] at *
    rcases hc with rfl | rfl <;> cases hkk <;>
    · simp only [standardYuv, standardRgb, abs_lt] at *
      norm_num at *
      refine ⟨⟨?_, ?_⟩, ⟨?_, ?_⟩, ?_, ?_⟩ <;> linarith
  · simp only [hM, if_false] at *
    rcases hc with rfl | rfl <;> cases hkk <;>
    · simp only [standardYuv, standardRgb, abs_lt] at *
      norm_num at *
      refine ⟨⟨?_, ?_⟩, ⟨?_, ?_⟩, ?_, ?_⟩ <;> linarith

end Ezk

import Verif.Proofs.RoundTrip

/-!
# Colours and codes over several conversions

The exact formulas: how far errors of one representation show in the other.
-/

namespace Ezk
open Spec

/-! ## Means over the pixels that share a chroma sample -/

theorem cellMean_close (f : PixelFormat) {g : Nat → Nat → ℝ} {x y : Nat} {v e : ℝ}
    (h : ∀ x' y', x' / hsub f = x / hsub f → y' / vsub f = y / vsub f → |g x' y' - v| ≤ e) : |cellMean f g x y - v| ≤ e := by
  have hin : ∀ s x a : Nat, (s = 1 ∨ s = 2) → a < s → (x / s * s + a) / s = x / s := by
    rintro s x a (rfl | rfl) h <;> omega
  have h1 : hsub f = 1 ∨ hsub f = 2 := by cases f <;> simp [hsub]
  have h2 : vsub f = 1 ∨ vsub f = 2 := by cases f <;> simp [vsub]
  have k := fun a b (ha : a < hsub f) (hb : b < vsub f) =>
    abs_le.mp (h (x / hsub f * hsub f + a) (y / vsub f * vsub f + b) (hin _ _ _ h1 ha) (hin _ _ _ h2 hb))
  rw [cellMean]
  generalize hsub f = s at *
  generalize vsub f = t at *
  clear h hin
  rw [abs_le]
  rcases h1 with rfl | rfl <;> rcases h2 with rfl | rfl
  · have k00 := k 0 0 (by decide) (by decide)
    simp only [Finset.sum_range_succ, Finset.sum_range_zero]
    push_cast
    constructor <;> linarith [k00.1, k00.2]
  · have k00 := k 0 0 (by decide) (by decide)
    have k01 := k 0 1 (by decide) (by decide)
    simp only [Finset.sum_range_succ, Finset.sum_range_zero]
    push_cast
    constructor <;> linarith [k00.1, k00.2, k01.1, k01.2]
  · have k00 := k 0 0 (by decide) (by decide)
    have k10 := k 1 0 (by decide) (by decide)
    simp only [Finset.sum_range_succ, Finset.sum_range_zero]
    push_cast
    constructor <;> linarith [k00.1, k00.2, k10.1, k10.2]
  · have k00 := k 0 0 (by decide) (by decide)
    have k01 := k 0 1 (by decide) (by decide)
    have k10 := k 1 0 (by decide) (by decide)
    have k11 := k 1 1 (by decide) (by decide)
    simp only [Finset.sum_range_succ, Finset.sum_range_zero]
    push_cast
    constructor <;> linarith [k00.1, k00.2, k01.1, k01.2, k10.1, k10.2, k11.1, k11.2]

theorem cellMean_affine (f : PixelFormat) (g : Nat → Nat → ℝ) (a b : ℝ) (x y : Nat) :
    cellMean f (fun x y => a * g x y + b) x y = a * cellMean f g x y + b := by
  have hs : (0 : ℝ) < hsub f * vsub f := by cases f <;> norm_num [hsub, vsub]
  simp only [cellMean, Finset.sum_add_distrib, Finset.sum_const, Finset.card_range, nsmul_eq_mul, ← Finset.mul_sum]
  rw [div_eq_iff hs.ne', add_mul, mul_assoc a, div_mul_cancel₀ _ hs.ne']
  ring

/-- The chroma code of a mean is the mean of the chroma codes. -/
theorem chromaCode_mean (f : PixelFormat) (full : Bool) (M : Nat) (g : Nat → Nat → ℝ) (x y : Nat) :
    chromaCode full M (cellMean f g x y) = cellMean f (fun x y => chromaCode full M (g x y)) x y := by
  cases full
  · have e := cellMean_affine f g (M * 224 / 255) (M * 128 / 255) x y
    simp only [chromaCode, Bool.false_eq_true, if_false]
    rw [show (M : ℝ) * ((128 + 224 * cellMean f g x y) / 255) = M * 224 / 255 * cellMean f g x y + M * 128 / 255 by ring, ← e]
    congr 1
    funext x y
    ring
  · have e := cellMean_affine f g M (M / 2) x y
    simp only [chromaCode, if_true]
    rw [show (M : ℝ) * (cellMean f g x y + 1 / 2) = M * cellMean f g x y + M / 2 by ring, ← e]
    congr 1
    funext x y
    ring

/-! ## Errors -/

theorem luma_rescale (full : Bool) {M M' : Nat} (hM : M ≠ 0) (n : ℝ) : lumaCode full M' (lumaOf full M n) = n * (M' / M) := by
  have : (M : ℝ) ≠ 0 := by exact_mod_cast hM
  cases full <;> simp only [lumaCode, lumaOf, Bool.false_eq_true, if_false, if_true] <;> field_simp <;> ring

theorem chroma_rescale (full : Bool) {M M' : Nat} (hM : M ≠ 0) (n : ℝ) :
    chromaCode full M' (chromaOfCode full M n) = n * (M' / M) := by
  have : (M : ℝ) ≠ 0 := by exact_mod_cast hM
  cases full <;> simp only [chromaCode, chromaOfCode, Bool.false_eq_true, if_false, if_true] <;> field_simp <;> ring

/-- The part of the codes that is used. -/
noncomputable def rangeScale (full : Bool) : ℝ := if full then 1 else 224 / 255

theorem lumaCode_lip (full : Bool) (M : Nat) {a b e : ℝ} (h : |a - b| ≤ e) :
    |lumaCode full M a - lumaCode full M b| ≤ M * rangeScale full * e := by
  have h0 : 0 ≤ e := (abs_nonneg _).trans h
  have hM : (0 : ℝ) ≤ M := Nat.cast_nonneg _
  have hMe := mul_nonneg hM h0
  cases full
  · simp only [lumaCode, rangeScale, Bool.false_eq_true, if_false]
    rw [show (M : ℝ) * ((16 + 219 * a) / 255) - M * ((16 + 219 * b) / 255) = M * (219 / 255) * (a - b) by ring, abs_mul,
      abs_of_nonneg (by positivity)]
    have := mul_le_mul_of_nonneg_left h (by positivity : (0 : ℝ) ≤ M * (219 / 255))
    nlinarith
  · simp only [lumaCode, rangeScale, if_true]
    rw [← mul_sub, abs_mul, abs_of_nonneg hM, mul_one]
    exact mul_le_mul_of_nonneg_left h hM

theorem chromaCode_lip (full : Bool) (M : Nat) {a b e : ℝ} (h : |a - b| ≤ e) :
    |chromaCode full M a - chromaCode full M b| ≤ M * rangeScale full * e := by
  have hM : (0 : ℝ) ≤ M := Nat.cast_nonneg _
  cases full
  · simp only [chromaCode, rangeScale, Bool.false_eq_true, if_false]
    rw [show (M : ℝ) * ((128 + 224 * a) / 255) - M * ((128 + 224 * b) / 255) = M * (224 / 255) * (a - b) by ring, abs_mul,
      abs_of_nonneg (by positivity)]
    exact mul_le_mul_of_nonneg_left h (by positivity)
  · simp only [chromaCode, rangeScale, if_true]
    rw [← mul_sub, abs_mul, abs_of_nonneg hM, mul_one, show a + 1 / 2 - (b + 1 / 2) = a - b by ring]
    exact mul_le_mul_of_nonneg_left h hM

/-- Luma and chroma differ by no more than the colour components. -/
theorem standardYuv_lip {cs : ColorSpace} {k : ℝ × ℝ × ℝ} (hk : IsStandard cs k) {r g b r' g' b' e : ℝ} (hr : |r - r'| ≤ e)
    (hg : |g - g'| ≤ e) (hb : |b - b'| ≤ e) :
    |(standardYuv k r g b).1 - (standardYuv k r' g' b').1| ≤ e ∧
    |(standardYuv k r g b).2.1 - (standardYuv k r' g' b').2.1| ≤ e ∧
    |(standardYuv k r g b).2.2 - (standardYuv k r' g' b').2.2| ≤ e := by
  obtain ⟨hc, hkk⟩ := hk
  rw [abs_le] at hr hg hb
  rcases hc with rfl | rfl <;> cases hkk <;>
  · simp only [standardYuv, abs_le]
    norm_num
    refine ⟨⟨?_, ?_⟩, ⟨?_, ?_⟩, ?_, ?_⟩ <;> linarith [hr.1, hr.2, hg.1, hg.2, hb.1, hb.2]

theorem lumaOf_deep (full : Bool) {M : Nat} (hM : 1023 ≤ M) {y Y : ℝ} (h : |y - lumaCode full M Y| ≤ 1 / 2 + 5 / 10 ^ 6 * M) :
    |255 * (lumaOf full M y - Y)| ≤ 147 / 1000 := by
  have h' : (1023 : ℝ) ≤ M := by exact_mod_cast hM
  have hMp : (0 : ℝ) < M := by linarith
  have e : 255 * (lumaOf full M y - Y) = (255 * if full then 1 else 255 / 219) / M * (y - lumaCode full M Y) := by
    cases full <;> simp only [lumaOf, lumaCode, Bool.false_eq_true, if_false, if_true] <;> field_simp <;> ring
  have hs : (0 : ℝ) ≤ (255 * if full then 1 else 255 / 219) ∧ (255 * if full then 1 else 255 / 219 : ℝ) ≤ 255 * 255 / 219 := by
    cases full <;> norm_num
  rw [e, abs_mul, abs_of_nonneg (div_nonneg hs.1 hMp.le)]
  refine (mul_le_mul (div_le_div_of_nonneg_right hs.2 hMp.le) h (abs_nonneg _) (by positivity)).trans ?_
  have e2 : (255 * 255 / 219 : ℝ) / M * (1 / 2 + 5 / 10 ^ 6 * M) = 255 * 255 / 219 / 2 / M + 255 * 255 / 219 * (5 / 10 ^ 6) := by
    field_simp
  rw [e2]
  have h3 : (255 * 255 / 219 / 2 : ℝ) / M ≤ 255 * 255 / 219 / 2 / 1023 := by gcongr
  exact (add_le_add_left h3 _).trans (by norm_num)

theorem chromaOf_deep (full : Bool) {M : Nat} (hM : 1023 ≤ M) {u U : ℝ}
    (h : |u - chromaCode full M U| ≤ 1 / 2 + 5 / 10 ^ 6 * M) : |255 * (chromaOfCode full M u - U)| ≤ 144 / 1000 := by
  have h' : (1023 : ℝ) ≤ M := by exact_mod_cast hM
  have hMp : (0 : ℝ) < M := by linarith
  have e : 255 * (chromaOfCode full M u - U) = (255 * if full then 1 else 255 / 224) / M * (u - chromaCode full M U) := by
    cases full <;> simp only [chromaOfCode, chromaCode, Bool.false_eq_true, if_false, if_true] <;> field_simp <;> ring
  have hs : (0 : ℝ) ≤ (255 * if full then 1 else 255 / 224) ∧ (255 * if full then 1 else 255 / 224 : ℝ) ≤ 255 * 255 / 224 := by
    cases full <;> norm_num
  rw [e, abs_mul, abs_of_nonneg (div_nonneg hs.1 hMp.le)]
  refine (mul_le_mul (div_le_div_of_nonneg_right hs.2 hMp.le) h (abs_nonneg _) (by positivity)).trans ?_
  have e2 : (255 * 255 / 224 : ℝ) / M * (1 / 2 + 5 / 10 ^ 6 * M) = 255 * 255 / 224 / 2 / M + 255 * 255 / 224 * (5 / 10 ^ 6) := by
    field_simp
  rw [e2]
  have h3 : (255 * 255 / 224 / 2 : ℝ) / M ≤ 255 * 255 / 224 / 2 / 1023 := by gcongr
  exact (add_le_add_left h3 _).trans (by norm_num)

/-- Codes of 10 or more bits that are rounded to nearest keep 8-bit colours apart. -/
theorem deep_core {cs : ColorSpace} {k : ℝ × ℝ × ℝ} (hk : IsStandard cs k) (full : Bool) {M : Nat} (hM : 1023 ≤ M)
    {r g b y u v : ℝ} (hy : |y - lumaCode full M (standardYuv k r g b).1| ≤ 1 / 2 + 5 / 10 ^ 6 * M)
    (hu : |u - chromaCode full M (standardYuv k r g b).2.1| ≤ 1 / 2 + 5 / 10 ^ 6 * M)
    (hv : |v - chromaCode full M (standardYuv k r g b).2.2| ≤ 1 / 2 + 5 / 10 ^ 6 * M) :
    let p := standardRgb k (lumaOf full M y) (chromaOfCode full M u) (chromaOfCode full M v)
    |255 * p.1 - 255 * r| < 42 / 100 ∧ |255 * p.2.1 - 255 * g| < 42 / 100 ∧ |255 * p.2.2 - 255 * b| < 42 / 100 := by
  have h1 := lumaOf_deep full hM hy
  have h2 := chromaOf_deep full hM hu
  have h3 := chromaOf_deep full hM hv
  clear hy hu hv
  generalize lumaOf full M y = y at *
  generalize chromaOfCode full M u = u at *
  generalize chromaOfCode full M v = v at *
  obtain ⟨hc, hkk⟩ := hk
  rw [abs_le] at h1 h2 h3
  obtain ⟨hy1, hy2⟩ := h1
  obtain ⟨hu1, hu2⟩ := h2
  obtain ⟨hv1, hv2⟩ := h3
  rcases hc with rfl | rfl <;> cases hkk <;>
  · simp only [standardYuv, standardRgb, abs_lt] at *
    norm_num at *
    refine ⟨⟨?_, ?_⟩, ⟨?_, ?_⟩, ?_, ?_⟩ <;> linarith

end Ezk

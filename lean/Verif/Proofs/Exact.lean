import Verif.Spec.Real
import Verif.Proofs.Lanes
import Mathlib.Tactic.Linarith
import Mathlib.Tactic.NormNum
import Mathlib.Tactic.FieldSimp
import Mathlib.Tactic.Ring
import Mathlib.Tactic.Positivity

/-! # The scalar formulas over the real numbers -/

namespace Ezk
open FOps Spec

theorem lit_real (q : Rat) : (lit q : ℝ) = (q : ℝ) := rfl
theorem ofNat_real (n : Nat) : (FOps.ofNat n : ℝ) = (n : ℝ) := rfl
theorem mul_real (a b : ℝ) : FOps.mul a b = a * b := rfl
theorem div_real (a b : ℝ) : FOps.div a b = a / b := rfl
theorem sub_real (a b : ℝ) : FOps.sub a b = a - b := rfl
theorem neg_real (a : ℝ) : FOps.neg a = -a := rfl
theorem e_real : (FOps.e : ℝ) = Real.exp 1 := rfl

/-- Two triples of vectors are equal if all their lanes are. -/
theorem ext_lanes {n : Nat} {F : Type} {p q : Vec n F × Vec n F × Vec n F} (h : ∀ i, lane3 p i = lane3 q i) :
    p = q := by
  obtain ⟨a, b, c⟩ := p
  obtain ⟨a', b', c'⟩ := q
  simp only [lane3, Prod.mk.injEq] at h
  simp only [Prod.mk.injEq]
  exact ⟨funext fun i => (h i).1, funext fun i => (h i).2.1, funext fun i => (h i).2.2⟩

section
variable {ar : Arith ℝ} (h : Exact ar)
include h

theorem dot_real (x a y b z c : ℝ) : dot ar x a y b z c = x * a + y * b + z * c := by
  simp only [dot, h.add, h.mul]

/-! ## Matrices -/

/-- The matrices of `make_matrices!` are inverse to each other if the three weights add up to 1. -/
theorem matrices_inverse {kr kg kb : ℝ} (h1 : kr + kg + kb = 1) (hr : kr ≠ 1) (hg : kg ≠ 0) (hb : kb ≠ 1)
    (p : C3 ℝ) :
    yuvToRgbMatrix ar (makeYuvToRgb kr kg kb) (matMul ar (makeRgbToYuv kr kg kb) p) = p ∧
      matMul ar (makeRgbToYuv kr kg kb) (yuvToRgbMatrix ar (makeYuvToRgb kr kg kb) p) = p := by
  obtain ⟨x, y, z⟩ := p
  have hr' : 1 - kr ≠ 0 := sub_ne_zero.2 (Ne.symm hr)
  have hb' : 1 - kb ≠ 0 := sub_ne_zero.2 (Ne.symm hb)
  have e : kg = 1 - kr - kb := by linarith
  simp only [yuvToRgbMatrix, matMul, makeYuvToRgb, makeRgbToYuv, dot_real h, h.add, h.mul, lit_real, mul_real, div_real,
    sub_real, neg_real, Prod.mk.injEq]
  norm_num only [Rat.cast_ofScientific]
  subst e
  refine ⟨⟨?_, ?_, ?_⟩, ?_, ?_, ?_⟩ <;> field_simp <;> ring

/-- The forward matrix computes the weighted sum and the scaled colour differences of the standards if the weights add
up to 1. -/
theorem matrix_standard {kr kg kb : ℝ} (h1 : kr + kg + kb = 1) (hr : kr ≠ 1) (hb : kb ≠ 1) (r g b : ℝ) :
    matMul ar (makeRgbToYuv kr kg kb) (r, g, b) =
      (kr * r + kg * g + kb * b, (b - (kr * r + kg * g + kb * b)) / (2 * (1 - kb)),
        (r - (kr * r + kg * g + kb * b)) / (2 * (1 - kr))) := by
  have hr' : 1 - kr ≠ 0 := sub_ne_zero.2 (Ne.symm hr)
  have hb' : 1 - kb ≠ 0 := sub_ne_zero.2 (Ne.symm hb)
  have e : kg = 1 - kr - kb := by linarith
  simp only [matMul, makeRgbToYuv, dot_real h, lit_real, mul_real, div_real, sub_real, Prod.mk.injEq]
  norm_num only [Rat.cast_ofScientific]
  subst e
  refine ⟨?_, ?_, ?_⟩ <;> field_simp <;> ring

/-- The forward matrix maps `[0, 1]³` into `[0, 1] × [-1/2, 1/2]²` if the weights are positive and add up to at most
1. -/
theorem matrix_range {kr kg kb : ℝ} (h1 : kr + kg + kb ≤ 1) (hr : 0 < kr) (hg : 0 < kg) (hb : 0 < kb) {r g b : ℝ}
    (hr0 : 0 ≤ r) (hr1 : r ≤ 1) (hg0 : 0 ≤ g) (hg1 : g ≤ 1) (hb0 : 0 ≤ b) (hb1 : b ≤ 1) :
    let p := matMul ar (makeRgbToYuv kr kg kb) (r, g, b)
    (0 ≤ p.1 ∧ p.1 ≤ 1) ∧ (-(1 / 2) ≤ p.2.1 ∧ p.2.1 ≤ 1 / 2) ∧ (-(1 / 2) ≤ p.2.2 ∧ p.2.2 ≤ 1 / 2) := by
  have hr' : 0 < 1 - kr := by linarith
  have hb' : 0 < 1 - kb := by linarith
  simp only [matMul, makeRgbToYuv, dot_real h, lit_real, mul_real, div_real, sub_real]
  norm_num only [Rat.cast_ofScientific]
  have a1 : 0 ≤ kr / (1 - kb) := by positivity
  have a2 : 0 ≤ kg / (1 - kb) := by positivity
  have a3 : kr / (1 - kb) + kg / (1 - kb) ≤ 1 := by rw [← add_div, div_le_one hb']; linarith
  have c1 : 0 ≤ kb / (1 - kr) := by positivity
  have c2 : 0 ≤ kg / (1 - kr) := by positivity
  have c3 : kg / (1 - kr) + kb / (1 - kr) ≤ 1 := by rw [← add_div, div_le_one hr']; linarith
  generalize kr / (1 - kb) = s at *
  generalize kg / (1 - kb) = t at *
  generalize kb / (1 - kr) = s' at *
  generalize kg / (1 - kr) = t' at *
  have := mul_nonneg hr0 hr.le
  have := mul_nonneg hg0 hg.le
  have := mul_nonneg hb0 hb.le
  have := mul_le_mul_of_nonneg_right hr1 hr.le
  have := mul_le_mul_of_nonneg_right hg1 hg.le
  have := mul_le_mul_of_nonneg_right hb1 hb.le
  have := mul_nonneg hr0 a1
  have := mul_nonneg hg0 a2
  have := mul_le_mul_of_nonneg_right hr1 a1
  have := mul_le_mul_of_nonneg_right hg1 a2
  have := mul_nonneg hb0 c1
  have := mul_nonneg hg0 c2
  have := mul_le_mul_of_nonneg_right hb1 c1
  have := mul_le_mul_of_nonneg_right hg1 c2
  refine ⟨⟨?_, ?_⟩, ⟨?_, ?_⟩, ?_, ?_⟩ <;> nlinarith

/-! ## Range expansion -/

theorem compress_expand_luma (full : Bool) (y : ℝ) :
    compressLuma ar full (expandLuma ar full y) = y ∧ expandLuma ar full (compressLuma ar full y) = y := by
  cases full
  · simp only [compressLuma, expandLuma, h.add, h.sub, h.mul, lit_real, div_real]
    norm_num only [Rat.cast_ofScientific]
    constructor <;> simp only [Bool.false_eq_true, ↓reduceIte] <;> ring
  · simp [compressLuma, expandLuma]

theorem compress_expand_chroma (full : Bool) (u : ℝ) :
    compressChroma ar full (expandChroma ar full u) = u ∧ expandChroma ar full (compressChroma ar full u) = u := by
  simp only [compressChroma, expandChroma, h.add, h.sub, h.mul, lit_real, div_real]
  norm_num only [Rat.cast_ofScientific]
  cases full <;> constructor <;> simp only [Bool.false_eq_true, ↓reduceIte] <;> ring

theorem compressLuma_real (y : ℝ) : compressLuma ar false y = 16 / 255 + y * (219 / 255) := by
  simp only [compressLuma, h.add, h.mul, lit_real, div_real]
  norm_num [Rat.cast_ofScientific]

theorem compressChroma_real (u : ℝ) : compressChroma ar false u = 16 / 255 + (u + 1 / 2) * (224 / 255) := by
  simp only [compressChroma, h.add, h.mul, lit_real, div_real]
  norm_num [Rat.cast_ofScientific]

theorem compressChroma_full (u : ℝ) : compressChroma ar true u = u + 1 / 2 := by
  simp only [compressChroma, h.add, lit_real]
  norm_num [Rat.cast_ofScientific]

/-! ## Primaries -/

omit h in
theorem near_identity {M a b c x y z : ℝ} {w : ℝ} (hx : |x| ≤ M) (hy : |y| ≤ M) (hz : |z| ≤ M)
    (hw : |a| + |b| + |c| ≤ w) : |x * a + y * b + z * c| ≤ w * M := by
  have hM : 0 ≤ M := le_trans (abs_nonneg _) hx
  calc |x * a + y * b + z * c| ≤ |x * a| + |y * b| + |z * c| := abs_add_three _ _ _
    _ = |x| * |a| + |y| * |b| + |z| * |c| := by simp only [abs_mul]
    _ ≤ M * |a| + M * |b| + M * |c| := by gcongr
    _ = (|a| + |b| + |c|) * M := by ring
    _ ≤ w * M := by gcongr

/-- Largest component. -/
noncomputable def sup3 (p : C3 ℝ) : ℝ := max |p.1| (max |p.2.1| |p.2.2|)

theorem primaries_inverse (p : ColorPrimaries) (c : C3 ℝ) :
    let d := rowMul ar (rowMul ar c p.rgbToXyzMat) p.xyzToRgbMat
    |d.1 - c.1| ≤ 1e-6 * sup3 c ∧ |d.2.1 - c.2.1| ≤ 1e-6 * sup3 c ∧ |d.2.2 - c.2.2| ≤ 1e-6 * sup3 c := by
  obtain ⟨x, y, z⟩ := c
  have hx : |x| ≤ sup3 (x, y, z) := le_max_left _ _
  have hy : |y| ≤ sup3 (x, y, z) := le_trans (le_max_left _ _) (le_max_right _ _)
  have hz : |z| ≤ sup3 (x, y, z) := le_trans (le_max_right _ _) (le_max_right _ _)
  generalize sup3 (x, y, z) = M at *
  cases p <;>
  · simp only [rowMul, ColorPrimaries.rgbToXyzMat, ColorPrimaries.xyzToRgbMat, ST240_RGB_TO_XYZ, ST240_XYZ_TO_RGB,
      BT709_RGB_TO_XYZ, BT709_XYZ_TO_RGB, BT2020_RGB_TO_XYZ, BT2020_XYZ_TO_RGB, dot_real h, lit_real]
    norm_num only [Rat.cast_ofScientific]
    ring_nf
    have k := fun a b c hw => near_identity (a := a) (b := b) (c := c) (w := 1/1000000) hx hy hz hw
    refine ⟨?_, ?_, ?_⟩ <;> rw [mul_comm M] <;> refine k _ _ _ ?_ <;>
      norm_num [abs_of_pos, abs_of_neg]

theorem primaries_round_trip (s d : ColorPrimaries) (c : C3 ℝ) :
    let q := rowMul ar (rowMul ar (rowMul ar (rowMul ar c s.rgbToXyzMat) d.xyzToRgbMat) d.rgbToXyzMat) s.xyzToRgbMat
    |q.1 - c.1| ≤ 1e-6 * sup3 c ∧ |q.2.1 - c.2.1| ≤ 1e-6 * sup3 c ∧ |q.2.2 - c.2.2| ≤ 1e-6 * sup3 c := by
  obtain ⟨x, y, z⟩ := c
  have hx : |x| ≤ sup3 (x, y, z) := le_max_left _ _
  have hy : |y| ≤ sup3 (x, y, z) := le_trans (le_max_left _ _) (le_max_right _ _)
  have hz : |z| ≤ sup3 (x, y, z) := le_trans (le_max_right _ _) (le_max_right _ _)
  generalize sup3 (x, y, z) = M at *
  cases s <;> cases d <;>
  · simp only [rowMul, ColorPrimaries.rgbToXyzMat, ColorPrimaries.xyzToRgbMat, ST240_RGB_TO_XYZ, ST240_XYZ_TO_RGB,
      BT709_RGB_TO_XYZ, BT709_XYZ_TO_RGB, BT2020_RGB_TO_XYZ, BT2020_XYZ_TO_RGB, dot_real h, lit_real]
    norm_num only [Rat.cast_ofScientific]
    ring_nf
    have k := fun a b c hw => near_identity (a := a) (b := b) (c := c) (w := 1/1000000) hx hy hz hw
    refine ⟨?_, ?_, ?_⟩ <;> rw [mul_comm M] <;> refine k _ _ _ ?_ <;>
      norm_num [abs_of_pos, abs_of_neg]

end
end Ezk

import Verif.Proofs.Accuracy
import Verif.Spec.Ideal

/-!
# The exact formulas are the ideal ones
-/

namespace Ezk
open FOps Spec

/-- A matrix whose coefficients follow the standard. -/
def IsStandard (cs : ColorSpace) (k : ℝ × ℝ × ℝ) : Prop := (cs = .BT601 ∨ cs = .BT709) ∧ lumaWeights cs = some k

theorem IsStandard.isMatrix {cs : ColorSpace} {k : ℝ × ℝ × ℝ} (h : IsStandard cs k) : isMatrix cs = true := by
  rcases h.1 with rfl | rfl <;> rfl

section
variable {ar : Arith ℝ} (he : Exact ar)
include he

theorem forward_standard {cs : ColorSpace} {k : ℝ × ℝ × ℝ} (h : IsStandard cs k) (r g b : ℝ) :
    matMul ar (forwardMat cs) (r, g, b) = standardYuv k r g b := by
  obtain ⟨hc, hk⟩ := h
  rcases hc with rfl | rfl <;> cases hk
  · refine (matrix_standard he ?_ ?_ ?_ r g b).trans ?_ <;> simp only [lit_real, standardYuv] <;>
      norm_num [Rat.cast_ofScientific]
  · refine (matrix_standard he ?_ ?_ ?_ r g b).trans ?_ <;> simp only [lit_real, standardYuv] <;>
      norm_num [Rat.cast_ofScientific]

theorem backward_standard {cs : ColorSpace} {k : ℝ × ℝ × ℝ} (h : IsStandard cs k) (y u v : ℝ) :
    yuvToRgbMatrix ar (backwardMat cs) (y, u, v) = standardRgb k y u v := by
  obtain ⟨hc, hk⟩ := h
  rcases hc with rfl | rfl <;> cases hk <;>
  · simp only [yuvToRgbMatrix, backwardMat, BT601_YUV_TO_RGB, BT709_YUV_TO_RGB, makeYuvToRgb, standardRgb, he.add, he.mul,
      lit_real, mul_real, div_real, sub_real, neg_real, Prod.mk.injEq]
    norm_num only [Rat.cast_ofScientific]
    refine ⟨?_, ?_, ?_⟩ <;> ring

end

/-- `standardYuv` is linear; the mean of four. -/
theorem standardYuv_mean (k : ℝ × ℝ × ℝ) (r1 g1 b1 r2 g2 b2 r3 g3 b3 r4 g4 b4 : ℝ) :
    (standardYuv k ((r1 + r2 + (r3 + r4)) * (1 / 4)) ((g1 + g2 + (g3 + g4)) * (1 / 4)) ((b1 + b2 + (b3 + b4)) * (1 / 4))).2 =
      (((standardYuv k r1 g1 b1).2.1 + (standardYuv k r2 g2 b2).2.1 +
        ((standardYuv k r3 g3 b3).2.1 + (standardYuv k r4 g4 b4).2.1)) / 4,
       ((standardYuv k r1 g1 b1).2.2 + (standardYuv k r2 g2 b2).2.2 +
        ((standardYuv k r3 g3 b3).2.2 + (standardYuv k r4 g4 b4).2.2)) / 4) := by
  simp only [standardYuv, Prod.mk.injEq]
  constructor <;> ring

section
variable {rr : Nat → Arith ℝ} (he : ∀ x, Exact (rr x))
include he

theorem chromaOf_ideal {i : YuvColorInfo} {k : ℝ × ℝ × ℝ} (hk : IsStandard i.space k) (f : PixelFormat) (q : Pic ℝ) (x y : Nat) :
    chromaOf rr f i q x y = (cellMean f (fun x y => (standardYuv k (q .R x y) (q .G x y) (q .B x y)).2.1) x y,
      cellMean f (fun x y => (standardYuv k (q .R x y) (q .G x y) (q .B x y)).2.2) x y) := by
  have hyuv : ∀ x y, yuvAt rr i q x y = standardYuv k (q .R x y) (q .G x y) (q .B x y) := fun x y => by
    rw [yuvAt, rgbToYuv_matrix _ hk.isMatrix, forward_standard (he x) hk]
  have e2 : (lit 2.0 : ℝ) = 2 := by rw [lit_real]; norm_num [Rat.cast_ofScientific]
  have e4 : (lit 0.25 : ℝ) = 1 / 4 := by rw [lit_real]; norm_num [Rat.cast_ofScientific]
  have hf : (hsub f = 1 ∧ vsub f = 1) ∨ (hsub f = 2 ∧ vsub f = 1) ∨ (hsub f = 2 ∧ vsub f = 2) := by
    cases f <;> simp [hsub, vsub]
  rcases hf with ⟨h1, h2⟩ | ⟨h1, h2⟩ | ⟨h1, h2⟩
  · simp [chromaOf, h1, h2, hyuv, cellMean]
  · simp only [chromaOf, h1, h2, hyuv, cellMean, chroma422, (he x).div, (he x).add, e2]
    norm_num [Finset.sum_range_succ]
  · simp only [chromaOf, h1, h2, cellMean, chroma420, hk.isMatrix, if_true, mean4, (he x).mul, (he x).add, e4,
      rgbToYuv_matrix _ hk.isMatrix, forward_standard (he x) hk]
    rw [standardYuv_mean]
    norm_num [Finset.sum_range_succ]

end
end Ezk

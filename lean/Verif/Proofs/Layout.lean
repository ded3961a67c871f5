import Verif.Proofs.BoundsCheck

namespace Ezk
open Spec

/-- Samples of pixels inside of the image are inside of the packed rows. -/
theorem sampleLoc_bounds {f : PixelFormat} {c : Chan} {w h x y : Nat} {l : Loc}
    (hl : sampleLoc f c x y = some l) (hc : HasCell f c w h x y) :
    l.plane < planeCount f ∧ l.row < rowCount f l.plane h ∧ l.col + sampleBytes f ≤ rowBytes f l.plane w := by
  obtain ⟨hx, hy, huv⟩ := hc
  cases f <;> cases c <;> simp only [sampleLoc, Option.some.injEq, reduceCtorEq] at hl <;> subst hl <;>
    simp [planeCount, rowCount, rowBytes, sampleBytes, hsub, vsub] at huv ⊢ <;> omega

theorem row_fits {row rows stride cb len : Nat} (h1 : row < rows) (h2 : cb ≤ stride) (h3 : stride * rows ≤ len) :
    row * stride + cb ≤ len := by
  have : (row + 1) * stride ≤ rows * stride := Nat.mul_le_mul_right _ h1
  rw [Nat.mul_comm stride rows] at h3
  rw [Nat.add_mul] at this
  omega

/-- Samples are addressable when the planes fit. -/
theorem addressable_of_fits {f : PixelFormat} {ps : List Plane} {w h : Nat}
    (hn : planeCount f ≤ ps.length)
    (hp : ∀ i < planeCount f, ∀ p, ps[i]? = some p → PlaneFits f w h i p)
    {c : Chan} {x y : Nat} {l : Loc} (hl : sampleLoc f c x y = some l) (hc : HasCell f c w h x y) :
    Addressable ps l (sampleBytes f) := by
  obtain ⟨h1, h2, h3⟩ := sampleLoc_bounds hl hc
  have hlt : l.plane < ps.length := by omega
  have hfit := hp l.plane h1 _ (List.getElem?_eq_getElem hlt)
  refine ⟨_, List.getElem?_eq_getElem hlt, by have := hfit.stride_ge; omega, ?_⟩
  have := row_fits h2 (Nat.le_trans h3 hfit.stride_ge) hfit.size_le
  omega

theorem HasCell.of_even {f : PixelFormat} {c : Chan} {w h x y : Nat} (hw : w % 2 = 0) (hh : h % 2 = 0)
    (hx : x < w) (hy : y < h) : HasCell f c w h x y := by
  refine ⟨hx, hy, fun _ => ?_⟩
  cases f <;> simp [hsub, vsub] <;> omega

end Ezk

import Verif.Proofs.EncodeSigned
import Verif.Proofs.Generations

/-!
# Means of means (C81)
-/

namespace Ezk
open Spec

/-- Bounds for the values are bounds for their mean. -/
theorem cellMean_band (f : PixelFormat) {g g' : Nat → Nat → ℝ} {x y : Nat} {a b : ℝ}
    (h : ∀ x' y', x' / hsub f = x / hsub f → y' / vsub f = y / vsub f → g' x' y' - a ≤ g x' y' ∧ g x' y' ≤ g' x' y' + b) :
    cellMean f g' x y - a ≤ cellMean f g x y ∧ cellMean f g x y ≤ cellMean f g' x y + b := by
  have e := cellMean_affine f g' 1 ((b - a) / 2) x y
  have l := cellMean_lip f (g := g) (g' := fun x y => 1 * g' x y + (b - a) / 2) (x := x) (y := y) (d := (a + b) / 2) (by
    intro x' y' ex ey
    have := h x' y' ex ey
    rw [abs_le]
    constructor <;> linarith [this.1, this.2])
  rw [e, abs_le] at l
  constructor <;> linarith [l.1, l.2]

/-- The mean over the pixels of a chroma sample, of the means over the pixels of the chroma samples of a finer format. -/
theorem cellMean_cellMean {f f' : PixelFormat} (h1 : hsub f ≤ hsub f') (h2 : vsub f ≤ vsub f') (g : Nat → Nat → ℝ) (x y : Nat) :
    cellMean f' (fun x y => cellMean f g x y) x y = cellMean f' g x y := by
  have a1 : hsub f = 1 ∨ hsub f = 2 := by cases f <;> simp [hsub]
  have a2 : vsub f = 1 ∨ vsub f = 2 := by cases f <;> simp [vsub]
  have b1 : hsub f' = 1 ∨ hsub f' = 2 := by cases f' <;> simp [hsub]
  have b2 : vsub f' = 1 ∨ vsub f' = 2 := by cases f' <;> simp [vsub]
  have d0 : ∀ n : Nat, n / 2 * 2 / 2 = n / 2 := fun n => by omega
  have d1 : ∀ n : Nat, (n / 2 * 2 + 1) / 2 = n / 2 := fun n => by omega
  simp only [cellMean]
  rcases a1 with a1 | a1 <;> rcases a2 with a2 | a2 <;> rcases b1 with b1 | b1 <;> rcases b2 with b2 | b2 <;>
    rw [a1, b1] at h1 <;> rw [a2, b2] at h2 <;> first
      | (exfalso; omega)
      | (simp only [a1, a2, b1, b2, Finset.sum_range_succ, Finset.sum_range_zero, Nat.div_one, Nat.mul_one, Nat.add_zero, d0, d1,
          zero_add, Nat.cast_one, Nat.cast_ofNat]
         ring)

end Ezk

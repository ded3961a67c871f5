import Verif.Spec.Orientation
import Verif.Proofs.EncodeSigned

/-!
# Chroma cells of reoriented images (C82)
-/

namespace Ezk
open Spec

theorem place_lt (o : Orientation) {w h x y : Nat} (hx : x < (o.size w h).1) (hy : y < (o.size w h).2) :
    (o.place w h x y).1 < w ∧ (o.place w h x y).2 < h := by
  obtain ⟨t, a, b⟩ := o
  cases t <;> cases a <;> cases b <;> simp only [Orientation.size, Orientation.place, Bool.false_eq_true, if_false, if_true] at * <;> omega

/-- The chroma cells of the reoriented image are those of the image. -/
theorem cellMean_place (o : Orientation) {f : PixelFormat} (ht : o.transpose = true → hsub f = vsub f) {w h x y : Nat} (hw : w % 2 = 0)
    (hh : h % 2 = 0) (hx : x < (o.size w h).1) (hy : y < (o.size w h).2) (g : Nat → Nat → ℝ) :
    cellMean f (fun x y => g (o.place w h x y).1 (o.place w h x y).2) x y = cellMean f g (o.place w h x y).1 (o.place w h x y).2 := by
  have d0 : ∀ {w x : Nat}, w % 2 = 0 → x < w → w - 1 - x / 2 * 2 = (w - 1 - x) / 2 * 2 + 1 := fun h1 h2 => by omega
  have d1 : ∀ {w x : Nat}, w % 2 = 0 → x < w → w - 1 - (x / 2 * 2 + 1) = (w - 1 - x) / 2 * 2 := fun h1 h2 => by omega
  have a1 : hsub f = 1 ∨ hsub f = 2 := by cases f <;> simp [hsub]
  have a2 : vsub f = 1 ∨ vsub f = 2 := by cases f <;> simp [vsub]
  obtain ⟨t, a, b⟩ := o
  cases t
  · simp only [Orientation.size, Orientation.place, Bool.false_eq_true, if_false] at hx hy ⊢
    rcases a1 with a1 | a1 <;> rcases a2 with a2 | a2 <;> cases a <;> cases b <;>
      simp only [cellMean, a1, a2, Finset.sum_range_succ, Finset.sum_range_zero, Nat.div_one, Nat.mul_one, Nat.add_zero, zero_add,
        Nat.cast_one, Nat.cast_ofNat, Bool.false_eq_true, if_false, if_true, d0 hw hx, d1 hw hx, d0 hh hy, d1 hh hy] <;> ring
  · have e : hsub f = vsub f := ht rfl
    simp only [Orientation.size, Orientation.place, if_true] at hx hy ⊢
    rcases a1 with a1 | a1 <;> rcases a2 with a2 | a2 <;> cases a <;> cases b <;> first
      | (exfalso; omega)
      | (simp only [cellMean, a1, a2, Finset.sum_range_succ, Finset.sum_range_zero, Nat.div_one, Nat.mul_one, Nat.add_zero, zero_add,
          Nat.cast_one, Nat.cast_ofNat, Bool.false_eq_true, if_false, if_true, d0 hw hy, d1 hw hy, d0 hh hx, d1 hh hx] <;> ring)

end Ezk

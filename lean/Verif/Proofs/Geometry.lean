import Verif.Spec.Layout

/-!
# Helper lemmas: plane descriptions against the layout specification
-/

namespace Ezk
open Spec

theorem mulU_ok {a b : Nat} (h : a * b < usizeSize) : mulU a b = .ok (a * b) := by simp only [mulU, if_pos h]
theorem mulU_err {a b : Nat} (h : ¬ a * b < usizeSize) : mulU a b = .error (.panic .overflow) := by
  simp only [mulU, if_neg h]
theorem addU_ok {a b : Nat} (h : a + b < usizeSize) : addU a b = .ok (a + b) := by simp only [addU, if_pos h]
theorem addU_err {a b : Nat} (h : ¬ a + b < usizeSize) : addU a b = .error (.panic .overflow) := by
  simp only [addU, if_neg h]

theorem mulU_eq_ok {a b c : Nat} : mulU a b = .ok c ↔ a * b < usizeSize ∧ c = a * b := by
  unfold mulU; split
  · simp_all [eq_comm]
  · simp; omega
theorem addU_eq_ok {a b c : Nat} : addU a b = .ok c ↔ a + b < usizeSize ∧ c = a + b := by
  unfold addU; split
  · simp_all [eq_comm]
  · simp; omega

theorem mulP_ok {a b : Nat} (h : a * b < usizeSize) : mulP a b = .ok (a * b) := by simp only [mulP, if_pos h]
theorem mulP_err {a b : Nat} (h : ¬ a * b < usizeSize) : mulP a b = .error (.panic .wrap) := by
  simp only [mulP, if_neg h]
theorem addP_ok {a b : Nat} (h : a + b < usizeSize) : addP a b = .ok (a + b) := by simp only [addP, if_pos h]
theorem addP_err {a b : Nat} (h : ¬ a + b < usizeSize) : addP a b = .error (.panic .wrap) := by
  simp only [addP, if_neg h]

theorem mulP_eq_ok {a b c : Nat} : mulP a b = .ok c ↔ a * b < usizeSize ∧ c = a * b := by
  unfold mulP; split
  · simp_all [eq_comm]
  · simp; omega
theorem addP_eq_ok {a b c : Nat} : addP a b = .ok c ↔ a + b < usizeSize ∧ c = a + b := by
  unfold addP; split
  · simp_all [eq_comm]
  · simp; omega

/-- What the plane table of a format says, in terms of the layout specification. -/
structure DescOk (f : PixelFormat) (i : Nat) (d : PlaneDesc) : Prop where
  idx : i < planeCount f
  packed : ∀ w, d.packedStride w =
    if rowBytes f i w < usizeSize then .ok (rowBytes f i w) else .error (.panic .overflow)
  rows : ∀ h, d.heightOp.op h = .ok (rowCount f i h)

theorem packed_ident (n bpp : Nat) (ho : Op) (pt : PixelType) (w : Nat) (hn : n = w * bpp) :
    PlaneDesc.packedStride ⟨.identity, ho, bpp, pt⟩ w =
      if n < usizeSize then .ok n else .error (.panic .overflow) := by
  subst hn
  simp only [PlaneDesc.packedStride, Op.op, bind, Except.bind, mulU]

theorem packed_div (n bpp : Nat) (ho : Op) (pt : PixelType) (w : Nat) (hn : n = w / 2 * bpp) :
    PlaneDesc.packedStride ⟨.div 2, ho, bpp, pt⟩ w =
      if n < usizeSize then .ok n else .error (.panic .overflow) := by
  subst hn
  simp only [PlaneDesc.packedStride, Op.op, bind, Except.bind, mulU, divU]
  simp

theorem packed_mul (n k : Nat) (ho : Op) (pt : PixelType) (w : Nat) (hn : n = w * k) :
    PlaneDesc.packedStride ⟨.mul k, ho, 1, pt⟩ w =
      if n < usizeSize then .ok n else .error (.panic .overflow) := by
  subst hn
  simp only [PlaneDesc.packedStride, Op.op, bind, Except.bind, mulU]
  by_cases h : w * k < usizeSize
  · simp only [if_pos h]; simp [h]
  · simp only [if_neg h]

theorem planeDesc_length (f : PixelFormat) : f.planeDesc.length = planeCount f := by
  cases f <;> rfl

theorem planeDesc_ok (f : PixelFormat) (i : Nat) (d : PlaneDesc) (h : f.planeDesc[i]? = some d) :
    DescOk f i d := by
  have hi : i < planeCount f := by
    rw [← planeDesc_length]; exact (List.getElem?_eq_some_iff.1 h).1
  refine ⟨hi, ?_, ?_⟩
  · intro w
    cases f <;> simp only [planeCount] at hi <;>
      first
      | (obtain rfl | rfl | rfl : i = 0 ∨ i = 1 ∨ i = 2 := by omega) <;> cases h <;>
          first
          | apply packed_ident; simp [rowBytes]; try omega
          | apply packed_div; simp [rowBytes]; try omega
          | apply packed_mul; simp [rowBytes]; try omega
      | (obtain rfl | rfl : i = 0 ∨ i = 1 := by omega) <;> cases h <;>
          first
          | apply packed_ident; simp [rowBytes]; try omega
          | apply packed_div; simp [rowBytes]; try omega
          | apply packed_mul; simp [rowBytes]; try omega
      | (obtain rfl : i = 0 := by omega) <;> cases h <;>
          first
          | apply packed_ident; simp [rowBytes]; try omega
          | apply packed_div; simp [rowBytes]; try omega
          | apply packed_mul; simp [rowBytes]; try omega
  · intro w
    cases f <;> simp only [planeCount] at hi <;>
      first
      | (obtain rfl | rfl | rfl : i = 0 ∨ i = 1 ∨ i = 2 := by omega) <;> cases h <;> rfl
      | (obtain rfl | rfl : i = 0 ∨ i = 1 := by omega) <;> cases h <;> rfl
      | (obtain rfl : i = 0 := by omega) <;> cases h <;> rfl

end Ezk

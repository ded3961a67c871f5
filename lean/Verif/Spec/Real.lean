import Verif.Model.Vector
import Mathlib.Analysis.SpecialFunctions.Pow.Real
import Mathlib.Analysis.SpecialFunctions.Sqrt

/-!
# Exact arithmetic

The float operations of the model, read over the real numbers: constants are the decimal numbers written in the source,
nothing is rounded.  What holds here holds of the formulas; what `f32` rounding adds is treated elsewhere.
-/

namespace Ezk.Spec

/-- Exact constants. -/
noncomputable instance : FOps ℝ where
  lit q := (q : ℝ)
  ofNat n := (n : ℝ)
  add := (· + ·)
  sub := (· - ·)
  mul := (· * ·)
  div := (· / ·)
  neg := (- ·)
  e := Real.exp 1

/-- The lane operations compute exactly.  (`q8`, `q8i` and `q16` remain open.) -/
structure Exact (ar : Arith ℝ) : Prop where
  add : ∀ a b, ar.add a b = a + b
  sub : ∀ a b, ar.sub a b = a - b
  mul : ∀ a b, ar.mul a b = a * b
  div : ∀ a b, ar.div a b = a / b
  max : ∀ a b, ar.max a b = Max.max a b
  pow : ∀ a b, ar.pow a b = a ^ b
  sqrt : ∀ a, ar.sqrt a = Real.sqrt a
  ln : ∀ a, ar.ln a = Real.log a
  lt : ∀ a b, ar.lt a b = true ↔ a < b
  le : ∀ a b, ar.le a b = true ↔ a ≤ b

open Classical in
/-- Exact arithmetic with the given conversions to integers. -/
noncomputable def realArith (q8 q8i : ℝ → UInt8) (q16 : ℝ → UInt16) : Arith ℝ where
  add := (· + ·)
  sub := (· - ·)
  mul := (· * ·)
  div := (· / ·)
  max := Max.max
  pow a b := a ^ b
  sqrt := Real.sqrt
  ln := Real.log
  lt a b := decide (a < b)
  le a b := decide (a ≤ b)
  q8 := q8
  q8i := q8i
  q16 := q16

theorem realArith_exact (q8 q8i : ℝ → UInt8) (q16 : ℝ → UInt16) : Exact (realArith q8 q8i q16) := by
  constructor <;> intros <;> simp [realArith]

end Ezk.Spec

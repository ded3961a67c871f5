import Verif.Proofs.PolyBound
import Mathlib.Analysis.SpecialFunctions.Log.Deriv
import Mathlib.Analysis.SpecialFunctions.ExpDeriv

/-!
# The polynomials of `log` and `exp`, compared with the functions
-/

namespace Ezk

/-- Sum of polynomials. -/
def addPoly : List ℚ → List ℚ → List ℚ
  | [], d => d
  | c, [] => c
  | a :: c, b :: d => (a + b) :: addPoly c d

theorem eval_add (x : ℝ) : ∀ c d : List ℚ, evalPoly (addPoly c d) x = evalPoly c x + evalPoly d x
  | [], d => by simp [addPoly, evalPoly]
  | a :: c, [] => by simp [addPoly, evalPoly]
  | a :: c, b :: d => by
    rw [addPoly, evalPoly_cons, evalPoly_cons, evalPoly_cons, eval_add x c d]; push_cast; ring

/-- The negated polynomial. -/
def negPoly (c : List ℚ) : List ℚ := c.map (- ·)

theorem eval_neg (x : ℝ) (c : List ℚ) : evalPoly (negPoly c) x = - evalPoly c x := by
  induction c with
  | nil => simp [negPoly, evalPoly]
  | cons a c ih =>
    rw [negPoly, List.map_cons, evalPoly_cons, ← negPoly, ih, evalPoly_cons]; push_cast; ring

/-- The derivative. -/
def derivPoly : List ℚ → List ℚ
  | [] => []
  | _ :: c => addPoly c (0 :: derivPoly c)

theorem hasDeriv_poly (x : ℝ) : ∀ c : List ℚ, HasDerivAt (evalPoly c) (evalPoly (derivPoly c) x) x
  | [] => by
    have : evalPoly [] = fun _ => (0 : ℝ) := by funext; rfl
    rw [this]; exact hasDerivAt_const _ _
  | a :: c => by
    have h := hasDeriv_poly x c
    have e : evalPoly (a :: c) = fun y => (a : ℝ) + y * evalPoly c y := by funext; rfl
    rw [e, derivPoly, eval_add, evalPoly_cons]
    have := ((hasDerivAt_id x).mul h).const_add (a : ℝ)
    simpa using this

/-! ## log -/

/-- Coefficients of the polynomial of `log`, from the constant on: the exact values of the `f32` literals. -/
def logC : List ℚ :=
  [5592405 / 16777216, -4194303 / 16777216, 3355563 / 16777216, -699109 / 4194304, 9562559 / 67108864,
   -16670031 / 134217728, 7836301 / 67108864, -1931831 / 16777216, 9445819 / 134217728]

/-- `x - x²/2 + x³ · p(x)` -/
def logL : List ℚ := 0 :: 1 :: (-1 / 2) :: logC

/-- `1 - (1 + x) L'(x)` -/
def logR : List ℚ := addPoly [1] (negPoly (addPoly (derivPoly logL) (0 :: derivPoly logL)))

theorem eval_logR (x : ℝ) : evalPoly logR x = 1 - (1 + x) * evalPoly (derivPoly logL) x := by
  have h1 : evalPoly [1] x = 1 := by simp [evalPoly]
  rw [logR, eval_add, eval_neg, eval_add, h1, evalPoly_cons]
  push_cast; ring

theorem log_deriv {x : ℝ} (hx : 0 < 1 + x) :
    HasDerivAt (fun x => Real.log (1 + x) - evalPoly logL x) (evalPoly logR x / (1 + x)) x := by
  have h1 : HasDerivAt (fun x : ℝ => 1 + x) 1 x := by simpa using (hasDerivAt_id x).const_add (1 : ℝ)
  have h2 := (h1.log hx.ne').sub (hasDeriv_poly x logL)
  have e : evalPoly logR x / (1 + x) = 1 / (1 + x) - evalPoly (derivPoly logL) x := by
    rw [eval_logR]; field_simp
  rw [e]; exact h2

theorem sweep_log_pos : sweep logR 0 (41422 / 100000 / 32) 32 ≤ 12 / 10 ^ 9 := by decide +kernel

theorem sweep_log_neg : sweep logR 0 (-(2929 / 10000 / 32)) 32 ≤ 6 / 10 ^ 9 := by decide +kernel

/-- The polynomial of `log` on the reduced range. -/
theorem log_poly {x : ℝ} (h1 : -(2929 / 10000) ≤ x) (h2 : x ≤ 41422 / 100000) :
    |Real.log (1 + x) - evalPoly logL x| ≤ 12 / 10 ^ 9 := by
  have z : (fun x : ℝ => Real.log (1 + x) - evalPoly logL x) 0 = 0 := by simp [evalPoly, logL]
  rcases le_total 0 x with h | h
  · have := sweep_bound (G := fun x : ℝ => Real.log (1 + x) - evalPoly logL x) (g := fun x => evalPoly logR x / (1 + x))
      (c := logR) (a := 0) (w := 41422 / 100000 / 32) (K := 1) zero_le_one 32
      (fun s h0 _ => log_deriv (by push_cast; positivity))
      (fun s h0 _ => by
        rw [abs_div, one_mul]
        refine div_le_self (abs_nonneg _) ?_
        rw [abs_of_pos (by push_cast; positivity)]
        push_cast; linarith [show (0 : ℝ) ≤ s * (41422 / 100000 / 32) by positivity])
      (x / (41422 / 100000 / 32)) (by positivity) (by rw [div_le_iff₀ (by norm_num)]; push_cast; linarith)
    have e : ((0 : ℚ) : ℝ) + x / (41422 / 100000 / 32) * ((41422 / 100000 / 32 : ℚ) : ℝ) = x := by
      push_cast; field_simp; ring
    rw [e] at this
    have hz : (((0 : ℚ) : ℝ)) = 0 := by simp
    rw [hz] at this
    simp only [z, sub_zero, one_mul] at this
    refine this.trans ?_
    have h4 : ((sweep logR 0 (41422 / 100000 / 32) 32 : ℚ) : ℝ) ≤ ((12 / 10 ^ 9 : ℚ) : ℝ) := by exact_mod_cast sweep_log_pos
    push_cast at h4
    exact h4
  · have hw : (0 : ℝ) < 2929 / 10000 / 32 := by norm_num
    have := sweep_bound (G := fun x : ℝ => Real.log (1 + x) - evalPoly logL x) (g := fun x => evalPoly logR x / (1 + x))
      (c := logR) (a := 0) (w := -(2929 / 10000 / 32)) (K := 1.42) (by norm_num) 32
      (fun s h0 h1 => log_deriv (by push_cast at h1 ⊢; linarith))
      (fun s h0 h1 => by
        have hp : (1 : ℝ) / 1.42 ≤ 1 + (((0 : ℚ) : ℝ) + s * ((-(2929 / 10000 / 32) : ℚ) : ℝ)) := by
          push_cast at h1 ⊢; norm_num; linarith
        have hp0 : (0 : ℝ) < 1 + (((0 : ℚ) : ℝ) + s * ((-(2929 / 10000 / 32) : ℚ) : ℝ)) := lt_of_lt_of_le (by norm_num) hp
        rw [abs_div, abs_of_pos hp0, div_le_iff₀ hp0]
        have : (1 : ℝ) ≤ 1.42 * (1 + (((0 : ℚ) : ℝ) + s * ((-(2929 / 10000 / 32) : ℚ) : ℝ))) := by
          have := mul_le_mul_of_nonneg_left hp (show (0 : ℝ) ≤ 1.42 by norm_num)
          norm_num at this ⊢; linarith
        have h3 := mul_le_mul_of_nonneg_left this (abs_nonneg (evalPoly logR (((0 : ℚ) : ℝ) + s * ((-(2929 / 10000 / 32) : ℚ) : ℝ))))
        linarith)
      (-x / (2929 / 10000 / 32)) (div_nonneg (by linarith) hw.le) (by rw [div_le_iff₀ hw]; push_cast; linarith)
    have e : ((0 : ℚ) : ℝ) + -x / (2929 / 10000 / 32) * ((-(2929 / 10000 / 32) : ℚ) : ℝ) = x := by
      push_cast; field_simp; ring
    rw [e] at this
    have hz : (((0 : ℚ) : ℝ)) = 0 := by simp
    rw [hz] at this
    simp only [z, sub_zero] at this
    have h4 : ((sweep logR 0 (-(2929 / 10000 / 32)) 32 : ℚ) : ℝ) ≤ ((6 / 10 ^ 9 : ℚ) : ℝ) := by exact_mod_cast sweep_log_neg
    push_cast at h4
    refine this.trans ?_
    have := mul_le_mul_of_nonneg_left h4 (show (0 : ℝ) ≤ 1.42 by norm_num)
    norm_num at this ⊢; linarith

/-! ## exp -/

/-- Coefficients of the polynomial of `exp`. -/
def expC : List ℚ :=
  [1 / 2, 5592405 / 33554432, 11184577 / 268435456, 1118497 / 134217728, 6005223 / 4294967296, 13658471 / 68719476736]

/-- `1 + x + x² · p(x)` -/
def expE : List ℚ := 1 :: 1 :: expC

/-- `E' - E` -/
def expR : List ℚ := addPoly (derivPoly expE) (negPoly expE)

theorem exp_deriv (x : ℝ) :
    HasDerivAt (fun x => evalPoly expE x * Real.exp (-x)) (evalPoly expR x * Real.exp (-x)) x := by
  have h1 : HasDerivAt (fun x : ℝ => Real.exp (-x)) (-Real.exp (-x)) x := by
    simpa using (hasDerivAt_neg x).exp
  have h2 := (hasDeriv_poly x expE).mul h1
  have e : evalPoly expR x * Real.exp (-x) =
      evalPoly (derivPoly expE) x * Real.exp (-x) + evalPoly expE x * -Real.exp (-x) := by
    rw [expR, eval_add, eval_neg]; ring
  rw [e]; exact h2

theorem sweep_exp_pos : sweep expR 0 (348 / 1000 / 16) 16 ≤ 4 / 10 ^ 9 := by decide +kernel

theorem sweep_exp_neg : sweep expR 0 (-(348 / 1000 / 16)) 16 ≤ 4 / 10 ^ 9 := by decide +kernel

theorem exp_le_of {x : ℝ} (h : x ≤ 348 / 1000) : Real.exp x ≤ 1.54 := by
  have h1 := Real.add_one_le_exp (-(348 / 1000 : ℝ))
  have h2 : Real.exp x ≤ Real.exp (348 / 1000) := Real.exp_le_exp.mpr h
  rw [Real.exp_neg] at h1
  have h3 : (0 : ℝ) < Real.exp (348 / 1000) := Real.exp_pos _
  have h4 : (652 / 1000 : ℝ) * Real.exp (348 / 1000) ≤ 1 := by
    have := mul_le_mul_of_nonneg_right h1 h3.le
    rw [inv_mul_cancel₀ h3.ne'] at this
    linarith
  norm_num at h4 ⊢
  linarith

/-- The polynomial of `exp` on the reduced range. -/
theorem exp_poly {x : ℝ} (hx : |x| ≤ 348 / 1000) : |evalPoly expE x - Real.exp x| ≤ 1 / 10 ^ 8 * Real.exp x := by
  have key : |evalPoly expE x * Real.exp (-x) - 1| ≤ 1 / 10 ^ 8 := by
    have z : (fun x : ℝ => evalPoly expE x * Real.exp (-x)) 0 = 1 := by simp [evalPoly, expE]
    have gen : ∀ w : ℚ, |w| = 348 / 1000 / 16 → sweep expR 0 w 16 ≤ 4 / 10 ^ 9 → 0 ≤ x / w →
        |evalPoly expE x * Real.exp (-x) - 1| ≤ 1 / 10 ^ 8 := by
      intro w hw hs hxw
      have hw0 : w ≠ 0 := by rintro rfl; norm_num at hw
      have hwR : |(w : ℝ)| = 348 / 1000 / 16 := by
        have : ((|w| : ℚ) : ℝ) = ((348 / 1000 / 16 : ℚ) : ℝ) := by rw [hw]
        push_cast at this; exact this
      have := sweep_bound (G := fun x : ℝ => evalPoly expE x * Real.exp (-x)) (g := fun x => evalPoly expR x * Real.exp (-x))
        (c := expR) (a := 0) (w := w) (K := 1.54) (by norm_num) 16
        (fun s _ _ => exp_deriv _)
        (fun s h0 h1 => by
          rw [abs_mul, mul_comm]
          refine mul_le_mul_of_nonneg_right ?_ (abs_nonneg _)
          rw [Real.abs_exp]
          apply exp_le_of
          have h5 : |s * (w : ℝ)| ≤ 16 * (348 / 1000 / 16) := by
            rw [abs_mul, hwR, abs_of_nonneg h0]
            exact mul_le_mul_of_nonneg_right (by exact_mod_cast h1) (by norm_num)
          have := (abs_le.mp h5).1
          push_cast; linarith)
        (x / w) hxw (by
          have h6 : |x / (w : ℝ)| ≤ 16 := by
            rw [abs_div, hwR, div_le_iff₀ (by norm_num)]; linarith
          exact_mod_cast (le_abs_self _).trans h6)
      have e : ((0 : ℚ) : ℝ) + x / w * (w : ℝ) = x := by
        have : (w : ℝ) ≠ 0 := by exact_mod_cast hw0
        push_cast; field_simp; ring
      rw [e] at this
      have hz : (((0 : ℚ) : ℝ)) = 0 := by simp
      rw [hz] at this
      simp only [z] at this
      have h4 : ((sweep expR 0 w 16 : ℚ) : ℝ) ≤ ((4 / 10 ^ 9 : ℚ) : ℝ) := by exact_mod_cast hs
      push_cast at h4
      refine this.trans ?_
      have := mul_le_mul_of_nonneg_left h4 (show (0 : ℝ) ≤ 1.54 by norm_num)
      norm_num at this ⊢; linarith
    rcases le_total 0 x with h | h
    · refine gen (348 / 1000 / 16) (by norm_num) sweep_exp_pos ?_
      push_cast; positivity
    · refine gen (-(348 / 1000 / 16)) (by norm_num) sweep_exp_neg ?_
      apply div_nonneg_of_nonpos h
      push_cast; norm_num
  have hp := Real.exp_pos x
  have e : evalPoly expE x - Real.exp x = (evalPoly expE x * Real.exp (-x) - 1) * Real.exp x := by
    rw [Real.exp_neg]; field_simp
  rw [e, abs_mul, abs_of_pos hp]
  exact mul_le_mul_of_nonneg_right key hp.le

end Ezk

import Mathlib.Analysis.Calculus.MeanValue
import Mathlib.Tactic.Linarith
import Mathlib.Tactic.Ring
import Mathlib.Tactic.Positivity
import Mathlib.Tactic.NormNum

/-!
# Polynomials on small intervals, bounded by computation

A polynomial with rational coefficients is bounded on an interval by shifting it to the centre and adding the absolute values of
the coefficients. A function whose derivative is bounded by a polynomial is bounded by summing over a subdivision.
-/

namespace Ezk

/-- `c₀ + c₁ x + c₂ x² + …` -/
noncomputable def evalPoly (c : List ℚ) (x : ℝ) : ℝ := c.foldr (fun a acc => (a : ℝ) + x * acc) 0

/-- Coefficients of `(t + x) · c(x)`, then `+ a`. -/
def stepPoly (t a : ℚ) (c : List ℚ) : List ℚ :=
  match c with
  | [] => [a]
  | c0 :: cs => (a + t * c0) :: List.zipWith (· + ·) (c0 :: cs) ((cs.map (t * ·)) ++ [0])

/-- Coefficients of `c(t + x)`. -/
def shiftPoly (t : ℚ) (c : List ℚ) : List ℚ := c.foldr (fun a acc => stepPoly t a acc) []

/-- A bound of `|c(x)|` for `|x| ≤ r`. -/
def absPoly (r : ℚ) (c : List ℚ) : ℚ := c.foldr (fun a acc => |a| + r * acc) 0

theorem evalPoly_cons (a : ℚ) (c : List ℚ) (x : ℝ) : evalPoly (a :: c) x = a + x * evalPoly c x := rfl

theorem eval_zip (t : ℚ) (x : ℝ) : ∀ (c0 : ℚ) (cs : List ℚ),
    evalPoly (List.zipWith (· + ·) (c0 :: cs) ((cs.map (t * ·)) ++ [0])) x = evalPoly (c0 :: cs) x + t * evalPoly cs x
  | c0, [] => by simp [evalPoly]
  | c0, c1 :: cs => by
    have := eval_zip t x c1 cs
    simp only [List.map_cons, List.cons_append, List.zipWith_cons_cons] at this ⊢
    rw [evalPoly_cons, evalPoly_cons c0, evalPoly_cons c1, this, evalPoly_cons c1]
    push_cast
    ring

theorem eval_step (t a : ℚ) (c : List ℚ) (x : ℝ) : evalPoly (stepPoly t a c) x = a + (t + x) * evalPoly c x := by
  cases c with
  | nil => simp [stepPoly, evalPoly]
  | cons c0 cs =>
    rw [stepPoly, evalPoly_cons, eval_zip, evalPoly_cons]
    push_cast
    ring

theorem eval_shift (t : ℚ) (c : List ℚ) (x : ℝ) : evalPoly (shiftPoly t c) x = evalPoly c (t + x) := by
  induction c with
  | nil => rfl
  | cons a c ih =>
    rw [shiftPoly, List.foldr_cons, eval_step, ← shiftPoly, ih, evalPoly_cons]

theorem abs_eval_le {r : ℚ} {x : ℝ} (hx : |x| ≤ r) (c : List ℚ) : |evalPoly c x| ≤ absPoly r c := by
  induction c with
  | nil => simp [evalPoly, absPoly]
  | cons a c ih =>
    rw [evalPoly_cons, absPoly, List.foldr_cons, ← absPoly]
    push_cast
    calc |(a : ℝ) + x * evalPoly c x| ≤ |(a : ℝ)| + |x * evalPoly c x| := abs_add_le _ _
      _ ≤ |(a : ℝ)| + r * absPoly r c := by
        rw [abs_mul]
        have : |x| * |evalPoly c x| ≤ r * absPoly r c :=
          mul_le_mul hx ih (abs_nonneg _) (le_trans (abs_nonneg _) hx)
        linarith

/-- A bound of `|c|` between `t - r` and `t + r`. -/
theorem abs_eval_near {t r : ℚ} {x : ℝ} (hx : |x - t| ≤ r) (c : List ℚ) :
    |evalPoly c x| ≤ absPoly r (shiftPoly t c) := by
  have := abs_eval_le hx (shiftPoly t c)
  rwa [eval_shift, add_sub_cancel] at this

/-- Bound of the integral of `|c|` over `n` steps of width `|w|` from `a`. -/
def sweep (c : List ℚ) (a w : ℚ) : Nat → ℚ
  | 0 => 0
  | n + 1 => sweep c a w n + |w| * absPoly (|w| / 2) (shiftPoly (a + (n + 1 / 2) * w) c)

theorem absPoly_nonneg {r : ℚ} (hr : 0 ≤ r) (c : List ℚ) : 0 ≤ absPoly r c := by
  induction c with
  | nil => simp [absPoly]
  | cons a c ih => rw [absPoly, List.foldr_cons, ← absPoly]; positivity

theorem sweep_nonneg (c : List ℚ) (a w : ℚ) (n : Nat) : 0 ≤ sweep c a w n := by
  induction n with
  | zero => simp [sweep]
  | succ n ih =>
    rw [sweep]
    have := absPoly_nonneg (show (0 : ℚ) ≤ |w| / 2 by positivity) (shiftPoly (a + (n + 1 / 2) * w) c)
    positivity

/-- A function whose derivative is bounded by `K |c|`. -/
theorem sweep_bound {G g : ℝ → ℝ} {c : List ℚ} {a w : ℚ} {K : ℝ} (hK : 0 ≤ K) : ∀ (n : Nat),
    (∀ s : ℝ, 0 ≤ s → s ≤ n → HasDerivAt G (g (a + s * w)) (a + s * w)) →
    (∀ s : ℝ, 0 ≤ s → s ≤ n → |g (a + s * w)| ≤ K * |evalPoly c (a + s * w)|) →
    ∀ s : ℝ, 0 ≤ s → s ≤ n → |G (a + s * w) - G a| ≤ K * sweep c a w n
  | 0, _, _, s, h0, h1 => by
    have : s = 0 := le_antisymm (by simpa using h1) h0
    subst this
    simp [sweep]
  | n + 1, hd, hb, s, h0, h1 => by
    have ih := sweep_bound (G := G) (g := g) (c := c) (a := a) (w := w) hK n
      (fun s h0 h1 => hd s h0 (by push_cast; linarith)) (fun s h0 h1 => hb s h0 (by push_cast; linarith))
    have hm := absPoly_nonneg (show (0 : ℚ) ≤ |w| / 2 by positivity) (shiftPoly (a + (n + 1 / 2) * w) c)
    have hm' : (0 : ℝ) ≤ (|w| * absPoly (|w| / 2) (shiftPoly (a + (n + 1 / 2) * w) c) : ℚ) := by
      exact_mod_cast mul_nonneg (abs_nonneg _) hm
    rcases le_total s n with h | h
    · refine (ih s h0 h).trans (mul_le_mul_of_nonneg_left ?_ hK)
      rw [sweep]; push_cast at hm' ⊢; linarith
    · -- the last step
      have h1' : s ≤ n + 1 := by exact_mod_cast h1
      have key := Convex.norm_image_sub_le_of_norm_hasDerivWithin_le (f := fun s : ℝ => G (a + s * w))
        (f' := fun s => g (a + s * w) * w) (s := Set.Icc (n : ℝ) (n + 1))
        (C := K * (|w| * absPoly (|w| / 2) (shiftPoly (a + (n + 1 / 2) * w) c) : ℚ)) (x := (n : ℝ)) (y := s)
        (by
          intro u hu
          have hn : (0 : ℝ) ≤ n := Nat.cast_nonneg n
          have h1 := hd u (hn.trans hu.1) (by push_cast; exact hu.2)
          have h2 : HasDerivAt (fun s : ℝ => (a : ℝ) + s * w) (w : ℝ) u := by
            simpa using ((hasDerivAt_id u).mul_const (w : ℝ)).const_add (a : ℝ)
          exact (HasDerivAt.comp u h1 h2).hasDerivWithinAt)
        (by
          intro u hu
          have hn : (0 : ℝ) ≤ n := Nat.cast_nonneg n
          have h1 := hb u (hn.trans hu.1) (by push_cast; exact hu.2)
          have h2 : |evalPoly c (a + u * w)| ≤ absPoly (|w| / 2) (shiftPoly (a + (n + 1 / 2) * w) c) := by
            apply abs_eval_near
            push_cast
            have e : (a : ℝ) + u * w - (a + (n + 1 / 2) * w) = (u - (n + 1 / 2)) * w := by ring
            rw [e, abs_mul]
            have : |u - (n + 1 / 2)| ≤ 1 / 2 := by rw [abs_le]; constructor <;> linarith [hu.1, hu.2]
            have := mul_le_mul_of_nonneg_right this (abs_nonneg (w : ℝ))
            linarith
          rw [Real.norm_eq_abs, abs_mul]
          push_cast
          have h3 := h1.trans (mul_le_mul_of_nonneg_left h2 hK)
          have h4 := mul_le_mul_of_nonneg_right h3 (abs_nonneg (w : ℝ))
          linarith)
        (convex_Icc _ _) (by simp) ⟨h, h1'⟩
      have hn := ih n (Nat.cast_nonneg n) le_rfl
      rw [Real.norm_eq_abs, Real.norm_eq_abs] at key
      have e : |s - n| ≤ 1 := by rw [abs_le]; constructor <;> linarith
      have key2 := key.trans (mul_le_mul_of_nonneg_left e (mul_nonneg hK hm'))
      have tri := abs_sub_le (G (a + s * w)) (G (a + n * w)) (G a)
      rw [sweep]
      push_cast at key2 hm' ⊢
      linarith

end Ezk

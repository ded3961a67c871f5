import Verif.Proofs.Stores
import Verif.Proofs.Exact

/-!
# Forward error analysis of binary32 arithmetic

`App x r e`: `x` is finite and differs from the real number `r` by at most `e`.  One operation adds a relative error of
`6·10⁻⁸` (`2⁻²⁴` and a little for subnormal numbers).
-/

namespace Ezk
open F32 FOps Spec

namespace F32

/-- `x` approximates `r`. -/
def App (x : F32) (r e : ℝ) : Prop := ∃ s p, x = fin s p ∧ 0 ≤ p ∧ |((signed s p : ℚ) : ℝ) - r| ≤ e

theorem App.mono {x : F32} {r e e' : ℝ} (h : App x r e) (he : e ≤ e') : App x r e' := by
  obtain ⟨s, p, h1, h2, h3⟩ := h
  exact ⟨s, p, h1, h2, h3.trans he⟩

theorem App.nonneg {x : F32} {r e : ℝ} (h : App x r e) : 0 ≤ e := by
  obtain ⟨s, p, _, _, h⟩ := h
  exact le_trans (abs_nonneg _) h

theorem signed_abs {s : Bool} {p : ℚ} (h : 0 ≤ p) : |signed s p| = p := by
  cases s <;> simp [signed, abs_of_nonneg h]

theorem signed_sub (s : Bool) (p q : ℚ) : signed s p - signed s q = signed s (p - q) := by
  cases s <;> simp [signed]; ring

theorem abs_signed_sub (s : Bool) (p q : ℚ) : |signed s p - signed s q| = |p - q| := by
  rw [signed_sub]; cases s <;> simp [signed, abs_sub_comm]

/-- Rounding of a number of moderate size. -/
theorem round_app (s : Bool) {q B : ℚ} (h0 : 0 ≤ q) (hq : q ≤ B) (h1 : 1 / 10 ^ 9 ≤ B) (h2 : B ≤ 10 ^ 9) :
    ∃ p, round s q = fin s p ∧ 0 ≤ p ∧ |signed s p - signed s q| ≤ B * (6 / 10 ^ 8) := by
  have hr := rnd_error h0
  have hn := rnd_nonneg h0
  refine ⟨rnd q, ?_, hn, ?_⟩
  · rw [round_eq, if_neg]
    rw [limit_eq, not_le]
    rw [abs_le] at hr
    have : rnd q ≤ 2 ^ 40 := by
      have := hr.2
      norm_num at *
      linarith
    refine lt_of_le_of_lt this (by norm_num)
  · rw [abs_signed_sub]
    refine hr.trans ?_
    have : q / 2 ^ 24 ≤ B / 2 ^ 24 := by gcongr
    norm_num at *
    linarith

theorem signed_decide (q : ℚ) : signed (decide (q < 0)) |q| = q := by
  by_cases h : q < 0
  · simp [signed, h, abs_of_neg h]
  · simp [signed, h, abs_of_nonneg (not_lt.mp h)]

theorem ofRat_app (z : Bool) {q B : ℚ} (hq : |q| ≤ B) (h1 : 1 / 10 ^ 9 ≤ B) (h2 : B ≤ 10 ^ 9) :
    ∃ s p, ofRat z q = fin s p ∧ 0 ≤ p ∧ |signed s p - q| ≤ B * (6 / 10 ^ 8) := by
  unfold ofRat
  by_cases h : q = 0
  · refine ⟨z, 0, by rw [if_pos h], le_refl _, ?_⟩
    rw [h]
    have : signed z 0 = 0 := by cases z <;> simp [signed]
    rw [this]
    simp only [sub_zero, abs_zero]
    have : (0 : ℚ) < B := lt_of_lt_of_le (by norm_num) h1
    positivity
  · rw [if_neg h]
    obtain ⟨p, e, hp, he⟩ := round_app (decide (q < 0)) (abs_nonneg q) hq h1 h2
    refine ⟨_, p, e, hp, ?_⟩
    rwa [signed_decide] at he

theorem app_lit (q : ℚ) (h : |q| ≤ 1) : App (lit q) (q : ℝ) (6 / 10 ^ 8) := by
  obtain ⟨s, p, e, hp, he⟩ := ofRat_app false h (by norm_num) (by norm_num)
  refine ⟨s, p, e, hp, ?_⟩
  have : ((|signed s p - q| : ℚ) : ℝ) ≤ ((1 * (6 / 10 ^ 8) : ℚ) : ℝ) := by exact_mod_cast he
  push_cast at this
  linarith

theorem app_nat {n : Nat} (h : n < 2 ^ 24) : App (FOps.ofNat n) (n : ℝ) 0 := by
  refine ⟨false, n, ofNat_eq h, by positivity, ?_⟩
  simp [signed]

/-- A constant compared with a rational number. -/
def closeTo (x : F32) (r e : ℚ) : Bool :=
  match x with
  | fin s p => decide (0 ≤ p) && decide (|signed s p - r| ≤ e)
  | _ => false

theorem app_const {x : F32} {q d : ℚ} {r e : ℝ} (h : closeTo x q d = true) (hr : (q : ℝ) = r) (he : (d : ℝ) ≤ e) :
    App x r e := by
  cases x with
  | nan => cases h
  | inf s => cases h
  | fin s p =>
    simp only [closeTo, Bool.and_eq_true, decide_eq_true_eq] at h
    refine ⟨s, p, rfl, h.1, ?_⟩
    rw [← hr]
    have : ((|signed s p - q| : ℚ) : ℝ) ≤ (d : ℝ) := by exact_mod_cast h.2
    push_cast at this
    linarith

theorem app_neg {x : F32} {a e : ℝ} (h : App x a e) : App (neg x) (-a) e := by
  obtain ⟨s, p, rfl, h2, h3⟩ := h
  refine ⟨!s, p, rfl, h2, ?_⟩
  have : signed (!s) p = - signed s p := by cases s <;> simp [signed]
  rw [this]
  push_cast
  rw [abs_le] at *
  constructor <;> linarith [h3.1, h3.2]

theorem app_add {x y : F32} {a b d e B : ℝ} (hx : App x a d) (hy : App y b e) (hB : |a + b| + d + e ≤ B)
    (h1 : 1 / 10 ^ 8 ≤ B) (h2 : B ≤ 10 ^ 8) : App (add x y) (a + b) (d + e + (B + 1 / 10 ^ 9) * (6 / 10 ^ 8)) := by
  obtain ⟨s, p, rfl, hp, h3⟩ := hx
  obtain ⟨t, q, rfl, hq, h4⟩ := hy
  -- a rational bound just above `B`
  obtain ⟨C, hC1, hC2⟩ := exists_rat_btwn (show B < B + 1 / 10 ^ 9 by linarith [show (0 : ℝ) < 1 / 10 ^ 9 by norm_num])
  have hv : |((signed s p + signed t q : ℚ) : ℝ)| ≤ C := by
    push_cast
    have := abs_le.mp (le_refl |a + b|)
    rw [abs_le] at *
    constructor <;> linarith [h3.1, h3.2, h4.1, h4.2, this.1, this.2]
  have hvq : |signed s p + signed t q| ≤ C := by exact_mod_cast hv
  have c1 : (1 / 10 ^ 9 : ℚ) ≤ C := by
    have : ((1 / 10 ^ 9 : ℚ) : ℝ) ≤ C := by push_cast; linarith [show (1 : ℝ) / 10 ^ 9 ≤ 1 / 10 ^ 8 by norm_num]
    exact_mod_cast this
  have c2 : C ≤ (10 ^ 9 : ℚ) := by
    have : (C : ℝ) ≤ ((10 ^ 9 : ℚ) : ℝ) := by
      push_cast
      have : (1 : ℝ) / 10 ^ 9 ≤ 1 := by norm_num
      norm_num at *
      linarith
    exact_mod_cast this
  obtain ⟨u, r, er, hr, hre⟩ := ofRat_app (s && t) hvq c1 c2
  refine ⟨u, r, er, hr, ?_⟩
  have h5 : ((|signed u r - (signed s p + signed t q)| : ℚ) : ℝ) ≤ ((C * (6 / 10 ^ 8) : ℚ) : ℝ) := by exact_mod_cast hre
  push_cast at h5
  have h6 : (C : ℝ) * (6 / 10 ^ 8) ≤ (B + 1 / 10 ^ 9) * (6 / 10 ^ 8) := by gcongr
  rw [abs_le] at *
  constructor <;> linarith [h3.1, h3.2, h4.1, h4.2, h5.1, h5.2]

theorem app_sub {x y : F32} {a b d e B : ℝ} (hx : App x a d) (hy : App y b e) (hB : |a - b| + d + e ≤ B)
    (h1 : 1 / 10 ^ 8 ≤ B) (h2 : B ≤ 10 ^ 8) : App (sub x y) (a - b) (d + e + (B + 1 / 10 ^ 9) * (6 / 10 ^ 8)) := by
  have := app_add (B := B) hx (app_neg hy) (by rwa [← sub_eq_add_neg]) h1 h2
  rwa [← sub_eq_add_neg] at this

theorem signed_mul (s t : Bool) (p q : ℚ) : signed (s ^^ t) (p * q) = signed s p * signed t q := by
  cases s <;> cases t <;> simp [signed]

theorem app_mul {x y : F32} {a b d e A C B : ℝ} (hx : App x a d) (hy : App y b e) (ha : |a| ≤ A) (hb : |b| ≤ C)
    (hB : A * C + (A * e + C * d + d * e) ≤ B) (h1 : 1 / 10 ^ 8 ≤ B) (h2 : B ≤ 10 ^ 8) :
    App (mul x y) (a * b) (A * e + C * d + d * e + (B + 1 / 10 ^ 9) * (6 / 10 ^ 8)) := by
  have hd := hx.nonneg
  have he := hy.nonneg
  obtain ⟨s, p, rfl, hp, h3⟩ := hx
  obtain ⟨t, q, rfl, hq, h4⟩ := hy
  obtain ⟨D, hD1, hD2⟩ := exists_rat_btwn (show B < B + 1 / 10 ^ 9 by linarith [show (0 : ℝ) < 1 / 10 ^ 9 by norm_num])
  have hA : 0 ≤ A := le_trans (abs_nonneg _) ha
  have hC : 0 ≤ C := le_trans (abs_nonneg _) hb
  -- the exact product
  have hprod : |((signed s p * signed t q : ℚ) : ℝ) - a * b| ≤ A * e + C * d + d * e := by
    push_cast
    have e1 : (signed s p : ℝ) * signed t q - a * b =
        a * ((signed t q : ℝ) - b) + b * ((signed s p : ℝ) - a) + ((signed s p : ℝ) - a) * ((signed t q : ℝ) - b) := by
      ring
    rw [e1]
    refine (abs_add_le _ _).trans (add_le_add ((abs_add_le _ _).trans (add_le_add ?_ ?_)) ?_)
    · rw [abs_mul]; exact mul_le_mul ha h4 (abs_nonneg _) hA
    · rw [abs_mul]; exact mul_le_mul hb h3 (abs_nonneg _) hC
    · rw [abs_mul]; exact mul_le_mul h3 h4 (abs_nonneg _) hd
  have hab : |a * b| ≤ A * C := by rw [abs_mul]; exact mul_le_mul ha hb (abs_nonneg _) hA
  have hpq : 0 ≤ p * q := mul_nonneg hp hq
  have hv : ((p * q : ℚ) : ℝ) ≤ D := by
    have e2 : p * q = |signed s p * signed t q| := by rw [abs_mul, signed_abs hp, signed_abs hq]
    rw [e2]
    push_cast
    push_cast at hprod
    have := abs_sub_abs_le_abs_sub ((signed s p : ℝ) * signed t q) (a * b)
    linarith
  have hvq : p * q ≤ D := by exact_mod_cast hv
  have c1 : (1 / 10 ^ 9 : ℚ) ≤ D := by
    have : ((1 / 10 ^ 9 : ℚ) : ℝ) ≤ D := by push_cast; linarith [show (1 : ℝ) / 10 ^ 9 ≤ 1 / 10 ^ 8 by norm_num]
    exact_mod_cast this
  have c2 : D ≤ (10 ^ 9 : ℚ) := by
    have : (D : ℝ) ≤ ((10 ^ 9 : ℚ) : ℝ) := by
      push_cast
      have : (1 : ℝ) / 10 ^ 9 ≤ 1 := by norm_num
      norm_num at *
      linarith
    exact_mod_cast this
  obtain ⟨r, er, hr, hre⟩ := round_app (s ^^ t) hpq hvq c1 c2
  refine ⟨_, r, er, hr, ?_⟩
  rw [signed_mul] at hre
  have h5 : ((|signed (s ^^ t) r - signed s p * signed t q| : ℚ) : ℝ) ≤ ((D * (6 / 10 ^ 8) : ℚ) : ℝ) := by
    exact_mod_cast hre
  push_cast at h5 hprod
  have h6 : (D : ℝ) * (6 / 10 ^ 8) ≤ (B + 1 / 10 ^ 9) * (6 / 10 ^ 8) := by gcongr
  rw [abs_le] at h5 hprod ⊢
  constructor <;> linarith [h5.1, h5.2, hprod.1, hprod.2]

/-- Division by an exactly represented integer. -/
theorem app_div_nat {x : F32} {a d B : ℝ} {n : Nat} (hx : App x a d) (hn : 0 < n) (hn' : n < 2 ^ 24)
    (hB : (|a| + d) / n ≤ B) (h1 : 1 / 10 ^ 8 ≤ B) (h2 : B ≤ 10 ^ 8) :
    App (div x (fin false n)) (a / n) (d / n + (B + 1 / 10 ^ 9) * (6 / 10 ^ 8)) := by
  obtain ⟨s, p, rfl, hp, h3⟩ := hx
  obtain ⟨D, hD1, hD2⟩ := exists_rat_btwn (show B < B + 1 / 10 ^ 9 by linarith [show (0 : ℝ) < 1 / 10 ^ 9 by norm_num])
  have hnq : (0 : ℚ) < n := by exact_mod_cast hn
  have hnr : (0 : ℝ) < n := by exact_mod_cast hn
  have hpq : 0 ≤ p / n := by positivity
  have hpa : (p : ℝ) ≤ |a| + d := by
    have e2 : p = |signed s p| := (signed_abs hp).symm
    rw [e2]
    push_cast
    have := abs_sub_abs_le_abs_sub ((signed s p : ℝ)) a
    linarith
  have hv : ((p / n : ℚ) : ℝ) ≤ D := by
    push_cast
    have : (p : ℝ) / n ≤ (|a| + d) / n := by gcongr
    linarith
  have hvq : p / n ≤ D := by exact_mod_cast hv
  have c1 : (1 / 10 ^ 9 : ℚ) ≤ D := by
    have : ((1 / 10 ^ 9 : ℚ) : ℝ) ≤ D := by push_cast; linarith [show (1 : ℝ) / 10 ^ 9 ≤ 1 / 10 ^ 8 by norm_num]
    exact_mod_cast this
  have c2 : D ≤ (10 ^ 9 : ℚ) := by
    have : (D : ℝ) ≤ ((10 ^ 9 : ℚ) : ℝ) := by
      push_cast
      have : (1 : ℝ) / 10 ^ 9 ≤ 1 := by norm_num
      norm_num at *
      linarith
    exact_mod_cast this
  obtain ⟨r, er, hr, hre⟩ := round_app (s ^^ false) hpq hvq c1 c2
  refine ⟨s ^^ false, r, ?_, hr, ?_⟩
  · simp only [div, if_neg hnq.ne']; exact er
  · have e1 : signed (s ^^ false) (p / n) = signed s p / n := by cases s <;> simp [signed, neg_div]
    rw [e1] at hre
    have h5 : ((|signed (s ^^ false) r - signed s p / n| : ℚ) : ℝ) ≤ ((D * (6 / 10 ^ 8) : ℚ) : ℝ) := by
      exact_mod_cast hre
    push_cast at h5
    have h6 : (D : ℝ) * (6 / 10 ^ 8) ≤ (B + 1 / 10 ^ 9) * (6 / 10 ^ 8) := by gcongr
    have h7 : |(signed s p : ℝ) / n - a / n| ≤ d / n := by
      rw [← sub_div, abs_div, abs_of_pos hnr]
      gcongr
    rw [abs_le] at h5 h7 ⊢
    constructor <;> linarith [h5.1, h5.2, h7.1, h7.2]

end F32
end Ezk

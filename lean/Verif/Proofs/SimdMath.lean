import Verif.Proofs.Bits
import Verif.Proofs.LogExp
import Verif.Proofs.Rounding
import Mathlib.Analysis.Complex.ExponentialBounds

/-!
# Error analysis of the SIMD `exp` and `log`
-/

namespace Ezk.F32
open FOps

/-! ## Exact operations -/

theorem lt_limit_of {q : ℚ} (h : q < 2 ^ 100) : ¬ limit ≤ q := by
  rw [limit_eq, not_le]
  exact h.trans (by norm_num)

theorem round_exact (s : Bool) {q : ℚ} (h : Rep q) (hl : q < 2 ^ 100) : round s q = fin s q := by
  rw [round_eq, rnd_rep h, if_neg (lt_limit_of hl)]

theorem ofRat_exact (z : Bool) {q : ℚ} (h : Rep |q|) (hl : |q| < 2 ^ 100) :
    ∃ s p, ofRat z q = fin s p ∧ 0 ≤ p ∧ signed s p = q := by
  unfold ofRat
  by_cases h0 : q = 0
  · refine ⟨z, 0, by rw [if_pos h0], le_refl _, ?_⟩
    rw [h0]; cases z <;> simp [signed]
  · refine ⟨decide (q < 0), |q|, ?_, abs_nonneg _, signed_decide q⟩
    rw [if_neg h0, round_exact _ h hl]

/-- `x` is exactly the rational number `q`. -/
def Is (x : F32) (q : ℚ) : Prop := ∃ s p, x = fin s p ∧ 0 ≤ p ∧ signed s p = q

theorem Is.app {x : F32} {q : ℚ} (h : Is x q) : App x (q : ℝ) 0 := by
  obtain ⟨s, p, rfl, h1, h2⟩ := h
  exact ⟨s, p, rfl, h1, by rw [h2]; simp⟩

theorem App.is {x : F32} {r e : ℝ} (h : App x r e) : ∃ q, Is x q ∧ |(q : ℝ) - r| ≤ e := by
  obtain ⟨s, p, rfl, h1, h2⟩ := h
  exact ⟨_, ⟨s, p, rfl, h1, rfl⟩, h2⟩

theorem Is.unique {x : F32} {a b : ℚ} (h1 : Is x a) (h2 : Is x b) : a = b := by
  obtain ⟨s, p, rfl, _, rfl⟩ := h1
  obtain ⟨t, q, e, _, rfl⟩ := h2
  cases e; rfl

theorem Is.neg {x : F32} {a : ℚ} (h : Is x a) : Is (neg x) (-a) := by
  obtain ⟨s, p, rfl, h1, rfl⟩ := h
  exact ⟨!s, p, rfl, h1, by cases s <;> simp [signed]⟩

theorem Is.add {x y : F32} {a b : ℚ} (hx : Is x a) (hy : Is y b) (h : Rep |a + b|) (hl : |a + b| < 2 ^ 100) :
    Is (add x y) (a + b) := by
  obtain ⟨s, p, rfl, _, rfl⟩ := hx
  obtain ⟨t, q, rfl, _, rfl⟩ := hy
  exact ofRat_exact _ h hl

theorem Is.sub {x y : F32} {a b : ℚ} (hx : Is x a) (hy : Is y b) (h : Rep |a - b|) (hl : |a - b| < 2 ^ 100) :
    Is (sub x y) (a - b) := by
  rw [sub_eq_add_neg] at *
  exact hx.add hy.neg h hl

theorem Is.mul {x y : F32} {a b : ℚ} (hx : Is x a) (hy : Is y b) (h : Rep |a * b|) (hl : |a * b| < 2 ^ 100) :
    Is (mul x y) (a * b) := by
  obtain ⟨s, p, rfl, hp, rfl⟩ := hx
  obtain ⟨t, q, rfl, hq, rfl⟩ := hy
  rw [abs_mul, signed_abs hp, signed_abs hq] at h hl
  exact ⟨s ^^ t, p * q, round_exact _ h hl, mul_nonneg hp hq, signed_mul s t p q⟩

theorem is_fin {s : Bool} {p : ℚ} (h : 0 ≤ p) : Is (fin s p) (signed s p) := ⟨s, p, rfl, h, rfl⟩

/-- A constant and its value. -/
theorem is_const {x : F32} {q : ℚ} (h : closeTo x q 0 = true) : Is x q := by
  cases x with
  | nan => cases h
  | inf s => cases h
  | fin s p =>
    simp only [closeTo, Bool.and_eq_true, decide_eq_true_eq] at h
    refine ⟨s, p, rfl, h.1, ?_⟩
    have := abs_nonpos_iff.mp h.2
    linarith

theorem rep_abs_int {i : Int} (h : |i| < 2 ^ 24) : Rep |(i : ℚ)| := by
  have e : |(i : ℚ)| = (i.natAbs : ℚ) := by rw [Nat.cast_natAbs]; push_cast; rfl
  rw [e]; exact rep_nat (by have := Int.abs_eq_natAbs i; omega)

theorem abs_int_lt {i : Int} (h : |i| < 2 ^ 24) : |(i : ℚ)| < 2 ^ 100 := by
  have : |(i : ℚ)| < 2 ^ 24 := by exact_mod_cast h
  exact this.trans (by norm_num)

theorem is_ofInt {i : Int} (h : |i| < 2 ^ 24) : Is (ofInt i) (i : ℚ) := ofRat_exact _ (rep_abs_int h) (abs_int_lt h)

theorem is_one : Is one 1 := is_const (by decide +kernel)
theorem is_half : Is oneHalf (1 / 2) := is_const (by decide +kernel)
theorem is_zero : Is zero 0 := ⟨false, 0, rfl, le_refl _, rfl⟩

/-- Comparison of numbers. -/
theorem Is.lt {x y : F32} {a b : ℚ} (hx : Is x a) (hy : Is y b) : F32.lt x y = decide (a < b) := by
  obtain ⟨s, p, rfl, _, rfl⟩ := hx
  obtain ⟨t, q, rfl, _, rfl⟩ := hy
  rfl

theorem Is.le {x y : F32} {a b : ℚ} (hx : Is x a) (hy : Is y b) : F32.le x y = decide (a ≤ b) := by
  obtain ⟨s, p, rfl, _, rfl⟩ := hx
  obtain ⟨t, q, rfl, _, rfl⟩ := hy
  rfl

/-! ## Multiplication and addition, fused or not -/

/-- `mla` is a multiplication and an addition with at most two roundings. -/
def Mla (mla : F32 → F32 → F32 → F32) : Prop := ∀ {x y z : F32} {a b c d e g A C B : ℝ}, App x a d → App y b e → App z c g →
  |a| ≤ A → |b| ≤ C → A * C + |c| + (A * e + C * d + d * e + g) ≤ B → 1 / 10 ^ 8 ≤ B → B ≤ 10 ^ 6 →
  App (mla x y z) (a * b + c) (A * e + C * d + d * e + g + (B + 1 / 10 ^ 9) * (122 / 10 ^ 9))

theorem mla_mulAdd : Mla mulAdd := by
  intro x y z a b c d e g A C B hx hy hz ha hb hB h1 h2
  have hd := hx.nonneg
  have he := hy.nonneg
  have hg := hz.nonneg
  have hA : 0 ≤ A := le_trans (abs_nonneg _) ha
  have hC : 0 ≤ C := le_trans (abs_nonneg _) hb
  have hc := abs_nonneg c
  have hm := app_mul (B := B) hx hy ha hb (by linarith) h1 (by norm_num at h2 ⊢; linarith)
  have hab : |a * b| ≤ A * C := by rw [abs_mul]; exact mul_le_mul ha hb (abs_nonneg _) hA
  have htri := abs_add_le (a * b) c
  refine (app_add (B := B + (B + 1 / 10 ^ 9) * (6 / 10 ^ 8)) hm hz (by linarith) (by linarith) (by norm_num at *; linarith)).mono ?_
  norm_num at *
  linarith

theorem mla_fma : Mla fma := by
  intro x y z a b c d e g A C B hx hy hz ha hb hB h1 h2
  have hd := hx.nonneg
  have he := hy.nonneg
  have hg := hz.nonneg
  have hA : 0 ≤ A := le_trans (abs_nonneg _) ha
  have hC : 0 ≤ C := le_trans (abs_nonneg _) hb
  have hc := abs_nonneg c
  obtain ⟨s, p, rfl, hp, h3⟩ := hx
  obtain ⟨t, q, rfl, hq, h4⟩ := hy
  obtain ⟨u, r, rfl, hr, h5⟩ := hz
  -- the product, seen as an approximation
  have hprod : App (fin (s ^^ t) (p * q)) (a * b) (A * e + C * d + d * e) := by
    refine ⟨_, _, rfl, mul_nonneg hp hq, ?_⟩
    rw [signed_mul]
    push_cast
    have e1 : (signed s p : ℝ) * signed t q - a * b =
        a * ((signed t q : ℝ) - b) + b * ((signed s p : ℝ) - a) + ((signed s p : ℝ) - a) * ((signed t q : ℝ) - b) := by
      ring
    rw [e1]
    refine (abs_add_le _ _).trans (add_le_add ((abs_add_le _ _).trans (add_le_add ?_ ?_)) ?_)
    · rw [abs_mul]; exact mul_le_mul ha h4 (abs_nonneg _) hA
    · rw [abs_mul]; exact mul_le_mul hb h3 (abs_nonneg _) hC
    · rw [abs_mul]; exact mul_le_mul h3 h4 (abs_nonneg _) hd
  have hz : App (fin u r) c g := ⟨u, r, rfl, hr, h5⟩
  have hab : |a * b| ≤ A * C := by rw [abs_mul]; exact mul_le_mul ha hb (abs_nonneg _) hA
  have htri := abs_add_le (a * b) c
  have := app_add (B := B) hprod hz (by linarith) h1 (by norm_num at h2 ⊢; linarith)
  refine App.mono this ?_
  norm_num at *
  linarith

/-- One step of Horner's scheme with a uniform error bound `D`. -/
theorem horner {mla : F32 → F32 → F32 → F32} (hm : Mla mla) {y x p : F32} {v X c D A C K : ℝ} (hy : App y v D) (hv : |v| ≤ A)
    (hx : App x X 0) (hX : |X| ≤ C) (hp : App p c 0) (hc : |c| ≤ K) (h1 : A * C + K ≤ A)
    (h2 : C * D + (A + C * D + 1 / 10 ^ 9) * (122 / 10 ^ 9) ≤ D) (h3 : 1 / 10 ^ 8 ≤ A) (h4 : A + C * D ≤ 10 ^ 6) :
    App (mla y x p) (c + X * v) D ∧ |c + X * v| ≤ A := by
  have hA : 0 ≤ A := le_trans (abs_nonneg _) hv
  have hC : 0 ≤ C := le_trans (abs_nonneg _) hX
  have hD := hy.nonneg
  have hCD : 0 ≤ C * D := mul_nonneg hC hD
  have h := hm (B := A + C * D) hy hx hp hv hX (by linarith) (by linarith) h4
  constructor
  · have e : c + X * v = v * X + c := by ring
    rw [e]
    refine h.mono ?_
    linarith
  · have : |X * v| ≤ C * A := by rw [abs_mul]; exact mul_le_mul hX hv (abs_nonneg _) hC
    calc |c + X * v| ≤ |c| + |X * v| := abs_add_le _ _
      _ ≤ A := by linarith

/-- Rounding of products, relative to the product. -/
theorem round_rel (s : Bool) {q : ℚ} (h : 0 ≤ q) (hl : q < 2 ^ 127) :
    ∃ p, round s q = fin s p ∧ 0 ≤ p ∧ |p - q| ≤ q / 2 ^ 24 + 1 / 2 ^ 150 := by
  refine ⟨rnd q, ?_, rnd_nonneg h, rnd_error h⟩
  rw [round_eq, if_neg]
  have := rnd_le_binade (e := 127) h (by norm_num) (by exact_mod_cast hl.le)
  rw [limit_eq, not_le]
  exact lt_of_le_of_lt this (by norm_num)

/-! ## log -/

theorem logPoly_app {mla : F32 → F32 → F32 → F32} (hm : Mla mla) {x : F32} {X : ℝ} (hx : App x X 0)
    (hX : |X| ≤ 41422 / 100000) :
    App (logPoly mla x) (evalPoly logC X) (12 / 10 ^ 8) ∧ |evalPoly logC X| ≤ 57 / 100 := by
  have step : ∀ {y p : F32} {cs : List ℚ} {c : ℚ}, App y (evalPoly cs X) (12 / 10 ^ 8) ∧ |evalPoly cs X| ≤ 57 / 100 →
      closeTo p c 0 = true → |c| ≤ 3334 / 10000 →
      App (mla y x p) (evalPoly (c :: cs) X) (12 / 10 ^ 8) ∧ |evalPoly (c :: cs) X| ≤ 57 / 100 := by
    intro y p cs c hy hp hc
    rw [evalPoly_cons]
    have hc' : |(c : ℝ)| ≤ 3334 / 10000 := by
      have : ((|c| : ℚ) : ℝ) ≤ ((3334 / 10000 : ℚ) : ℝ) := by exact_mod_cast hc
      push_cast at this; exact this
    exact horner hm hy.1 hy.2 hx hX (is_const hp).app hc' (by norm_num) (by norm_num) (by norm_num) (by norm_num)
  have h0 : App (FOps.lit 7.0376836E-2 : F32) (evalPoly [9445819 / 134217728] X) (12 / 10 ^ 8) ∧
      |evalPoly [9445819 / 134217728] X| ≤ 57 / 100 := by
    have e : evalPoly [9445819 / 134217728] X = ((9445819 / 134217728 : ℚ) : ℝ) := by simp [evalPoly]
    rw [e]
    refine ⟨(is_const (by decide +kernel)).app.mono (by norm_num), ?_⟩
    push_cast; rw [abs_of_pos (by norm_num)]; norm_num
  exact step (step (step (step (step (step (step (step h0 (by decide +kernel) (by decide +kernel)) (by decide +kernel)
    (by decide +kernel)) (by decide +kernel) (by decide +kernel)) (by decide +kernel) (by decide +kernel))
    (by decide +kernel) (by decide +kernel)) (by decide +kernel) (by decide +kernel)) (by decide +kernel)
    (by decide +kernel)) (by decide +kernel) (by decide +kernel)

theorem is_logQ1 : Is logQ1 (-14581891 / 68719476736) := is_const (by decide +kernel)
theorem is_logQ2 : Is logQ2 (355 / 512) := is_const (by decide +kernel)
theorem is_sqrtHf : Is sqrtHf (11863283 / 16777216) := is_const (by decide +kernel)

theorem ln2_near : |Real.log 2 - (355 / 512 + -14581891 / 68719476736)| ≤ 2 / 10 ^ 10 := by
  have h := Real.log_two_near_10
  rw [abs_le] at h ⊢
  constructor <;> norm_num at h ⊢ <;> linarith [h.1, h.2]

theorem rep_dyadic {n : Nat} {e : Nat} (hn : n < 2 ^ 24) (he : e ≤ 149) : Rep ((n : ℚ) / 2 ^ e) := by
  refine ⟨n, -(e : Int), hn, by omega, ?_⟩
  rw [zpow_neg, zpow_natCast, div_eq_mul_inv]

/-- The arithmetic part of `log`: from the reduced argument. -/
theorem log_main {mla : F32 → F32 → F32 → F32} (hm : Mla mla) {x e : F32} {X : ℚ} {E : Int} (hx : Is x X)
    (hX1 : -(2929 / 10000) ≤ X) (hX2 : X ≤ 41422 / 100000) (he : Is e (E : ℚ)) (hE : |E| ≤ 200) {L : ℝ}
    (hL : L = E * Real.log 2 + Real.log (1 + X)) :
    App (add (add x (sub (add (mul (mul (logPoly mla x) x) (mul x x)) (mul e logQ1)) (mul (mul x x) oneHalf))) (mul e logQ2))
      L (1 / 10 ^ 7 * (1 + |L|)) := by
  have hX1r : -(2929 / 10000 : ℝ) ≤ X := by have : ((-(2929 / 10000) : ℚ) : ℝ) ≤ X := by exact_mod_cast hX1
                                            push_cast at this; exact this
  have hX2r : (X : ℝ) ≤ 41422 / 100000 := by have : (X : ℝ) ≤ ((41422 / 100000 : ℚ) : ℝ) := by exact_mod_cast hX2
                                             push_cast at this; exact this
  have hXa : |(X : ℝ)| ≤ 41422 / 100000 := by rw [abs_le]; constructor <;> linarith
  have hEr : |(E : ℝ)| ≤ 200 := by exact_mod_cast hE
  have hEr' : |((E : ℚ) : ℝ)| ≤ 200 := by rw [Rat.cast_intCast]; exact hEr
  obtain ⟨hp1, hp2⟩ := logPoly_app hm hx.app hXa
  set P := evalPoly logC X with hP
  have hz := app_mul (B := 1716 / 10000) hx.app hx.app hXa hXa (by norm_num) (by norm_num) (by norm_num)
  have hz : App (mul x x) ((X : ℝ) * X) (104 / 10 ^ 10) := hz.mono (by norm_num)
  have hzb : |(X : ℝ) * X| ≤ 1716 / 10000 := by
    rw [abs_mul]; exact (mul_le_mul hXa hXa (abs_nonneg _) (by norm_num)).trans (by norm_num)
  have hy1 := app_mul (B := 24 / 100) hp1 hx.app hp2 hXa (by norm_num) (by norm_num) (by norm_num)
  have hy1 : App (mul (logPoly mla x) x) (P * X) (65 / 10 ^ 9) := hy1.mono (by norm_num)
  have hy1b : |P * X| ≤ 24 / 100 := by
    rw [abs_mul]; exact (mul_le_mul hp2 hXa (abs_nonneg _) (by norm_num)).trans (by norm_num)
  have hy2 := app_mul (B := 42 / 1000) hy1 hz hy1b hzb (by norm_num) (by norm_num) (by norm_num)
  have hy2 : App _ (P * X * (X * X)) (17 / 10 ^ 9) := hy2.mono (by norm_num)
  have hy2b : |P * X * ((X : ℝ) * X)| ≤ 42 / 1000 := by
    rw [abs_mul]; exact (mul_le_mul hy1b hzb (abs_nonneg _) (by norm_num)).trans (by norm_num)
  have hq1 := is_logQ1.app
  have hq1b : |((-14581891 / 68719476736 : ℚ) : ℝ)| ≤ 213 / 10 ^ 6 := by push_cast; rw [abs_le]; constructor <;> norm_num
  have ht1 := app_mul (B := 43 / 1000) he.app hq1 hEr' hq1b (by norm_num) (by norm_num) (by norm_num)
  have ht1 : App (mul e logQ1) (((E : ℚ) : ℝ) * ((-14581891 / 68719476736 : ℚ) : ℝ)) (3 / 10 ^ 9) := ht1.mono (by norm_num)
  have ht1b : |((E : ℚ) : ℝ) * ((-14581891 / 68719476736 : ℚ) : ℝ)| ≤ 43 / 1000 := by
    rw [abs_mul]; exact (mul_le_mul hEr' hq1b (abs_nonneg _) (by norm_num)).trans (by norm_num)
  set T1 := ((E : ℚ) : ℝ) * ((-14581891 / 68719476736 : ℚ) : ℝ) with hT1
  have hy3 := app_add (B := 86 / 1000) hy2 ht1 (by
    have := abs_add_le (P * X * ((X : ℝ) * X)) T1; norm_num at *; linarith) (by norm_num) (by norm_num)
  have hy3 : App _ (P * X * (X * X) + T1) (26 / 10 ^ 9) := hy3.mono (by norm_num)
  have hh := app_mul (B := 86 / 1000) (A := 1716 / 10000) (C := 1 / 2) hz is_half.app hzb (by push_cast; rw [abs_le]; constructor <;> norm_num)
    (by norm_num) (by norm_num) (by norm_num)
  have hh : App (mul (mul x x) oneHalf) ((X : ℝ) * X * ((1 / 2 : ℚ) : ℝ)) (11 / 10 ^ 9) := hh.mono (by norm_num)
  have hy4 := app_sub (B := 18 / 100) hy3 hh (by
    have h1 := abs_add_le (P * X * ((X : ℝ) * X)) T1
    have h2 := abs_sub (P * X * ((X : ℝ) * X) + T1) ((X : ℝ) * X * ((1 / 2 : ℚ) : ℝ))
    have h3 : |(X : ℝ) * X * ((1 / 2 : ℚ) : ℝ)| ≤ 1716 / 10000 / 2 := by
      rw [abs_mul]; push_cast; rw [abs_of_pos (show (0 : ℝ) < 1 / 2 by norm_num)]; linarith
    norm_num at *; linarith) (by norm_num) (by norm_num)
  have hy4 : App _ (P * X * (X * X) + T1 - (X : ℝ) * X * ((1 / 2 : ℚ) : ℝ)) (48 / 10 ^ 9) := hy4.mono (by norm_num)
  -- compare with the logarithm
  have hpoly := log_poly hX1r hX2r
  have heval : evalPoly logL X = X + (P * X * (X * X) - (X : ℝ) * X * ((1 / 2 : ℚ) : ℝ)) := by
    rw [logL, evalPoly_cons, evalPoly_cons, evalPoly_cons, ← hP]; push_cast; ring
  have hln : |Real.log (1 + X)| ≤ 348 / 1000 := by
    have p1 : (0 : ℝ) < 1 + X := by linarith
    rw [abs_le]
    constructor
    · have h1 : Real.log (1 + X) ≥ Real.log (7071 / 10000) := Real.log_le_log (by norm_num) (by linarith)
      have h2 := Real.log_le_sub_one_of_pos (show (0 : ℝ) < 10000 / 7071 * (1 / Real.sqrt 2) by positivity)
      have h3 : Real.log (7071 / 10000) = - Real.log (10000 / 7071) := by
        rw [← Real.log_inv]; norm_num
      have h4 : Real.log (10000 / 7071) ≤ Real.log 2 / 2 + 1 / 10000 := by
        have a1 : Real.log (10000 / 7071) * 2 = Real.log ((10000 / 7071) ^ 2) := by rw [Real.log_pow]; push_cast; ring
        have a2 : Real.log ((10000 / 7071 : ℝ) ^ 2) = Real.log 2 + Real.log ((10000 / 7071) ^ 2 / 2) := by
          rw [← Real.log_mul (by norm_num) (by norm_num)]; congr 1; norm_num
        have a3 := Real.log_le_sub_one_of_pos (show (0 : ℝ) < (10000 / 7071) ^ 2 / 2 by norm_num)
        norm_num at a1 a2 a3 ⊢
        linarith
      have h5 := Real.log_two_lt_d9
      norm_num at *
      linarith
    · have h1 : Real.log (1 + X) ≤ Real.log (141422 / 100000) := Real.log_le_log p1 (by linarith)
      have a1 : Real.log (141422 / 100000) * 2 = Real.log ((141422 / 100000) ^ 2) := by rw [Real.log_pow]; push_cast; ring
      have a2 : Real.log ((141422 / 100000 : ℝ) ^ 2) = Real.log 2 + Real.log ((141422 / 100000) ^ 2 / 2) := by
        rw [← Real.log_mul (by norm_num) (by norm_num)]; congr 1; norm_num
      have a3 := Real.log_le_sub_one_of_pos (show (0 : ℝ) < (141422 / 100000) ^ 2 / 2 by norm_num)
      have h5 := Real.log_two_lt_d9
      norm_num at *
      linarith
  have hx1 := app_add (B := 392 / 1000) hx.app hy4 (by
    have h1 : (X : ℝ) + (P * X * (X * X) + T1 - (X : ℝ) * X * ((1 / 2 : ℚ) : ℝ)) = evalPoly logL X + T1 := by rw [heval]; ring
    rw [h1]
    have h2 := abs_add_le (evalPoly logL X) T1
    have h3 := abs_sub_abs_le_abs_sub (evalPoly logL X) (Real.log (1 + X))
    rw [abs_sub_comm] at h3
    norm_num at *; linarith) (by norm_num) (by norm_num)
  have hx1 : App _ ((X : ℝ) + (P * X * (X * X) + T1 - (X : ℝ) * X * ((1 / 2 : ℚ) : ℝ))) (72 / 10 ^ 9) := hx1.mono (by norm_num)
  have ht2 : Is (mul e logQ2) ((E : ℚ) * (355 / 512)) := by
    have e1 : |(E : ℚ) * (355 / 512)| = ((E.natAbs * 355 : Nat) : ℚ) / 2 ^ 9 := by
      rw [abs_mul, abs_of_pos (show (0 : ℚ) < 355 / 512 by norm_num)]
      push_cast
      rw [Nat.cast_natAbs]; push_cast; ring
    have e2 : E.natAbs ≤ 200 := by have := Int.abs_eq_natAbs E; omega
    refine he.mul is_logQ2 ?_ ?_
    · rw [e1]; exact rep_dyadic (by omega) (by norm_num)
    · rw [e1, div_lt_iff₀ (by norm_num)]
      have : ((E.natAbs * 355 : Nat) : ℚ) ≤ ((200 * 355 : Nat) : ℚ) := by exact_mod_cast Nat.mul_le_mul_right _ e2
      exact lt_of_le_of_lt this (by norm_num)
  -- the whole value
  have hdiff : |(X : ℝ) + (P * X * (X * X) + T1 - (X : ℝ) * X * ((1 / 2 : ℚ) : ℝ)) + (((E : ℚ) * (355 / 512) : ℚ) : ℝ) - L| ≤
      12 / 10 ^ 9 + |(E : ℝ)| * (2 / 10 ^ 10) := by
    have e1 : (X : ℝ) + (P * X * (X * X) + T1 - (X : ℝ) * X * ((1 / 2 : ℚ) : ℝ)) + (((E : ℚ) * (355 / 512) : ℚ) : ℝ) - L =
        - (Real.log (1 + X) - evalPoly logL X) + -((E : ℝ) * (Real.log 2 - (355 / 512 + -14581891 / 68719476736))) := by
      rw [hL, heval, hT1]; push_cast; ring
    rw [e1]
    refine (abs_add_le _ _).trans (add_le_add (by rw [abs_neg]; exact hpoly) ?_)
    rw [abs_neg, abs_mul]
    exact mul_le_mul_of_nonneg_left ln2_near (abs_nonneg _)
  have hEL : |(E : ℝ)| ≤ 2 * (|L| + 348 / 1000) := by
    have h1 : (E : ℝ) * Real.log 2 = L - Real.log (1 + X) := by rw [hL]; ring
    have h2 : |(E : ℝ)| * Real.log 2 = |L - Real.log (1 + X)| := by
      rw [← h1, abs_mul, abs_of_pos (Real.log_pos (by norm_num))]
    have h3 := abs_sub L (Real.log (1 + X))
    have h4 := Real.log_two_gt_d9
    have h5 := abs_nonneg (E : ℝ)
    have h6 : |(E : ℝ)| * (1 / 2) ≤ |(E : ℝ)| * Real.log 2 := mul_le_mul_of_nonneg_left (by norm_num at h4 ⊢; linarith) h5
    linarith
  have hL0 := abs_nonneg L
  have hLb : |L| ≤ 200 := by
    rw [hL]
    refine (abs_add_le _ _).trans ?_
    rw [abs_mul, abs_of_pos (Real.log_pos (by norm_num))]
    have h4 := Real.log_two_lt_d9
    have h5 : |(E : ℝ)| * Real.log 2 ≤ 200 * 0.6931471808 :=
      mul_le_mul hEr h4.le (Real.log_pos (by norm_num)).le (by norm_num)
    norm_num at h5 ⊢; linarith
  have hfin := app_add (B := |L| + 1 / 10 ^ 6) hx1 ht2.app (by
    have h1 := abs_sub_abs_le_abs_sub ((X : ℝ) + (P * X * (X * X) + T1 - (X : ℝ) * X * ((1 / 2 : ℚ) : ℝ)) +
      (((E : ℚ) * (355 / 512) : ℚ) : ℝ)) L
    norm_num at *; linarith [abs_nonneg L]) (by norm_num; linarith [abs_nonneg L]) (by norm_num; linarith)
  obtain ⟨s, p, e1, e2, e3⟩ := hfin
  refine ⟨s, p, e1, e2, ?_⟩
  have := abs_sub_le ((signed s p : ℚ) : ℝ) ((X : ℝ) + (P * X * (X * X) + T1 - (X : ℝ) * X * ((1 / 2 : ℚ) : ℝ)) +
      (((E : ℚ) * (355 / 512) : ℚ) : ℝ)) L
  norm_num at *
  linarith [abs_nonneg L]

/-- `log` from the exponent and the significand. -/
theorem logTail_app {mla : F32 → F32 → F32 → F32} (hm : Mla mla) {k : Int} (hk : |k| ≤ 190) {M : Nat} (h1 : 2 ^ 23 ≤ M)
    (h2 : M < 2 ^ 24) :
    App (logTail mla k (fin false ((M : ℚ) * pow2 (-24)))) (Real.log (M * (2 : ℝ) ^ (k - 23)))
      (1 / 10 ^ 7 * (1 + |Real.log (M * (2 : ℝ) ^ (k - 23))|)) := by
  obtain ⟨d, hd⟩ : ∃ d : Nat, M + d = 16777216 := ⟨16777216 - M, by omega⟩
  have hdq : (M : ℚ) + d = 16777216 := by exact_mod_cast hd
  have hdr : (M : ℝ) + d = 16777216 := by exact_mod_cast hd
  have hMr : (0 : ℝ) < M := by exact_mod_cast (by omega : 0 < M)
  have e24 : pow2 (-24) = 1 / 2 ^ 24 := by rw [pow2_eq]; norm_num
  have hx : Is (fin false ((M : ℚ) * pow2 (-24))) ((M : ℚ) / 2 ^ 24) := by
    refine ⟨false, _, rfl, ?_, ?_⟩
    · rw [e24]; positivity
    · rw [e24]; simp [signed]; ring
  have he : Is (add (ofInt k) one) ((k + 1 : Int) : ℚ) := by
    have := (is_ofInt (i := k) (by omega)).add is_one (by
      have := rep_abs_int (i := k + 1) (by rw [abs_lt]; rw [abs_le] at hk; omega); push_cast at this; exact this) (by
      have := abs_int_lt (i := k + 1) (by rw [abs_lt]; rw [abs_le] at hk; omega); push_cast at this; exact this)
    push_cast; exact this
  have hlog : Real.log (M * (2 : ℝ) ^ (k - 23)) = Real.log M + (k - 23) * Real.log 2 := by
    rw [Real.log_mul hMr.ne' (zpow_ne_zero _ (by norm_num)), Real.log_zpow]; push_cast; ring
  have l224 : Real.log (2 ^ 24 : ℝ) = 24 * Real.log 2 := by rw [Real.log_pow]; push_cast; ring
  have l223 : Real.log (2 ^ 23 : ℝ) = 23 * Real.log 2 := by rw [Real.log_pow]; push_cast; ring
  -- the mantissa minus one is exact
  have hx1 : Is (sub (fin false ((M : ℚ) * pow2 (-24))) one) (-((d : ℚ) / 2 ^ 24)) := by
    have e : (M : ℚ) / 2 ^ 24 - 1 = -((d : ℚ) / 2 ^ 24) := by
      rw [eq_sub_of_add_eq' hdq]; ring
    have ea : |(M : ℚ) / 2 ^ 24 - 1| = (d : ℚ) / 2 ^ 24 := by
      rw [e, abs_neg, abs_of_nonneg (by positivity)]
    rw [← e]
    refine hx.sub is_one ?_ ?_
    · rw [ea]; exact rep_dyadic (by omega) (by norm_num)
    · rw [ea, div_lt_iff₀ (by norm_num)]
      have : (d : ℚ) ≤ 16777216 := by linarith [show (0 : ℚ) ≤ M by positivity]
      exact lt_of_le_of_lt this (by norm_num)
  rw [logTail]
  rw [hx.lt is_sqrtHf]
  by_cases hlt : (M : ℚ) / 2 ^ 24 < 11863283 / 16777216
  · have hM : M < 11863283 := by
      rw [div_lt_div_iff₀ (by norm_num) (by norm_num)] at hlt
      have : (M : ℚ) < 11863283 := by norm_num at hlt; linarith
      exact_mod_cast this
    rw [decide_eq_true hlt]
    obtain ⟨c, hc⟩ : ∃ c : Nat, 2 * M = c + 16777216 := ⟨2 * M - 16777216, by omega⟩
    have hcq : 2 * (M : ℚ) = c + 16777216 := by exact_mod_cast hc
    have hcr : 2 * (M : ℝ) = c + 16777216 := by exact_mod_cast hc
    have hMq : (M : ℚ) < 11863283 := by exact_mod_cast hM
    simp only [if_true]
    have hX : Is (add (sub (fin false ((M : ℚ) * pow2 (-24))) one) (fin false ((M : ℚ) * pow2 (-24))))
        ((c : ℚ) / 2 ^ 24) := by
      have e : -((d : ℚ) / 2 ^ 24) + (M : ℚ) / 2 ^ 24 = (c : ℚ) / 2 ^ 24 := by
        rw [eq_sub_of_add_eq' hdq]
        have e : (c : ℚ) = 2 * M - 16777216 := by linarith
        rw [e]; ring
      rw [← e]
      refine hx1.add hx ?_ ?_
      · rw [e, abs_of_nonneg (by positivity)]; exact rep_dyadic (by omega) (by norm_num)
      · rw [e, abs_of_nonneg (by positivity), div_lt_iff₀ (by norm_num)]
        have : (c : ℚ) ≤ 16777216 := by linarith
        exact lt_of_le_of_lt this (by norm_num)
    have hE : Is (sub (add (ofInt k) one) one) ((k : Int) : ℚ) := by
      have e : ((k + 1 : Int) : ℚ) - 1 = ((k : Int) : ℚ) := by push_cast; ring
      rw [← e]
      refine he.sub is_one ?_ ?_
      · rw [e]; exact rep_abs_int (by omega)
      · rw [e]; exact abs_int_lt (by omega)
    refine log_main hm hX ?_ ?_ hE (by omega) ?_
    · have : (0 : ℚ) ≤ (c : ℚ) / 2 ^ 24 := by positivity
      linarith
    · rw [div_le_div_iff₀ (by norm_num) (by norm_num)]
      norm_num; linarith
    · have e : (1 : ℝ) + (((c : ℚ) / 2 ^ 24 : ℚ) : ℝ) = M / 2 ^ 23 := by
        push_cast
        have e : (c : ℝ) = 2 * M - 16777216 := by linarith
        rw [e]; ring
      rw [e, Real.log_div hMr.ne' (by norm_num), hlog, l223]; ring
  · have hM : 11863283 ≤ M := by
      rw [not_lt, div_le_div_iff₀ (by norm_num) (by norm_num)] at hlt
      have : (11863283 : ℚ) ≤ M := by norm_num at hlt; linarith
      exact_mod_cast this
    rw [decide_eq_false hlt]
    simp only [Bool.false_eq_true, if_false]
    have hX : Is (add (sub (fin false ((M : ℚ) * pow2 (-24))) one) zero) (-((d : ℚ) / 2 ^ 24)) := by
      have e : -((d : ℚ) / 2 ^ 24) + 0 = -((d : ℚ) / 2 ^ 24) := by ring
      rw [← e]
      refine hx1.add is_zero ?_ ?_
      · rw [e, abs_neg, abs_of_nonneg (by positivity)]; exact rep_dyadic (by omega) (by norm_num)
      · rw [e, abs_neg, abs_of_nonneg (by positivity), div_lt_iff₀ (by norm_num)]
        have : (d : ℚ) ≤ 16777216 := by linarith [show (0 : ℚ) ≤ M by positivity]
        exact lt_of_le_of_lt this (by norm_num)
    have hE : Is (sub (add (ofInt k) one) zero) ((k + 1 : Int) : ℚ) := by
      have e : ((k + 1 : Int) : ℚ) - 0 = ((k + 1 : Int) : ℚ) := by ring
      rw [← e]
      refine he.sub is_zero ?_ ?_
      · rw [e]; exact rep_abs_int (by rw [abs_lt]; rw [abs_le] at hk; omega)
      · rw [e]; exact abs_int_lt (by rw [abs_lt]; rw [abs_le] at hk; omega)
    refine log_main hm hX ?_ ?_ hE (by rw [abs_le] at hk ⊢; omega) ?_
    · rw [neg_le_neg_iff, div_le_div_iff₀ (by norm_num) (by norm_num)]
      have : (11863283 : ℚ) ≤ M := by exact_mod_cast hM
      norm_num; linarith
    · have : (0 : ℚ) ≤ (d : ℚ) / 2 ^ 24 := by positivity
      linarith
    · have e : (1 : ℝ) + ((-((d : ℚ) / 2 ^ 24) : ℚ) : ℝ) = M / 2 ^ 24 := by
        push_cast
        rw [eq_sub_of_add_eq' hdr]; ring
      rw [e, Real.log_div hMr.ne' (by norm_num), hlog, l224]; push_cast; ring

/-- Exponent field and significand of a nonnegative number. -/
theorem fields {p : ℚ} (h : Rep p) (h0 : 0 ≤ p) (hl : p < 2 ^ 127) :
    ∃ E f : Nat, E ≤ 253 ∧ f < 2 ^ 23 ∧ (∀ s, toBits (fin s p) = BitVec.ofNat 32 (2 ^ 23 * high s E + f)) ∧
      (E = 0 → p < (2 : ℚ) ^ (-126 : Int)) ∧ (1 ≤ E → p = ((2 ^ 23 + f : Nat) : ℚ) * (2 : ℚ) ^ ((E : Int) - 150)) := by
  rcases lt_or_ge p ((2 : ℚ) ^ (-126 : Int)) with hs | hn
  · obtain ⟨M, hM, hp⟩ := rep_subnormal h h0 hs
    exact ⟨0, M, by omega, hM, fun s => toBits_subnormal s hM hp, fun _ => hs, fun h => by omega⟩
  · have hp0 : 0 < p := lt_of_lt_of_le (pow2_pos _) hn
    obtain ⟨a, b⟩ := exponent_spec hp0
    have hk := exponent_ge hn
    have hk' : exponent p < 127 := exponent_lt hp0 (by exact_mod_cast hl)
    obtain ⟨M, h1, h2, hp⟩ := rep_significand h a b hk
    refine ⟨(exponent p + 127).toNat, M - 2 ^ 23, by omega, by omega,
      fun s => toBits_normal s a b hk (by omega) h1 h2 hp, fun h => by omega, fun _ => ?_⟩
    have e1 : ((exponent p + 127).toNat : Int) - 150 = exponent p - 23 := by omega
    have e2 : 2 ^ 23 + (M - 2 ^ 23) = M := by omega
    rw [e1, e2]; exact hp

/-- `log` of both kinds of SIMD code: close to the logarithm of a number that is the argument itself unless that is
subnormal. -/
theorem log_field {p : ℚ} (h : Rep p) (h0 : 0 ≤ p) (hl : p < 2 ^ 127) :
    ∃ L : ℝ, App (x86Log (fin false p)) L (1 / 10 ^ 7 * (1 + |L|)) ∧ App (neonLog (fin false p)) L (1 / 10 ^ 7 * (1 + |L|)) ∧
      ((2 : ℚ) ^ (-126 : Int) ≤ p → L = Real.log p) ∧
      (p < (2 : ℚ) ^ (-126 : Int) → -127 * Real.log 2 ≤ L ∧ L ≤ -126 * Real.log 2) := by
  obtain ⟨E, f, hE, hf, hb, hsub, hnorm⟩ := fields h h0 hl
  have hbf := hb false
  have e0 : high false E = E := by simp [high]
  rw [e0] at hbf
  have hsgn : ¬ 256 ≤ E := by omega
  refine ⟨Real.log ((2 ^ 23 + f : Nat) * (2 : ℝ) ^ (((E : Int) - 127) - 23)), ?_, ?_, ?_, ?_⟩
  · have hmax : maxPs zero (fin false p) = fin false p := by
      rw [maxPs, if_neg]
      simp only [zero, lt, signed, decide_eq_true_eq, Bool.false_eq_true, if_false, not_lt]
      exact h0
    have hle : le zero (fin false p) = true := by
      simp only [zero, le, signed, decide_eq_true_eq, Bool.false_eq_true, if_false]
      exact h0
    rw [x86Log]
    rw [hmax, hle, hbf, shift_logical (by omega) hf, mantissa_of (by omega) hf, decide_eq_false hsgn]
    simp only [Bool.not_true, Bool.false_eq_true, if_false]
    exact logTail_app mla_fma (by rw [abs_le]; omega) (by omega) (by omega)
  · rw [neonLog]
    rw [hbf, shift_arith (by omega) hf, mantissa_of (by omega) hf, decide_eq_false hsgn, if_neg hsgn]
    simp only [ne_eq, reduceCtorEq, not_false_eq_true, decide_true, if_true]
    exact logTail_app mla_mulAdd (by rw [abs_le]; omega) (by omega) (by omega)
  · intro hn
    have hE1 : 1 ≤ E := by
      by_contra hc
      exact absurd (hsub (by omega)) (not_lt.mpr hn)
    have e : (E : Int) - 127 - 23 = (E : Int) - 150 := by ring
    rw [hnorm hE1, e]
    push_cast; rfl
  · intro hs
    have hE0 : E = 0 := by
      by_contra hc
      have := hnorm (by omega)
      have h2 : (2 : ℚ) ^ (-126 : Int) ≤ p := by
        rw [this]
        have e : (2 : ℚ) ^ (-126 : Int) = 2 ^ 23 * (2 : ℚ) ^ (-149 : Int) := by norm_num
        rw [e]
        have h3 : (2 : ℚ) ^ (-149 : Int) ≤ (2 : ℚ) ^ ((E : Int) - 150) := zpow_le_of_le (by omega)
        have h4 : (2 ^ 23 : ℚ) ≤ ((2 ^ 23 + f : Nat) : ℚ) := by push_cast; linarith [show (0 : ℚ) ≤ f by positivity]
        exact mul_le_mul h4 h3 (pow2_pos _).le (by positivity)
      exact absurd hs (not_lt.mpr h2)
    have hpos : (0 : ℝ) < ((2 ^ 23 + f : Nat) : ℝ) := by positivity
    have hlog : Real.log ((2 ^ 23 + f : Nat) * (2 : ℝ) ^ (((E : Int) - 127) - 23)) =
        Real.log ((2 ^ 23 + f : Nat) : ℝ) - 150 * Real.log 2 := by
      rw [Real.log_mul hpos.ne' (zpow_ne_zero _ (by norm_num)), Real.log_zpow, hE0]; push_cast; ring
    rw [hlog]
    have l223 : Real.log (2 ^ 23 : ℝ) = 23 * Real.log 2 := by rw [Real.log_pow]; push_cast; ring
    have l224 : Real.log (2 ^ 24 : ℝ) = 24 * Real.log 2 := by rw [Real.log_pow]; push_cast; ring
    have a1 : Real.log (2 ^ 23 : ℝ) ≤ Real.log ((2 ^ 23 + f : Nat) : ℝ) :=
      Real.log_le_log (by norm_num) (by push_cast; linarith [show (0 : ℝ) ≤ f by positivity])
    have a2 : Real.log ((2 ^ 23 + f : Nat) : ℝ) ≤ Real.log (2 ^ 24 : ℝ) := by
      refine Real.log_le_log hpos ?_
      have : (2 ^ 23 + f : Nat) ≤ 2 ^ 24 := by omega
      exact_mod_cast this
    constructor <;> linarith

/-! ## exp -/

theorem expPoly_app {mla : F32 → F32 → F32 → F32} (hm : Mla mla) {x : F32} {X : ℝ} (hx : App x X 0)
    (hX : |X| ≤ 348 / 1000) :
    App (expPoly mla x) (evalPoly expC X) (145 / 10 ^ 9) ∧ |evalPoly expC X| ≤ 77 / 100 := by
  have step : ∀ {y p : F32} {cs : List ℚ} {c : ℚ}, App y (evalPoly cs X) (145 / 10 ^ 9) ∧ |evalPoly cs X| ≤ 77 / 100 →
      closeTo p c 0 = true → |c| ≤ 1 / 2 →
      App (mla y x p) (evalPoly (c :: cs) X) (145 / 10 ^ 9) ∧ |evalPoly (c :: cs) X| ≤ 77 / 100 := by
    intro y p cs c hy hp hc
    rw [evalPoly_cons]
    have hc' : |(c : ℝ)| ≤ 1 / 2 := by
      have : ((|c| : ℚ) : ℝ) ≤ ((1 / 2 : ℚ) : ℝ) := by exact_mod_cast hc
      push_cast at this; exact this
    exact horner hm hy.1 hy.2 hx hX (is_const hp).app hc' (by norm_num) (by norm_num) (by norm_num) (by norm_num)
  have h0 : App (FOps.lit 1.9875691E-4 : F32) (evalPoly [13658471 / 68719476736] X) (145 / 10 ^ 9) ∧
      |evalPoly [13658471 / 68719476736] X| ≤ 77 / 100 := by
    have e : evalPoly [13658471 / 68719476736] X = ((13658471 / 68719476736 : ℚ) : ℝ) := by simp [evalPoly]
    rw [e]
    refine ⟨(is_const (by decide +kernel)).app.mono (by norm_num), ?_⟩
    push_cast; rw [abs_of_pos (by norm_num)]; norm_num
  exact step (step (step (step (step h0 (by decide +kernel) (by decide +kernel)) (by decide +kernel)
    (by decide +kernel)) (by decide +kernel) (by decide +kernel)) (by decide +kernel) (by decide +kernel))
    (by decide +kernel) (by decide +kernel)

theorem is_expC1 : Is expC1 (355 / 512) := is_const (by decide +kernel)
theorem is_expC2 : Is expC2 (-14581891 / 68719476736) := is_const (by decide +kernel)
theorem is_expHi : Is expHi (11583653 / 131072) := is_const (by decide +kernel)
theorem is_expLo : Is expLo (-(11583653 / 131072)) := is_const (by decide +kernel)

/-- Rounding of anything that is not near the end of the range. -/
theorem round_rel' (s : Bool) {q : ℚ} (h : 0 ≤ q) (hl : q ≤ 7 * 2 ^ 125) :
    ∃ p, round s q = fin s p ∧ 0 ≤ p ∧ |p - q| ≤ q / 2 ^ 24 + 1 / 2 ^ 150 := by
  refine ⟨rnd q, ?_, rnd_nonneg h, rnd_error h⟩
  rw [round_eq, if_neg]
  have := rnd_mono h hl
  have hrep : Rep (7 * 2 ^ 125 : ℚ) := ⟨7, 125, by norm_num, by norm_num, by norm_num⟩
  rw [rnd_rep hrep] at this
  rw [limit_eq, not_le]
  exact lt_of_le_of_lt this (by norm_num)

theorem log2_bounds : (6931471803 / 10 ^ 10 : ℝ) < Real.log 2 ∧ Real.log 2 < 6931471808 / 10 ^ 10 :=
  ⟨by have := Real.log_two_gt_d9; norm_num at this ⊢; linarith, by have := Real.log_two_lt_d9; norm_num at this ⊢; linarith⟩

/-- The sum before it is scaled by a power of two. -/
theorem exp_sum {mla : F32 → F32 → F32 → F32} (hm : Mla mla) {x fx : F32} {q : ℚ} {n : Int} (hx : Is x q) (hf : Is fx n)
    (hn : |n| ≤ 127) (hr : |(q : ℝ) - n * Real.log 2| ≤ 347 / 1000) :
    ∃ X : ℚ, Is (sub (sub x (mul fx expC1)) (mul fx expC2)) X ∧ |(X : ℝ) - (q - n * Real.log 2)| ≤ 73 / 10 ^ 9 ∧
      App (add (mla (expPoly mla (sub (sub x (mul fx expC1)) (mul fx expC2)))
        (mul (sub (sub x (mul fx expC1)) (mul fx expC2)) (sub (sub x (mul fx expC1)) (mul fx expC2)))
        (sub (sub x (mul fx expC1)) (mul fx expC2))) one) (evalPoly expE X) (17 / 10 ^ 8) := by
  obtain ⟨l1, l2⟩ := log2_bounds
  have hnr : |(n : ℝ)| ≤ 127 := by
    have : ((|n| : Int) : ℝ) ≤ ((127 : Int) : ℝ) := by exact_mod_cast hn
    push_cast at this; exact this
  have hnq : ((n : ℚ) : ℝ) = (n : ℝ) := Rat.cast_intCast n
  -- the exact product
  have e1 : |(n : ℚ) * (355 / 512)| = ((n.natAbs * 355 : Nat) : ℚ) / 2 ^ 9 := by
    rw [abs_mul, abs_of_pos (by norm_num : (0 : ℚ) < 355 / 512)]
    have : |(n : ℚ)| = (n.natAbs : ℚ) := by rw [Nat.cast_natAbs]; push_cast; rfl
    rw [this]; push_cast; ring
  have hna : n.natAbs ≤ 127 := by rw [Int.abs_eq_natAbs] at hn; omega
  have ht : Is (mul fx expC1) ((n : ℚ) * (355 / 512)) := by
    refine hf.mul is_expC1 ?_ ?_
    · rw [e1]; exact rep_dyadic (by omega) (by norm_num)
    · rw [e1, div_lt_iff₀ (by norm_num)]
      have : ((n.natAbs * 355 : Nat) : ℚ) ≤ ((127 * 355 : Nat) : ℚ) := by exact_mod_cast (by omega)
      exact lt_of_le_of_lt this (by norm_num)
  have hz := app_mul (A := 127) (C := 213 / 10 ^ 6) (B := 271 / 10 ^ 4) hf.app is_expC2.app (by rw [hnq]; exact hnr)
    (by push_cast; rw [abs_le]; constructor <;> norm_num) (by norm_num) (by norm_num) (by norm_num)
  have ha := hx.app
  have htt := ht.app
  have hprod : |(n : ℝ) * (-14581891 / 68719476736)| ≤ 271 / 10 ^ 4 := by
    rw [abs_mul]
    refine (mul_le_mul hnr (by rw [abs_le]; constructor <;> norm_num : |(-14581891 / 68719476736 : ℝ)| ≤ 213 / 10 ^ 6)
      (abs_nonneg _) (by norm_num)).trans (by norm_num)
  have hln : |(n : ℝ) * Real.log 2 - (n * (355 / 512) + n * (-14581891 / 68719476736))| ≤ 26 / 10 ^ 9 := by
    have e : (n : ℝ) * Real.log 2 - (n * (355 / 512) + n * (-14581891 / 68719476736)) =
      n * (Real.log 2 - (355 / 512 + -14581891 / 68719476736)) := by ring
    rw [e, abs_mul]
    exact (mul_le_mul hnr ln2_near (abs_nonneg _) (by norm_num)).trans (by norm_num)
  push_cast at ha htt hz
  have h1 := app_sub (B := 3742 / 10 ^ 4) ha htt (by
    rw [abs_le] at hr hprod hln
    have : |(q : ℝ) - n * (355 / 512)| ≤ 3742 / 10 ^ 4 := by rw [abs_le]; constructor <;> linarith
    linarith) (by norm_num) (by norm_num)
  have h2 := app_sub (B := 3471 / 10 ^ 4) h1 hz (by
    have : |(q : ℝ) - n * (355 / 512) - n * (-14581891 / 68719476736)| ≤ 34701 / 10 ^ 5 := by
      rw [abs_le] at hr hln ⊢
      constructor <;> linarith
    norm_num at this ⊢; linarith) (by norm_num) (by norm_num)
  obtain ⟨X, hX, hXe⟩ := h2.is
  have hXd : |(X : ℝ) - (q - n * Real.log 2)| ≤ 73 / 10 ^ 9 := by
    rw [abs_le] at hXe hln ⊢
    norm_num at hXe hln ⊢
    constructor <;> linarith
  have hXb : |(X : ℝ)| ≤ 348 / 1000 := by
    rw [abs_le] at hXd hr ⊢
    norm_num at hXd hr ⊢
    constructor <;> linarith
  refine ⟨X, hX, hXd, ?_⟩
  obtain ⟨p1, p2⟩ := expPoly_app hm hX.app hXb
  have hzz := app_mul (A := 348 / 1000) (C := 348 / 1000) (B := 122 / 1000) hX.app hX.app hXb hXb (by norm_num) (by norm_num) (by norm_num)
  have hsq : |(X : ℝ) * X| ≤ 122 / 1000 := by
    rw [abs_mul]; exact (mul_le_mul hXb hXb (abs_nonneg _) (by norm_num)).trans (by norm_num)
  have hy := hm (B := 443 / 1000) p1 hzz hX.app p2 hsq (by norm_num; linarith) (by norm_num) (by norm_num)
  have hyb : |evalPoly expC X * (X * X) + X| ≤ 442 / 1000 := by
    have := abs_add_le (evalPoly expC X * (X * X)) (X : ℝ)
    have h3 : |evalPoly expC X * (X * X)| ≤ 77 / 100 * (122 / 1000) := by
      rw [abs_mul]; exact mul_le_mul p2 hsq (abs_nonneg _) (by norm_num)
    norm_num at this h3 ⊢; linarith
  have hs := app_add (B := 1443 / 1000) hy is_one.app (by
    have := abs_add_le (evalPoly expC X * (X * X) + X) (1 : ℝ)
    norm_num at this hyb ⊢; linarith) (by norm_num) (by norm_num)
  have e : evalPoly expE X = evalPoly expC X * (X * X) + X + ((1 : ℚ) : ℝ) := by
    rw [expE, evalPoly_cons, evalPoly_cons]; push_cast; ring
  rw [e]
  exact hs.mono (by norm_num)

/-- The result of `exp`, from the whole number of halvings. -/
theorem expTail_app {mla : F32 → F32 → F32 → F32} (hm : Mla mla) {x fx : F32} {q : ℚ} {n : Int} (hx : Is x q) (hf : Is fx n)
    (h1 : -127 ≤ n) (h2 : n ≤ 127) (hr : |(q : ℝ) - n * Real.log 2| ≤ 347 / 1000) :
    ∃ p : ℚ, expTail mla x fx n = fin false p ∧ 0 ≤ p ∧ |(p : ℝ) - Real.exp q| ≤ 42 / 10 ^ 8 * Real.exp q + 1 / 2 ^ 126 := by
  obtain ⟨X, hX, hXd, hsum⟩ := exp_sum hm hx hf (by rw [abs_le]; omega) hr
  have hXb : |(X : ℝ)| ≤ 348 / 1000 := by
    rw [abs_le] at hXd hr ⊢
    norm_num at hXd hr ⊢
    constructor <;> linarith
  have hp := exp_poly hXb
  obtain ⟨Y, hY, hYe⟩ := hsum.is
  have hup := exp_le_of (abs_le.mp hXb).2
  have hlo : (652 / 1000 : ℝ) ≤ Real.exp X := by
    have := Real.add_one_le_exp (X : ℝ)
    have := (abs_le.mp hXb).1
    norm_num at this ⊢; linarith
  -- relative error of the sum
  set r : ℝ := q - n * Real.log 2 with hrdef
  have hd : |Real.exp X - Real.exp r| ≤ 74 / 10 ^ 9 * Real.exp r := by
    have e : Real.exp X = Real.exp r * Real.exp (X - r) := by rw [← Real.exp_add]; congr 1; ring
    have hb := Real.abs_exp_sub_one_sub_id_le (x := (X : ℝ) - r) (hXd.trans (by norm_num))
    have hb2 : |Real.exp (X - r) - 1| ≤ 74 / 10 ^ 9 := by
      have h3 : ((X : ℝ) - r) ^ 2 ≤ (73 / 10 ^ 9) ^ 2 := by
        rw [← sq_abs]; exact pow_le_pow_left₀ (abs_nonneg _) hXd 2
      rw [abs_le] at hb hXd ⊢
      norm_num at hb hXd h3 ⊢
      constructor <;> linarith
    rw [e]
    have e2 : Real.exp r * Real.exp (X - r) - Real.exp r = Real.exp r * (Real.exp (X - r) - 1) := by ring
    rw [e2, abs_mul, abs_of_pos (Real.exp_pos r), mul_comm]
    exact mul_le_mul_of_nonneg_right hb2 (Real.exp_pos r).le
  have hr0 : 0 < Real.exp r := Real.exp_pos r
  have hYr : |(Y : ℝ) - Real.exp r| ≤ 35 / 10 ^ 8 * Real.exp r := by
    rw [abs_le] at hd hp hYe ⊢
    norm_num at hd hp hYe hlo hup ⊢
    constructor <;> linarith
  have hY1 : (1 / 2 : ℝ) ≤ Y := by
    rw [abs_le] at hYe hp
    norm_num at hYe hp hlo ⊢; linarith
  have hY2 : (Y : ℝ) ≤ 155 / 100 := by
    rw [abs_le] at hYe hp
    norm_num at hYe hp hup ⊢; linarith
  have hYq : 0 < Y := by
    have : (0 : ℝ) < Y := by linarith
    exact_mod_cast this
  -- the sum is a positive number
  obtain ⟨s, y, hy, hy0, hys⟩ := hY
  have hsf : s = false := by
    cases s
    · rfl
    · simp [signed] at hys; linarith
  subst hsf
  have hyY : y = Y := by simpa [signed] using hys
  subst hyY
  have hT : expTail mla x fx n = mul (fin false y) (expBits n) := by rw [← hy]; rfl
  have hq : Real.exp q = Real.exp r * (2 : ℝ) ^ n := by
    have : (2 : ℝ) ^ n = Real.exp (n * Real.log 2) := by
      rw [← Real.rpow_intCast, Real.rpow_def_of_pos (by norm_num), mul_comm]
    rw [this, ← Real.exp_add, hrdef]; congr 1; ring
  rw [hT]
  rcases Int.le_iff_lt_or_eq.mp h1 with hn | hn
  · rw [expBits_of (by omega) h2, mul]
    have h2n : (2 : ℚ) ^ n ≤ (2 : ℚ) ^ (127 : Int) := zpow_le_of_le h2
    have hle : y * (2 : ℚ) ^ n ≤ 7 * 2 ^ 125 := by
      have h3 : y ≤ 7 / 4 := by
        have : (y : ℝ) ≤ ((7 / 4 : ℚ) : ℝ) := hY2.trans (by norm_num)
        exact_mod_cast this
      exact (mul_le_mul h3 h2n (pow2_pos n).le (by norm_num)).trans (by norm_num)
    obtain ⟨p, hp1, hp2, hp3⟩ := round_rel' false (mul_nonneg hy0 (pow2_pos n).le) hle
    refine ⟨p, hp1, hp2, ?_⟩
    have hp3' : |(p : ℝ) - y * (2 : ℝ) ^ n| ≤ y * (2 : ℝ) ^ n / 2 ^ 24 + 1 / 2 ^ 150 := by
      have : ((|p - y * (2 : ℚ) ^ n| : ℚ) : ℝ) ≤ ((y * (2 : ℚ) ^ n / 2 ^ 24 + 1 / 2 ^ 150 : ℚ) : ℝ) := by exact_mod_cast hp3
      push_cast at this; exact this
    have h2r : (0 : ℝ) < (2 : ℝ) ^ n := zpow_pos (by norm_num) n
    have hYn : |(y : ℝ) * 2 ^ n - Real.exp q| ≤ 35 / 10 ^ 8 * Real.exp q := by
      rw [hq, ← sub_mul, abs_mul, abs_of_pos h2r, ← mul_assoc]
      exact mul_le_mul_of_nonneg_right hYr h2r.le
    have hq0 := Real.exp_pos (q : ℝ)
    rw [abs_le] at hYn hp3' ⊢
    norm_num at hYn hp3' ⊢
    constructor <;> linarith
  · subst hn
    rw [expBits_zero, mul]
    refine ⟨0, by simp [round], le_refl _, ?_⟩
    have hr1 : Real.exp r ≤ 16 / 10 := by
      rw [abs_le] at hYr
      norm_num at hYr hY2 ⊢; linarith
    have : Real.exp q ≤ 1 / 2 ^ 126 := by
      rw [hq]
      have e : (2 : ℝ) ^ (-127 : Int) = 1 / 2 * (1 / 2 ^ 126) := by norm_num
      rw [e]
      have : (0 : ℝ) < 1 / 2 ^ 126 := by positivity
      nlinarith
    have hq0 := Real.exp_pos (q : ℝ)
    rw [abs_le]
    push_cast
    constructor <;> linarith

end Ezk.F32

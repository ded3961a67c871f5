import Verif.Proofs.SimdExp

/-!
# Powers of negative numbers and of `-0`

AVX2 and AVX-512 give NaN for negative bases.  NEON takes the sign for a part of the exponent, its logarithm is a large negative
number.
-/

namespace Ezk.F32

/-- A number in an interval. -/
def Btw (x : F32) (l u : ℚ) : Prop := ∃ q, Is x q ∧ l ≤ q ∧ q ≤ u

theorem Is.btw {x : F32} {q : ℚ} (h : Is x q) : Btw x q q := ⟨q, h, le_refl _, le_refl _⟩

theorem Btw.mono {x : F32} {l u l' u' : ℚ} (h : Btw x l u) (h1 : l' ≤ l) (h2 : u ≤ u') : Btw x l' u' := by
  obtain ⟨q, a, b, c⟩ := h
  exact ⟨q, a, h1.trans b, c.trans h2⟩

/-- A positive number has no sign. -/
theorem Is.pos {x : F32} {q : ℚ} (h : Is x q) (hq : 0 < q) : x = fin false q := by
  obtain ⟨s, p, rfl, hp, rfl⟩ := h
  cases s
  · rfl
  · exfalso; simp [signed] at hq; linarith

theorem Is.neg_eq {x : F32} {q : ℚ} (h : Is x q) (hq : q < 0) : x = fin true (-q) := by
  obtain ⟨s, p, rfl, hp, rfl⟩ := h
  cases s
  · exfalso; simp [signed] at hq; linarith
  · simp [signed]

theorem rnd_le_int {q : ℚ} {n : Nat} (h0 : 0 ≤ q) (hn : n < 2 ^ 24) (h : q ≤ n) : rnd q ≤ n := rnd_le_nat h0 hn h

/-- Rounding does not leave an interval with whole ends. -/
theorem ofRat_btw (z : Bool) {q : ℚ} {l u : Int} (hl : |l| < 2 ^ 24) (hu : |u| < 2 ^ 24) (h1 : (l : ℚ) ≤ q) (h2 : q ≤ u) :
    Btw (ofRat z q) l u := by
  have hl2 : |(l : ℚ)| < 2 ^ 24 := by exact_mod_cast hl
  have hu2 : |(u : ℚ)| < 2 ^ 24 := by exact_mod_cast hu
  unfold ofRat
  by_cases h : q = 0
  · rw [if_pos h]
    exact ⟨signed z 0, ⟨z, 0, rfl, le_refl _, rfl⟩, by rw [show signed z 0 = 0 by cases z <;> simp [signed]]; linarith,
      by rw [show signed z 0 = 0 by cases z <;> simp [signed]]; linarith⟩
  · rw [if_neg h]
    have hM : |q| < 2 ^ 24 := by rw [abs_lt] at *; constructor <;> linarith [hl2.1, hu2.2]
    have hr : round (decide (q < 0)) |q| = fin (decide (q < 0)) (rnd |q|) := by
      rw [round_eq, if_neg]
      rw [limit_eq, not_le]
      have : rnd |q| ≤ (2 : ℚ) ^ (24 : Int) := rnd_le_binade (abs_nonneg _) (by norm_num) (by exact_mod_cast hM.le)
      exact lt_of_le_of_lt this (by norm_num)
    rw [hr]
    refine ⟨_, ⟨_, _, rfl, rnd_nonneg (abs_nonneg _), rfl⟩, ?_⟩
    by_cases hs : q < 0
    · have e : signed (decide (q < 0)) (rnd |q|) = - rnd |q| := by simp [signed, hs]
      rw [e, abs_of_neg hs]
      constructor
      · obtain ⟨n, hn⟩ : ∃ n : Nat, (l : Int) = -n := ⟨(-l).toNat, by
          have : (l : ℚ) < 0 := by linarith
          have : l < 0 := by exact_mod_cast this
          omega⟩
        have hn' : (l : ℚ) = -n := by rw [hn]; push_cast; ring
        have := rnd_le_nat (q := -q) (n := n) (by linarith) (by rw [hn, abs_neg] at hl; exact_mod_cast hl) (by linarith)
        linarith
      · rcases le_or_gt 0 u with hu0 | hu0
        · have : (0 : ℚ) ≤ u := by exact_mod_cast hu0
          have := rnd_nonneg (q := -q) (by linarith)
          linarith
        · obtain ⟨n, hn⟩ : ∃ n : Nat, (u : Int) = -n := ⟨(-u).toNat, by omega⟩
          have hn' : (u : ℚ) = -n := by rw [hn]; push_cast; ring
          have := nat_le_rnd (q := -q) (n := n) (by rw [hn, abs_neg] at hu; exact_mod_cast hu) (by linarith)
          linarith
    · have hs' := not_lt.mp hs
      have e : signed (decide (q < 0)) (rnd |q|) = rnd |q| := by simp [signed, hs]
      rw [e, abs_of_nonneg hs']
      constructor
      · rcases le_or_gt l 0 with hu0 | hu0
        · have : (l : ℚ) ≤ 0 := by exact_mod_cast hu0
          have := rnd_nonneg hs'
          linarith
        · obtain ⟨n, hn⟩ : ∃ n : Nat, (l : Int) = n := ⟨l.toNat, by omega⟩
          have hn' : (l : ℚ) = n := by rw [hn]; push_cast; ring
          have := nat_le_rnd (q := q) (n := n) (by rw [hn] at hl; exact_mod_cast hl) (by linarith)
          linarith
      · obtain ⟨n, hn⟩ : ∃ n : Nat, (u : Int) = n := ⟨u.toNat, by
          have : (0 : ℚ) ≤ u := by linarith
          have : 0 ≤ u := by exact_mod_cast this
          omega⟩
        have hn' : (u : ℚ) = n := by rw [hn]; push_cast; ring
        have := rnd_le_nat (q := q) (n := n) hs' (by rw [hn] at hu; exact_mod_cast hu) (by linarith)
        linarith

theorem Btw.add {x y : F32} {a b c d : ℚ} (hx : Btw x a b) (hy : Btw y c d) (l u : Int) (hl : |l| < 2 ^ 24) (hu : |u| < 2 ^ 24)
    (h1 : (l : ℚ) ≤ a + c) (h2 : b + d ≤ u) : Btw (add x y) l u := by
  obtain ⟨q, ⟨s, p, rfl, _, rfl⟩, hq1, hq2⟩ := hx
  obtain ⟨r, ⟨t, p', rfl, _, rfl⟩, hr1, hr2⟩ := hy
  exact ofRat_btw _ hl hu (by linarith) (by linarith)

theorem Btw.neg {x : F32} {a b : ℚ} (hx : Btw x a b) : Btw (neg x) (-b) (-a) := by
  obtain ⟨q, h, h1, h2⟩ := hx
  exact ⟨-q, h.neg, by linarith, by linarith⟩

theorem Btw.sub {x y : F32} {a b c d : ℚ} (hx : Btw x a b) (hy : Btw y c d) (l u : Int) (hl : |l| < 2 ^ 24) (hu : |u| < 2 ^ 24)
    (h1 : (l : ℚ) ≤ a - d) (h2 : b - c ≤ u) : Btw (sub x y) l u :=
  hx.add hy.neg l u hl hu (by linarith) (by linarith)

/-- The product of rounded magnitudes is that of the rounded product. -/
theorem mul_eq_ofRat {s t : Bool} {p q : ℚ} (hp : 0 ≤ p) (hq : 0 ≤ q) :
    ∃ z, mul (fin s p) (fin t q) = ofRat z (signed s p * signed t q) := by
  refine ⟨s ^^ t, ?_⟩
  rw [← signed_mul]
  have hpq : 0 ≤ p * q := mul_nonneg hp hq
  change round (s ^^ t) (p * q) = _
  unfold ofRat
  rcases hpq.eq_or_lt with h0 | h0
  · rw [← h0, if_pos (by cases s <;> cases t <;> simp [signed]), round_eq, rnd_zero, if_neg]
    rw [limit_eq, not_le]; norm_num
  · cases hst : s ^^ t
    · rw [if_neg (show ¬ signed false (p * q) = 0 from h0.ne'), show signed false (p * q) = p * q from rfl, abs_of_pos h0,
        decide_eq_false (not_lt.mpr h0.le)]
    · have e : signed true (p * q) = -(p * q) := by simp [signed]
      rw [if_neg (by rw [e]; linarith), e, abs_neg, abs_of_pos h0, decide_eq_true (by linarith)]

theorem Btw.mul {x y : F32} {a b c d : ℚ} (hx : Btw x a b) (hy : Btw y c d) (l u : Int) (hl : |l| < 2 ^ 24) (hu : |u| < 2 ^ 24)
    (h : ∀ v w : ℚ, a ≤ v → v ≤ b → c ≤ w → w ≤ d → (l : ℚ) ≤ v * w ∧ v * w ≤ u) : Btw (mul x y) l u := by
  obtain ⟨q, ⟨s, p, rfl, hp, rfl⟩, hq1, hq2⟩ := hx
  obtain ⟨r, ⟨t, p', rfl, hp', rfl⟩, hr1, hr2⟩ := hy
  obtain ⟨z, e⟩ := mul_eq_ofRat (s := s) (t := t) hp hp'
  rw [e]
  obtain ⟨h1, h2⟩ := h _ _ hq1 hq2 hr1 hr2
  exact ofRat_btw _ hl hu h1 h2

/-- Is a number of an interval, computed. -/
def inside (x : F32) (l u : ℚ) : Bool :=
  match x with
  | fin s p => decide (0 ≤ p) && decide (l ≤ signed s p) && decide (signed s p ≤ u)
  | _ => false

theorem btw_const {x : F32} {l u : ℚ} (h : inside x l u = true) : Btw x l u := by
  cases x with
  | nan => cases h
  | inf s => cases h
  | fin s p =>
    simp only [inside, Bool.and_eq_true, decide_eq_true_eq] at h
    exact ⟨_, is_fin h.1.1, h.1.2, h.2⟩

/-- One step of the polynomial at arguments in `[-3, -1]`: a value of one sign becomes one of the other. -/
theorem step_pos {y x c : F32} {U : Int} (hU : 0 ≤ U) (hU' : 3 * U + 2 < 2 ^ 24) (hy : Btw y 0 U) (hx : Btw x (-3) (-1))
    (hc : Btw c (-1) 0) : Btw (mulAdd y x c) (-(3 * U + 1) : Int) 0 := by
  have h1 : Btw (mul y x) (-(3 * U) : Int) (0 : Int) := hy.mul hx _ _ (by rw [abs_lt]; constructor <;> omega) (by norm_num) (by
    intro v w a b c d
    push_cast
    constructor <;> nlinarith)
  have := h1.add hc (-(3 * U + 1)) 0 (by rw [abs_lt]; constructor <;> omega) (by norm_num) (by push_cast; linarith) (by norm_num)
  exact_mod_cast this

theorem step_neg {y x c : F32} {U : Int} (hU : 0 ≤ U) (hU' : 3 * U + 2 < 2 ^ 24) (hy : Btw y (-U : Int) 0) (hx : Btw x (-3) (-1))
    (hc : Btw c 0 1) : Btw (mulAdd y x c) 0 (3 * U + 1 : Int) := by
  have h1 : Btw (mul y x) (0 : Int) (3 * U : Int) := hy.mul hx _ _ (by norm_num) (by rw [abs_lt]; constructor <;> omega) (by
    intro v w a b c d
    push_cast at a ⊢
    have hU2 : (0 : ℚ) ≤ U := by exact_mod_cast hU
    constructor <;> nlinarith)
  have := h1.add hc 0 (3 * U + 1) (by norm_num) (by rw [abs_lt]; constructor <;> omega) (by norm_num) (by push_cast; linarith)
  exact_mod_cast this

theorem logPoly_neg {x : F32} (hx : Btw x (-3) (-1)) : Btw (logPoly mulAdd x) 0 (9841 : Int) := by
  have c0 : Btw (FOps.lit 7.0376836E-2 : F32) 0 ((1 : Int) : ℚ) := btw_const (by decide +kernel)
  have s1 := step_pos (U := 1) (by norm_num) (by norm_num) c0 hx (c := FOps.lit (-1.151461E-1)) (btw_const (by decide +kernel))
  have s2 := step_neg (U := 4) (by norm_num) (by norm_num) s1 hx (c := FOps.lit 1.16769984E-1) (btw_const (by decide +kernel))
  have s3 := step_pos (U := 13) (by norm_num) (by norm_num) s2 hx (c := FOps.lit (-1.2420141E-1)) (btw_const (by decide +kernel))
  have s4 := step_neg (U := 40) (by norm_num) (by norm_num) s3 hx (c := FOps.lit 1.4249323E-1) (btw_const (by decide +kernel))
  have s5 := step_pos (U := 121) (by norm_num) (by norm_num) s4 hx (c := FOps.lit (-1.6668057E-1)) (btw_const (by decide +kernel))
  have s6 := step_neg (U := 364) (by norm_num) (by norm_num) s5 hx (c := FOps.lit 2.0000714E-1) (btw_const (by decide +kernel))
  have s7 := step_pos (U := 1093) (by norm_num) (by norm_num) s6 hx (c := FOps.lit (-2.4999994E-1)) (btw_const (by decide +kernel))
  exact step_neg (U := 3280) (by norm_num) (by norm_num) s7 hx (c := FOps.lit 3.333333E-1) (btw_const (by decide +kernel))

/-- The common part of `log` for a negative mantissa and an exponent that contains the sign. -/
theorem logTail_neg {i : Int} (h1 : -384 ≤ i) (h2 : i ≤ -129) {m : ℚ} (hm1 : 1 / 2 ≤ m) (hm2 : m ≤ 1) :
    Btw (logTail mulAdd i (fin true m)) (-1000000) (-89) := by
  have hx0 : Is (fin true m) (-m) := ⟨true, m, rfl, by linarith, by simp [signed]⟩
  have hmask : lt (fin true m) sqrtHf = true := by
    rw [hx0.lt is_sqrtHf, decide_eq_true_eq]; linarith
  have he : Is (sub (add (ofInt i) one) one) (i : ℚ) := by
    have a1 : Is (add (ofInt i) one) ((i + 1 : Int) : ℚ) := by
      have := (is_ofInt (i := i) (by rw [abs_lt]; omega)).add is_one
        (by have := rep_abs_int (i := i + 1) (by rw [abs_lt]; omega); push_cast at this; exact this)
        (by have := abs_int_lt (i := i + 1) (by rw [abs_lt]; omega); push_cast at this; exact this)
      push_cast; exact this
    have e : ((i + 1 : Int) : ℚ) - 1 = (i : Int) := by push_cast; ring
    have := a1.sub is_one (by rw [e]; exact rep_abs_int (by rw [abs_lt]; omega)) (by rw [e]; exact abs_int_lt (by rw [abs_lt]; omega))
    rwa [e] at this
  have hi1 : (-384 : ℚ) ≤ i := by exact_mod_cast h1
  have hi2 : (i : ℚ) ≤ -129 := by exact_mod_cast h2
  have bm : Btw (fin true m) (-1) (-(1 / 2)) := ⟨_, hx0, by linarith, by linarith⟩
  -- x - 1 + x
  have hx : Btw (add (sub (fin true m) one) (fin true m)) (-3 : Int) (-1 : Int) :=
    (bm.sub is_one.btw (-2) (-1) (by norm_num) (by norm_num) (by norm_num) (by norm_num)).add bm (-3) (-1) (by norm_num)
      (by norm_num) (by norm_num) (by norm_num)
  have hx' : Btw (add (sub (fin true m) one) (fin true m)) (-3) (-1) := by exact_mod_cast hx
  have be : Btw (sub (add (ofInt i) one) one) (-384) (-129) := ⟨_, he, hi1, hi2⟩
  rw [logTail]
  rw [hmask]
  simp only [if_true]
  generalize add (sub (fin true m) one) (fin true m) = x at *
  generalize sub (add (ofInt i) one) one = e at *
  have hz : Btw (mul x x) (1 : Int) (9 : Int) := hx'.mul hx' 1 9 (by norm_num) (by norm_num) (by
    intro v w a b c d; push_cast; constructor <;> nlinarith)
  have hy := logPoly_neg hx'
  have hy1 : Btw (mul (logPoly mulAdd x) x) (-29523 : Int) (0 : Int) := hy.mul hx' _ _ (by norm_num) (by norm_num) (by
    intro v w a b c d; push_cast at *; constructor <;> nlinarith)
  have hy2 : Btw (mul (mul (logPoly mulAdd x) x) (mul x x)) (-265707 : Int) (0 : Int) := hy1.mul hz _ _ (by norm_num) (by norm_num) (by
    intro v w a b c d; push_cast at *; constructor <;> nlinarith)
  have ht1 : Btw (mul e logQ1) (0 : Int) (1 : Int) := be.mul is_logQ1.btw _ _ (by norm_num) (by norm_num) (by
    intro v w a b c d
    obtain rfl : w = -14581891 / 68719476736 := le_antisymm d c
    push_cast
    constructor <;> linarith)
  have ht2 : Btw (mul (mul x x) oneHalf) (0 : Int) (5 : Int) := hz.mul is_half.btw _ _ (by norm_num) (by norm_num) (by
    intro v w a b c d
    obtain rfl : w = 1 / 2 := le_antisymm d c
    push_cast at *
    constructor <;> linarith)
  have ht3 : Btw (mul e logQ2) (-267 : Int) (-89 : Int) := be.mul is_logQ2.btw _ _ (by norm_num) (by norm_num) (by
    intro v w a b c d
    obtain rfl : w = 355 / 512 := le_antisymm d c
    push_cast
    constructor <;> linarith)
  have hy3 := hy2.add ht1 (-265707) 1 (by norm_num) (by norm_num) (by norm_num) (by norm_num)
  have hy4 := hy3.sub ht2 (-265712) 1 (by norm_num) (by norm_num) (by norm_num) (by norm_num)
  have hx5 := hx'.add hy4 (-265715) 0 (by norm_num) (by norm_num) (by norm_num) (by norm_num)
  have := hx5.add ht3 (-265982) (-89) (by norm_num) (by norm_num) (by norm_num) (by norm_num)
  exact this.mono (by norm_num) (by norm_num)

/-- NEON: the logarithm of a negative number is a large negative number. -/
theorem neonLog_neg {p : ℚ} (h : Rep p) (h0 : 0 ≤ p) (hl : p < 2 ^ 127) : Btw (neonLog (fin true p)) (-1000000) (-89) := by
  obtain ⟨E, f, hE, hf, hb, -, -⟩ := fields h h0 hl
  have hbf := hb true
  have e0 : high true E = 256 + E := by simp [high]
  rw [e0] at hbf
  rw [neonLog]
  have hge : 256 ≤ 256 + E := by omega
  rw [hbf, shift_arith (by omega) hf, mantissa_of (by omega) hf, if_pos hge, decide_eq_true hge]
  simp only [ne_eq, reduceCtorEq, not_false_eq_true, decide_true, if_true]
  have hfq : (f : ℚ) ≤ 2 ^ 23 := by exact_mod_cast hf.le
  refine logTail_neg (by omega) (by omega) ?_ ?_
  · rw [pow2_eq]; push_cast; norm_num; linarith [show (0 : ℚ) ≤ f by positivity]
  · rw [pow2_eq]; push_cast; norm_num; linarith

theorem x86Log_negzero : Btw (x86Log (fin true 0)) (-1000000) (-89) := btw_const (by decide +kernel)

/-- Roots by way of such a logarithm vanish. -/
theorem pow_small {ex : F32 → F32} (hex : ∀ {x : F32} {q : ℚ}, Is x q → ∃ p : ℚ, ex x = fin false p ∧ 0 ≤ p ∧
      |(p : ℝ) - Real.exp (expClamp q : ℚ)| ≤ 42 / 10 ^ 8 * Real.exp (expClamp q : ℚ) + 1 / 2 ^ 126) {l y : F32} {Y : ℚ}
    (hl : Btw l (-1000000) (-89)) (hy : Is y Y) (h1 : 1 / 3 ≤ Y) (h2 : Y ≤ 3) :
    ∃ r : ℚ, ex (mul y l) = fin false r ∧ 0 ≤ r ∧ (r : ℝ) ≤ 1 / 10 ^ 11 := by
  have hm : Btw (mul y l) (-3000000 : Int) (-29 : Int) := (show Btw y (1 / 3) 3 from ⟨Y, hy, h1, h2⟩).mul hl _ _
    (by norm_num) (by norm_num) (by intro v w a b c d; push_cast; constructor <;> nlinarith)
  obtain ⟨q, hq, _, q2⟩ := hm
  obtain ⟨r, e, r0, hr⟩ := hex hq
  refine ⟨r, e, r0, ?_⟩
  have hc : expClamp q ≤ -29 := by
    rw [expClamp]
    refine max_le (by norm_num [expCut]) ((min_le_right _ _).trans (by exact_mod_cast q2))
  have hc' : ((expClamp q : ℚ) : ℝ) ≤ -29 := by exact_mod_cast hc
  have hE : Real.exp (expClamp q : ℚ) ≤ 1 / 10 ^ 12 := by
    refine (Real.exp_le_exp.mpr hc').trans ?_
    have h27 : (27 / 10 : ℝ) ^ 29 ≤ Real.exp 29 := by
      have : Real.exp 29 = Real.exp 1 ^ 29 := by rw [← Real.exp_nat_mul]; norm_num
      rw [this]
      exact pow_le_pow_left₀ (by norm_num) (by linarith [Real.exp_one_gt_d9]) 29
    rw [Real.exp_neg, ← one_div]
    refine one_div_le_one_div_of_le (by norm_num) (le_trans (by norm_num) h27)
  have := (abs_le.mp hr).2
  norm_num at this hE ⊢
  linarith

/-- Powers by way of such a logarithm, with any exponent. -/
theorem pow_vanish {ex : F32 → F32} (hex : ∀ {x : F32} {q : ℚ}, Is x q → ∃ p : ℚ, ex x = fin false p ∧ 0 ≤ p ∧
      |(p : ℝ) - Real.exp (expClamp q : ℚ)| ≤ 42 / 10 ^ 8 * Real.exp (expClamp q : ℚ) + 1 / 2 ^ 126) {l y : F32} {Y : ℚ}
    (hl : Btw l (-1000000) (-89)) (hy : Is y Y) (h1 : 1 / 100 ≤ Y) (h2 : Y ≤ 100) :
    ∃ r : ℚ, ex (mul y l) = fin false r ∧ 0 ≤ r ∧ (r : ℝ) ≤ 101 / 100 * Real.exp (-(87 * Y)) + 5 / 2 ^ 126 := by
  obtain ⟨w, hw, w1, w2⟩ := hl
  rw [hy.pos (by linarith), hw.neg_eq (by linarith)]
  have hm : mul (fin false Y) (fin true (-w)) = fin true (rnd (Y * -w)) := by
    have hb : Y * -w ≤ (2 : ℚ) ^ (27 : Int) := by
      have : Y * -w ≤ 100 * 1000000 := mul_le_mul h2 (by linarith) (by linarith) (by norm_num)
      norm_num; linarith
    change round (false ^^ true) (Y * -w) = _
    rw [round_eq, if_neg]
    · rfl
    · rw [limit_eq, not_le]
      exact lt_of_le_of_lt (rnd_le_binade (mul_nonneg (by linarith) (by linarith)) (by norm_num) hb) (by norm_num)
  rw [hm]
  have hn : 0 ≤ Y * -w := mul_nonneg (by linarith) (by linarith)
  have hrn := rnd_error hn
  have hge : 87 * Y ≤ rnd (Y * -w) := by
    have h3 : Y * 89 ≤ Y * -w := mul_le_mul_of_nonneg_left (by linarith) (by linarith)
    have h4 := (abs_le.mp hrn).1
    norm_num at h4 ⊢
    linarith
  obtain ⟨r, e, r0, hr⟩ := hex (x := fin true (rnd (Y * -w))) (q := -rnd (Y * -w))
    ⟨true, _, rfl, rnd_nonneg hn, by simp [signed]⟩
  refine ⟨r, e, r0, ?_⟩
  have hsmall : Real.exp (-(expCut : ℝ)) ≤ 1 / 2 ^ 126 := by
    have : (1 : ℝ) / 2 ^ 126 = Real.exp (-(126 * Real.log 2)) := by
      rw [Real.exp_neg, mul_comm, Real.exp_mul, Real.exp_log (by norm_num)]
      norm_num
    rw [this]
    refine Real.exp_le_exp.mpr ?_
    have := log2_bounds.2
    have := expCut_bounds.1
    norm_num at *
    linarith
  have hE : Real.exp (expClamp (-rnd (Y * -w)) : ℚ) ≤ Real.exp (-(87 * Y)) + 1 / 2 ^ 126 := by
    have h0 := Real.exp_pos (-(87 * (Y : ℝ)))
    have h0' := Real.exp_pos (-(expCut : ℝ))
    rcases le_total (-expCut) (-(87 * Y)) with hc | hc
    · have : expClamp (-rnd (Y * -w)) ≤ -(87 * Y) := by
        rw [expClamp]
        exact max_le hc ((min_le_right _ _).trans (by linarith))
      have h3 : ((expClamp (-rnd (Y * -w)) : ℚ) : ℝ) ≤ -(87 * (Y : ℝ)) := by exact_mod_cast this
      have := Real.exp_le_exp.mpr h3
      have : (0 : ℝ) < 1 / 2 ^ 126 := by positivity
      linarith
    · have : expClamp (-rnd (Y * -w)) ≤ -expCut := by
        rw [expClamp]
        exact max_le (le_refl _) ((min_le_right _ _).trans (by linarith))
      have h3 : ((expClamp (-rnd (Y * -w)) : ℚ) : ℝ) ≤ -(expCut : ℝ) := by exact_mod_cast this
      have := Real.exp_le_exp.mpr h3
      linarith
  have h5 := (abs_le.mp hr).2
  have h6 := Real.exp_pos (-(87 * (Y : ℝ)))
  norm_num at h5 hE ⊢
  linarith

/-- What is required of roots of negative numbers: NaN, or nearly zero. -/
def RootsVanish (pw : F32 → F32 → F32) : Prop :=
  ∀ {p Y : ℚ} {y : F32}, Rep p → 0 < p → p < 2 ^ 127 → Is y Y → 1 / 3 ≤ Y → Y ≤ 1 / 2 →
    pw (fin true p) y = nan ∨ ∃ r : ℚ, pw (fin true p) y = fin false r ∧ 0 ≤ r ∧ (r : ℝ) ≤ 1 / 10 ^ 11

/-- What is required of powers of `-0`: what `PowAccurate` requires of powers of `0`. -/
def NegZeroVanishes (pw : F32 → F32 → F32) : Prop :=
  ∀ {Y : ℚ} {y : F32}, Is y Y → 1 / 100 ≤ Y → Y ≤ 100 →
    ∃ (s : Bool) (r : ℚ), pw (fin true 0) y = fin s r ∧ 0 ≤ r ∧ (r : ℝ) ≤ 101 / 100 * Real.exp (-(87 * Y)) + 5 / 2 ^ 126

theorem roots_neon : RootsVanish neonLibm.pow := fun h h0 hl hy h1 h2 =>
  Or.inr (pow_small exp_neon (neonLog_neg h h0.le hl) hy h1 (by linarith))

theorem negzero_neon : NegZeroVanishes neonLibm.pow := fun hy h1 h2 =>
  ⟨false, pow_vanish exp_neon (neonLog_neg rep_zero (le_refl _) (by norm_num)) hy h1 h2⟩

theorem x86Log_neg {p : ℚ} (hp : 0 < p) : x86Log (fin true p) = nan := by
  have : le zero (fin true p) = false := by
    simp only [zero, le, signed, if_true, Bool.false_eq_true, if_false, decide_eq_false_iff_not, not_le]
    linarith
  rw [x86Log, this]
  rfl

theorem mul_nan (y : F32) : mul y nan = nan := by cases y <;> rfl

theorem x86Pow_neg {p : ℚ} (hp : 0 < p) (y : F32) : x86Libm.pow (fin true p) y = nan := by
  have h3 : x86Exp nan = nan := by decide +kernel
  change x86Exp (mul y (x86Log (fin true p))) = nan
  rw [x86Log_neg hp, mul_nan, h3]

theorem roots_x86 : RootsVanish x86Libm.pow := fun _ h0 _ _ _ _ => Or.inl (x86Pow_neg h0 _)

theorem negzero_x86 : NegZeroVanishes x86Libm.pow := fun hy h1 h2 =>
  ⟨false, pow_vanish exp_x86 x86Log_negzero hy h1 h2⟩

end Ezk.F32

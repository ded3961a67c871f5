import Verif.Proofs.NegLog
import Verif.Proofs.Stores

/-!
# Arithmetic of the platforms, including `max`, comparisons, `pow`, `sqrt` and `ln`
-/

namespace Ezk
namespace F32

/-- A binary32 value: what operations return. -/
def Good : F32 → Prop
  | fin _ p => 0 ≤ p ∧ Rep p ∧ p < 2 ^ 128
  | _ => True

theorem good_round (s : Bool) {q : ℚ} (h : 0 ≤ q) : Good (round s q) := by
  rw [round_eq]
  split
  · trivial
  · rename_i hl
    rw [limit_eq, not_le] at hl
    exact ⟨rnd_nonneg h, rep_rnd h, by exact_mod_cast hl⟩

theorem good_zero (s : Bool) : Good (fin s 0) := ⟨le_refl _, rep_zero, by norm_num⟩

theorem good_ofRat (z : Bool) (q : ℚ) : Good (ofRat z q) := by
  unfold ofRat
  split
  · exact good_zero z
  · exact good_round _ (abs_nonneg q)

theorem good_lit (q : ℚ) : Good (FOps.lit q) := good_ofRat _ _

theorem good_add {x y : F32} (hx : Good x) (hy : Good y) : Good (add x y) := by
  cases x <;> cases y <;> simp only [add] <;> first | trivial | exact good_ofRat _ _ | (split <;> trivial)

theorem good_neg {x : F32} (hx : Good x) : Good (neg x) := by
  cases x <;> first | trivial | exact hx

theorem good_sub {x y : F32} (hx : Good x) (hy : Good y) : Good (sub x y) := good_add hx (good_neg hy)

theorem good_mul {x y : F32} (hx : Good x) (hy : Good y) : Good (mul x y) := by
  cases x <;> cases y <;> simp only [mul] <;>
    first | trivial | exact good_round _ (mul_nonneg hx.1 hy.1) | (split <;> trivial)

theorem good_div {x y : F32} (hx : Good x) (hy : Good y) : Good (div x y) := by
  cases x <;> cases y <;> simp only [div] <;>
    first | trivial | exact good_zero _ | skip
  split
  · split <;> trivial
  · exact good_round _ (div_nonneg hx.1 hy.1)

theorem Good.is {x : F32} {q : ℚ} (hg : Good x) (h : Is x q) : Rep |q| ∧ |q| < 2 ^ 128 := by
  obtain ⟨s, p, rfl, hp, rfl⟩ := h
  rw [signed_abs hp]
  exact ⟨hg.2.1, hg.2.2⟩

theorem Is.zero_eq {x : F32} (h : Is x 0) : x = fin false 0 ∨ x = fin true 0 := by
  obtain ⟨s, p, rfl, hp, hs⟩ := h
  cases s
  · left; simp [signed] at hs; rw [hs]
  · right; simp [signed] at hs; rw [hs]

theorem Is.nonneg {x : F32} {q : ℚ} (h : Is x q) (hq : 0 ≤ q) : x = fin false q ∨ (x = fin true 0 ∧ q = 0) := by
  rcases hq.eq_or_lt with rfl | hq
  · rcases h.zero_eq with rfl | rfl
    · exact Or.inl rfl
    · exact Or.inr ⟨rfl, rfl⟩
  · exact Or.inl (h.pos hq)

/-- Division by a constant. -/
theorem app_div_const {x y : F32} {a d B : ℝ} {c : ℚ} (hx : App x a d) (hy : Is y c) (hc : 0 < c)
    (hB : (|a| + d) / c ≤ B) (h1 : 1 / 10 ^ 8 ≤ B) (h2 : B ≤ 10 ^ 8) :
    App (div x y) (a / c) (d / c + (B + 1 / 10 ^ 9) * (6 / 10 ^ 8)) := by
  rw [hy.pos hc]
  obtain ⟨s, p, rfl, hp, h3⟩ := hx
  obtain ⟨D, hD1, hD2⟩ := exists_rat_btwn (show B < B + 1 / 10 ^ 9 by linarith [show (0 : ℝ) < 1 / 10 ^ 9 by norm_num])
  have hnr : (0 : ℝ) < c := by exact_mod_cast hc
  have hpq : 0 ≤ p / c := by positivity
  have hpa : (p : ℝ) ≤ |a| + d := by
    have e2 : p = |signed s p| := (signed_abs hp).symm
    rw [e2]
    push_cast
    have := abs_sub_abs_le_abs_sub ((signed s p : ℝ)) a
    linarith
  have hv : ((p / c : ℚ) : ℝ) ≤ D := by
    push_cast
    have : (p : ℝ) / c ≤ (|a| + d) / c := by gcongr
    linarith
  have hvq : p / c ≤ D := by exact_mod_cast hv
  have c1 : (1 / 10 ^ 9 : ℚ) ≤ D := by
    have : ((1 / 10 ^ 9 : ℚ) : ℝ) ≤ D := by push_cast; linarith [show (1 : ℝ) / 10 ^ 9 ≤ 1 / 10 ^ 8 by norm_num]
    exact_mod_cast this
  have c2 : D ≤ (10 ^ 9 : ℚ) := by
    have : (D : ℝ) ≤ ((10 ^ 9 : ℚ) : ℝ) := by
      push_cast
      have : (1 : ℝ) / 10 ^ 9 ≤ 1 := by norm_num
      norm_num at *
      linarith
    exact_mod_cast this
  obtain ⟨r, er, hr, hre⟩ := round_app (s ^^ false) hpq hvq c1 c2
  refine ⟨s ^^ false, r, ?_, hr, ?_⟩
  · simp only [div, if_neg hc.ne']; exact er
  · have e1 : signed (s ^^ false) (p / c) = signed s p / c := by cases s <;> simp [signed, neg_div]
    rw [e1] at hre
    have h5 : ((|signed (s ^^ false) r - signed s p / c| : ℚ) : ℝ) ≤ ((D * (6 / 10 ^ 8) : ℚ) : ℝ) := by
      exact_mod_cast hre
    push_cast at h5
    have h6 : (D : ℝ) * (6 / 10 ^ 8) ≤ (B + 1 / 10 ^ 9) * (6 / 10 ^ 8) := by gcongr
    have h7 : |(signed s p : ℝ) / c - a / c| ≤ d / c := by
      rw [← sub_div, abs_div, abs_of_pos hnr]
      gcongr
    rw [abs_le] at h5 h7 ⊢
    constructor <;> linarith [h5.1, h5.2, h7.1, h7.2]

end F32

open F32

/-- What is assumed of the system's `powf`, `sqrt` and `ln`; the crate's own functions have these properties. -/
structure F32.Libm.Accurate (lib : Libm) : Prop where
  pow : PowAccurate lib.pow
  roots : RootsVanish lib.pow
  negzero : NegZeroVanishes lib.pow
  sqrt : ∀ {p : ℚ}, Rep p → 0 ≤ p → p < 2 ^ 128 → ∃ r : ℚ, lib.sqrt (fin false p) = fin false r ∧ 0 ≤ r ∧
    |(r : ℝ) - Real.sqrt p| ≤ 7 / 10 ^ 8 * Real.sqrt p
  sqrt_negzero : lib.sqrt (fin true 0) = fin true 0
  ln : ∀ {p : ℚ}, Rep p → (2 : ℚ) ^ (-126 : Int) ≤ p → p < 2 ^ 127 →
    App (lib.ln (fin false p)) (Real.log p) (1 / 10 ^ 7 * (1 + |Real.log p|))

theorem x86_accurate : x86Libm.Accurate where
  pow := pow_x86
  roots := roots_x86
  negzero := negzero_x86
  sqrt := sqrt_app
  sqrt_negzero := by decide +kernel
  ln hr h1 h2 := by
    obtain ⟨L, a, -, c, -⟩ := log_field hr (le_trans (pow2_pos _).le h1) h2
    rw [← c h1]; exact a

theorem neon_accurate : neonLibm.Accurate where
  pow := pow_neon
  roots := roots_neon
  negzero := negzero_neon
  sqrt := sqrt_app
  sqrt_negzero := by decide +kernel
  ln hr h1 h2 := by
    obtain ⟨L, -, a, c, -⟩ := log_field hr (le_trans (pow2_pos _).le h1) h2
    rw [← c h1]; exact a

/-- The arithmetic of some column of some platform. -/
structure Floats (ar : Arith F32) : Prop extends IsIeee ar where
  lib : Libm.Accurate ⟨ar.pow, ar.sqrt, ar.ln⟩
  /-- Comparisons of nonnegative numbers. -/
  lt : ∀ {x y : F32} {a b : ℚ}, Is x a → Is y b → 0 ≤ a → 0 ≤ b → ar.lt x y = decide (a < b)
  le : ∀ {x y : F32} {a b : ℚ}, Is x a → Is y b → 0 ≤ a → 0 ≤ b → ar.le x y = decide (a ≤ b)
  max_pos : ∀ {x : F32} {a : ℚ}, Is x a → 0 < a → ar.max x (FOps.lit 0.0) = x
  max_neg : ∀ {x : F32} {a : ℚ}, Is x a → a ≤ 0 → ∃ s, ar.max x (FOps.lit 0.0) = fin s 0

theorem lit_zero : (FOps.lit 0.0 : F32) = fin false 0 := by decide +kernel

theorem is_lit_zero : Is (FOps.lit 0.0 : F32) 0 := by rw [lit_zero]; exact is_zero

theorem is_abs {x : F32} {a : ℚ} (h : Is x a) (ha : 0 ≤ a) : Is (F32.abs x) a := by
  rcases h.nonneg ha with rfl | ⟨rfl, rfl⟩
  · exact is_fin ha
  · exact is_fin (s := false) (le_refl _)

theorem lt_zero_eq {x : F32} {a : ℚ} (h : Is x a) : F32.lt x (FOps.lit 0.0) = decide (a < 0) := h.lt is_lit_zero

theorem maxNum_zero {x : F32} {a : ℚ} (h : Is x a) :
    (0 < a → maxNum x (FOps.lit 0.0) = x) ∧ (a ≤ 0 → ∃ s, maxNum x (FOps.lit 0.0) = fin s 0) := by
  rw [maxNum, if_neg h.ne_nan, lt_zero_eq h]
  constructor
  · intro ha
    rw [if_neg (by simpa using ha.le)]
  · intro ha
    rcases ha.eq_or_lt with rfl | ha
    · rw [if_neg (by simp)]
      rcases h.zero_eq with rfl | rfl
      exacts [⟨_, rfl⟩, ⟨_, rfl⟩]
    · rw [if_pos (by simpa using ha), lit_zero]; exact ⟨_, rfl⟩

theorem maxPs_zero {x : F32} {a : ℚ} (h : Is x a) :
    (0 < a → maxPs x (FOps.lit 0.0) = x) ∧ (a ≤ 0 → ∃ s, maxPs x (FOps.lit 0.0) = fin s 0) := by
  rw [maxPs, is_lit_zero.lt h]
  constructor
  · intro ha
    rw [if_pos (by simpa using ha)]
  · intro ha
    rw [if_neg (by simpa using ha), lit_zero]; exact ⟨_, rfl⟩

theorem maxNeon_zero {x : F32} {a : ℚ} (h : Is x a) :
    (0 < a → maxNeon x (FOps.lit 0.0) = x) ∧ (a ≤ 0 → ∃ s, maxNeon x (FOps.lit 0.0) = fin s 0) := by
  rw [maxNeon, if_neg (by rw [lit_zero]; rintro (h' | h'); exacts [h.ne_nan h', nomatch h']), lt_zero_eq h]
  constructor
  · intro ha
    rw [if_neg (by simpa using ha.le)]
    split
    · rename_i hx
      exfalso
      rw [h.pos ha] at hx
      exact nomatch hx.1
    · rfl
  · intro ha
    rcases ha.eq_or_lt with rfl | ha
    · rw [if_neg (by simp)]
      split
      · rw [lit_zero]; exact ⟨_, rfl⟩
      · rcases h.zero_eq with rfl | rfl
        exacts [⟨_, rfl⟩, ⟨_, rfl⟩]
    · rw [if_pos (by simpa using ha), lit_zero]; exact ⟨_, rfl⟩

theorem scalar_floats {lib : Libm} (h : lib.Accurate) : Floats (scalarBackend (scalarArith lib)).ar where
  toIsIeee := scalar_ieee lib
  lib := h
  lt hx hy _ _ := hx.lt hy
  le hx hy _ _ := hx.le hy
  max_pos h := (maxNum_zero h).1
  max_neg h := (maxNum_zero h).2

theorem vec_floats (p : Platform) {scalar : Libm} (h : scalar.Accurate) : Floats (p.real scalar).vec.ar := by
  have hi := vec_ieee p (p.libm scalar) scalar
  cases p with
  | scalar => exact scalar_floats h
  | avx2 => exact ⟨hi, x86_accurate, fun hx hy _ _ => hx.lt hy, fun hx hy _ _ => hx.le hy, fun h => (maxPs_zero h).1,
      fun h => (maxPs_zero h).2⟩
  | avx512 => exact ⟨hi, x86_accurate, fun hx hy _ _ => hx.lt hy, fun hx hy _ _ => hx.le hy, fun h => (maxPs_zero h).1,
      fun h => (maxPs_zero h).2⟩
  | neon => exact ⟨hi, neon_accurate, fun hx hy ha hb => (is_abs hx ha).lt (is_abs hy hb),
      fun hx hy ha hb => (is_abs hx ha).le (is_abs hy hb), fun h => (maxNeon_zero h).1, fun h => (maxNeon_zero h).2⟩

theorem column_floats (p : Platform) {scalar : Libm} (h : scalar.Accurate) (w x : Nat) :
    Floats (Spec.columnArith (p.real scalar) w x) := by
  unfold Spec.columnArith
  split
  · exact vec_floats p h
  · cases p <;> exact scalar_floats h

end Ezk

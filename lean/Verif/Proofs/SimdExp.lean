import Verif.Proofs.SimdMath

/-!
# `exp`, `pow` and `sqrt` of the vector code

From the range reduction to the accuracy of the whole functions.
-/

namespace Ezk.F32
open Ezk

theorem is_log2e : Is log2e (12102203 / 8388608) := is_const (by decide +kernel)

/-- The bound at which arguments of `exp` are cut off. -/
def expCut : ℚ := 11583653 / 131072

/-- The argument of `exp` after clamping. -/
def expClamp (q : ℚ) : ℚ := max (-expCut) (min expCut q)

theorem expClamp_abs (q : ℚ) : |expClamp q| ≤ expCut := by
  have h : (0 : ℚ) ≤ expCut := by norm_num [expCut]
  rw [expClamp, abs_le]
  exact ⟨le_max_left _ _, max_le (by linarith) (min_le_left _ _)⟩

theorem Is.ne_nan {x : F32} {q : ℚ} (h : Is x q) : x ≠ nan := by
  obtain ⟨s, p, rfl, -, -⟩ := h
  exact nofun

theorem clamp_x86 {x : F32} {q : ℚ} (h : Is x q) : Is (maxPs expLo (minPs expHi x)) (expClamp q) := by
  have h1 : Is (minPs expHi x) (min expCut q) := by
    rw [minPs, is_expHi.lt h]
    by_cases hc : (11583653 / 131072 : ℚ) < q
    · rw [decide_eq_true hc, if_pos rfl, min_eq_left (by rw [expCut]; exact hc.le)]; exact is_expHi
    · rw [decide_eq_false hc, if_neg (by decide), min_eq_right (by rw [expCut]; exact not_lt.mp hc)]; exact h
  rw [maxPs, h1.lt is_expLo, expClamp]
  by_cases hc : min expCut q < -(11583653 / 131072)
  · rw [decide_eq_true hc, if_pos rfl, max_eq_left (by rw [expCut] at *; exact hc.le)]; exact is_expLo
  · rw [decide_eq_false hc, if_neg (by decide), max_eq_right (by rw [expCut] at *; exact not_lt.mp hc)]; exact h1

theorem clamp_neon {x : F32} {q : ℚ} (h : Is x q) : Is (maxNeon (minNeon x expHi) expLo) (expClamp q) := by
  have h1 : Is (minNeon x expHi) (min expCut q) := by
    rw [minNeon, if_neg (by rintro (hn | hn); exacts [h.ne_nan hn, is_expHi.ne_nan hn]), is_expHi.lt h]
    by_cases hc : (11583653 / 131072 : ℚ) < q
    · rw [decide_eq_true hc, if_pos rfl, min_eq_left (by rw [expCut]; exact hc.le)]; exact is_expHi
    · rw [decide_eq_false hc, if_neg (by decide), min_eq_right (by rw [expCut]; exact not_lt.mp hc)]; exact h
  have hz : ¬ (minNeon x expHi = fin true 0 ∧ expLo = fin false 0) := by
    rintro ⟨-, hz⟩
    have : Is expLo 0 := by rw [hz]; exact is_zero
    have := this.unique is_expLo
    norm_num at this
  rw [maxNeon, if_neg (by rintro (hn | hn); exacts [h1.ne_nan hn, is_expLo.ne_nan hn]), h1.lt is_expLo, if_neg hz, expClamp]
  by_cases hc : min expCut q < -(11583653 / 131072)
  · rw [decide_eq_true hc, if_pos rfl, max_eq_left (by rw [expCut] at *; exact hc.le)]; exact is_expLo
  · rw [decide_eq_false hc, if_neg (by decide), max_eq_right (by rw [expCut] at *; exact not_lt.mp hc)]; exact h1

/-- `x · log₂ e + 1/2` as computed. -/
theorem exp_fx {x : F32} {q : ℚ} (h : Is x q) (hq : |q| ≤ expCut) :
    ∃ v : ℚ, Is (add (mul x log2e) oneHalf) v ∧ -127 ≤ v ∧ v < 128 ∧ |v - (q * (12102203 / 8388608) + 1 / 2)| ≤ 2 / 10 ^ 5 := by
  have happ := app_add (B := 1281 / 10) (app_mul (A := 8838 / 100) (C := 144270 / 10 ^ 5) (B := 12751 / 100) h.app is_log2e.app
    (by
      have : ((|q| : ℚ) : ℝ) ≤ ((expCut : ℚ) : ℝ) := by exact_mod_cast hq
      push_cast at this; exact this.trans (by norm_num [expCut]))
    (by push_cast; rw [abs_le]; constructor <;> norm_num) (by norm_num) (by norm_num) (by norm_num)) is_half.app
    (by
      have h1 : ((|q| : ℚ) : ℝ) ≤ ((expCut : ℚ) : ℝ) := by exact_mod_cast hq
      push_cast at h1
      have h2 : |(q : ℝ) * ((12102203 / 8388608 : ℚ) : ℝ) + ((1 / 2 : ℚ) : ℝ)| ≤ 12801 / 100 := by
        have h3 := h1.trans (by norm_num [expCut] : ((expCut : ℚ) : ℝ) ≤ 88377 / 1000)
        push_cast
        rw [abs_le] at h3 ⊢
        constructor <;> linarith
      norm_num at h2 ⊢; linarith) (by norm_num) (by norm_num)
  obtain ⟨v, hv, hve⟩ := happ.is
  have herr : |v - (q * (12102203 / 8388608) + 1 / 2)| ≤ 2 / 10 ^ 5 := by
    have : ((|v - (q * (12102203 / 8388608) + 1 / 2)| : ℚ) : ℝ) ≤ ((2 / 10 ^ 5 : ℚ) : ℝ) := by
      push_cast
      push_cast at hve
      refine hve.trans (by norm_num)
    exact_mod_cast this
  refine ⟨v, hv, ?_, ?_, herr⟩ <;>
  · obtain ⟨s, p, rfl, hp, hs⟩ := h
    have hpc : p ≤ expCut := by rw [← hs, signed_abs hp] at hq; exact hq
    obtain ⟨t, l, hl, hl0, hlv⟩ := is_log2e
    have ht : t = false := by
      cases t
      · rfl
      · simp [signed] at hlv; norm_num at hlv; linarith
    subst ht
    have hlv : l = 12102203 / 8388608 := by simpa [signed] using hlv
    have hk : rnd (expCut * (12102203 / 8388608)) = 16711679 / 131072 := by decide +kernel
    have hm0 : 0 ≤ p * l := mul_nonneg hp hl0
    have hm : rnd (p * l) ≤ 16711679 / 131072 := by
      rw [← hk]
      refine rnd_mono hm0 ?_
      rw [hlv]
      exact mul_le_mul_of_nonneg_right hpc (by norm_num)
    have hm1 := rnd_nonneg hm0
    have hmul : mul (fin s p) log2e = fin s (rnd (p * l)) := by
      rw [hl, mul, round_eq, if_neg, Bool.xor_false]
      rw [limit_eq, not_le]
      exact lt_of_le_of_lt hm (by norm_num)
    have hhalf : oneHalf = fin false (1 / 2) := by decide +kernel
    have e1 : rnd (16777215 / 131072) = 16777215 / 131072 := by decide +kernel
    have e2 : rnd 127 = 127 := by decide +kernel
    rw [hmul, hhalf, add, ofRat] at hv
    have e3 : signed false (1 / 2) = 1 / 2 := rfl
    rw [e3] at hv
    by_cases hz : signed s (rnd (p * l)) + 1 / 2 = 0
    · rw [if_pos hz] at hv
      have : v = 0 := by
        obtain ⟨_, _, hv1, -, hv2⟩ := hv
        injection hv1 with h1 h2
        subst h1; subst h2
        rw [← hv2]; cases s <;> simp [signed]
      rw [this]; norm_num
    · rw [if_neg hz] at hv
      have hbig : |signed s (rnd (p * l)) + 1 / 2| ≤ 16777215 / 131072 := by
        rw [abs_le]
        cases s <;> simp only [signed, Bool.false_eq_true, if_false, if_true] <;> constructor <;> linarith
      have hr := rnd_mono (abs_nonneg _) hbig
      rw [e1] at hr
      rw [round_eq, if_neg (by rw [limit_eq, not_le]; exact lt_of_le_of_lt hr (by norm_num))] at hv
      obtain ⟨_, _, hv1, -, hv2⟩ := hv
      injection hv1 with h1 h2
      subst h1; subst h2
      rw [← hv2]
      by_cases hneg : signed s (rnd (p * l)) + 1 / 2 < 0
      · rw [decide_eq_true hneg]
        have hlow : |signed s (rnd (p * l)) + 1 / 2| ≤ 127 := by
          rw [abs_of_neg hneg]
          cases s
          · simp only [signed, Bool.false_eq_true, if_false] at hneg ⊢; linarith
          · simp only [signed, if_true] at hneg ⊢; linarith
        have hr2 := rnd_mono (abs_nonneg _) hlow
        rw [e2] at hr2
        have h0 := rnd_nonneg (abs_nonneg (signed s (rnd (p * l)) + 1 / 2))
        simp only [signed, if_true] at *
        linarith
      · rw [decide_eq_false hneg]
        have h0 := rnd_nonneg (abs_nonneg (signed s (rnd (p * l)) + 1 / 2))
        simp only [signed, Bool.false_eq_true, if_false] at *
        linarith

/-- The reduced argument is small. -/
theorem exp_reduced {q v : ℚ} {n : Int} (hq : |q| ≤ expCut) (hv : |v - (q * (12102203 / 8388608) + 1 / 2)| ≤ 2 / 10 ^ 5)
    (h1 : (n : ℚ) ≤ v) (h2 : v < n + 1) : |(q : ℝ) - n * Real.log 2| ≤ 347 / 1000 := by
  obtain ⟨l1, l2⟩ := log2_bounds
  have hqr : |(q : ℝ)| ≤ 89 := by
    have : ((|q| : ℚ) : ℝ) ≤ ((89 : ℚ) : ℝ) := by exact_mod_cast hq.trans (by norm_num [expCut])
    push_cast at this; exact this
  have ht : |(q : ℝ) * (12102203 / 8388608) - n| ≤ 50002 / 10 ^ 5 := by
    have : |q * (12102203 / 8388608) - n| ≤ 50002 / 10 ^ 5 := by
      rw [abs_le] at hv ⊢
      norm_num at hv ⊢
      constructor <;> linarith
    have : ((|q * (12102203 / 8388608) - n| : ℚ) : ℝ) ≤ ((50002 / 10 ^ 5 : ℚ) : ℝ) := by exact_mod_cast this
    push_cast at this; exact this
  have e : (q : ℝ) - n * Real.log 2 =
      q * (1 - 12102203 / 8388608 * Real.log 2) + (q * (12102203 / 8388608) - n) * Real.log 2 := by ring
  rw [e]
  have a1 : |(q : ℝ) * (1 - 12102203 / 8388608 * Real.log 2)| ≤ 89 * (1 / 10 ^ 7) := by
    rw [abs_mul]
    refine mul_le_mul hqr ?_ (abs_nonneg _) (by norm_num)
    rw [abs_le]; constructor <;> norm_num at l1 l2 ⊢ <;> linarith
  have a2 : |((q : ℝ) * (12102203 / 8388608) - n) * Real.log 2| ≤ 50002 / 10 ^ 5 * (6931471808 / 10 ^ 10) := by
    rw [abs_mul]
    refine mul_le_mul ht ?_ (abs_nonneg _) (by norm_num)
    rw [abs_of_pos (by norm_num at l1; linarith)]; exact l2.le
  refine (abs_add_le _ _).trans ?_
  norm_num at a1 a2 ⊢; linarith

theorem is_floor {x : F32} {v : ℚ} (h : Is x v) (h1 : -127 ≤ v) (h2 : v < 128) : Is (floorPs x) ((⌊v⌋ : Int) : ℚ) := by
  have a1 : -127 ≤ ⌊v⌋ := Int.le_floor.mpr (by exact_mod_cast h1)
  have a2 : ⌊v⌋ < 128 := Int.floor_lt.mpr (by exact_mod_cast h2)
  have hb : |⌊v⌋| < 2 ^ 24 := by rw [abs_lt]; omega
  obtain ⟨s, p, rfl, hp, hs⟩ := h
  rw [floorPs, hs]
  exact ofRat_exact _ (rep_abs_int hb) (abs_int_lt hb)

theorem cvttps_int {x : F32} {n : Int} (h : Is x n) (hn : |n| < 2 ^ 24) : cvttps x = n := by
  obtain ⟨s, p, rfl, hp, hs⟩ := h
  rw [cvttps, hs, trunc_int, if_pos]
  rw [abs_lt] at hn; omega

theorem fcvtzs_int {x : F32} {n : Int} (h : Is x n) (hn : |n| < 2 ^ 24) : fcvtzs x = n := by
  obtain ⟨s, p, rfl, hp, hs⟩ := h
  rw [fcvtzs, hs, trunc_int]
  rw [abs_lt] at hn; omega

theorem exp_x86 {x : F32} {q : ℚ} (h : Is x q) :
    ∃ p : ℚ, x86Exp x = fin false p ∧ 0 ≤ p ∧
      |(p : ℝ) - Real.exp (expClamp q : ℚ)| ≤ 42 / 10 ^ 8 * Real.exp (expClamp q : ℚ) + 1 / 2 ^ 126 := by
  have hc := clamp_x86 h
  obtain ⟨v, hv, h1, h2, h3⟩ := exp_fx hc (expClamp_abs q)
  have a1 : -127 ≤ ⌊v⌋ := Int.le_floor.mpr (by exact_mod_cast h1)
  have a2 : ⌊v⌋ < 128 := Int.floor_lt.mpr (by exact_mod_cast h2)
  have hb : |⌊v⌋| < 2 ^ 24 := by rw [abs_lt]; omega
  have hfl := is_floor hv h1 h2
  have hmask : lt (add (mul (maxPs expLo (minPs expHi x)) log2e) oneHalf)
      (floorPs (add (mul (maxPs expLo (minPs expHi x)) log2e) oneHalf)) = false := by
    rw [hv.lt hfl, decide_eq_false (not_lt.mpr (Int.floor_le v))]
  rw [x86Exp, hmask]
  simp only [Bool.false_eq_true, if_false]
  have hfx : Is (sub (floorPs (add (mul (maxPs expLo (minPs expHi x)) log2e) oneHalf)) zero) ((⌊v⌋ : Int) : ℚ) := by
    have e : ((⌊v⌋ : Int) : ℚ) - 0 = ((⌊v⌋ : Int) : ℚ) := by ring
    rw [← e]
    refine hfl.sub is_zero ?_ ?_
    · rw [e]; exact rep_abs_int hb
    · rw [e]; exact abs_int_lt hb
  rw [cvttps_int hfx hb]
  exact expTail_app mla_fma hc hfx a1 (by omega) (exp_reduced (expClamp_abs q) h3 (Int.floor_le v) (Int.lt_floor_add_one v))

theorem exp_neon {x : F32} {q : ℚ} (h : Is x q) :
    ∃ p : ℚ, neonExp x = fin false p ∧ 0 ≤ p ∧
      |(p : ℝ) - Real.exp (expClamp q : ℚ)| ≤ 42 / 10 ^ 8 * Real.exp (expClamp q : ℚ) + 1 / 2 ^ 126 := by
  have hc := clamp_neon h
  obtain ⟨v, hv, h1, h2, h3⟩ := exp_fx hc (expClamp_abs q)
  have a1 : -127 ≤ ⌊v⌋ := Int.le_floor.mpr (by exact_mod_cast h1)
  have a2 : ⌊v⌋ < 128 := Int.floor_lt.mpr (by exact_mod_cast h2)
  have hb : |⌊v⌋| < 2 ^ 24 := by rw [abs_lt]; omega
  have hv' : Is (mulAdd (maxNeon (minNeon x expHi) expLo) log2e oneHalf) v := hv
  have htr : -127 ≤ trunc v ∧ trunc v < 128 ∧ (⌊v⌋ = if v < trunc v then trunc v - 1 else trunc v) := by
    rcases le_or_gt 0 v with h0 | h0
    · rw [trunc_eq_floor h0]
      refine ⟨a1, a2, ?_⟩
      rw [if_neg (not_lt.mpr (Int.floor_le v))]
    · rw [trunc_neg h0]
      have b1 := Int.le_ceil v
      have b2 := Int.ceil_lt_add_one v
      refine ⟨?_, ?_, ?_⟩
      · have : ((-127 : Int) : ℚ) ≤ ⌈v⌉ := by push_cast; linarith
        exact_mod_cast this
      · have : (⌈v⌉ : ℚ) < ((128 : Int) : ℚ) := by push_cast; linarith
        exact_mod_cast this
      · split
        · rename_i hlt
          rw [Int.floor_eq_iff]
          push_cast
          constructor <;> linarith
        · rename_i hge
          have : v = ⌈v⌉ := le_antisymm b1 (not_lt.mp hge)
          rw [Int.floor_eq_iff]
          constructor <;> linarith
  obtain ⟨t1, t2, t3⟩ := htr
  have htb : |trunc v| < 2 ^ 24 := by rw [abs_lt]; omega
  have hcv : fcvtzs (mulAdd (maxNeon (minNeon x expHi) expLo) log2e oneHalf) = trunc v := by
    obtain ⟨s, p, hx, hp, hs⟩ := hv'
    rw [hx, fcvtzs, hs]; omega
  have htmp := is_ofInt htb
  rw [neonExp, hcv, hv'.lt htmp]
  have hfx : Is (sub (ofInt (trunc v)) (if decide (v < (trunc v : ℚ)) = true then one else zero)) ((⌊v⌋ : Int) : ℚ) := by
    by_cases hlt : v < (trunc v : ℚ)
    · rw [decide_eq_true hlt, if_pos rfl]
      rw [if_pos hlt] at t3
      have e : ((⌊v⌋ : Int) : ℚ) = ((trunc v : Int) : ℚ) - 1 := by rw [t3]; push_cast; rfl
      rw [e]
      refine htmp.sub is_one ?_ ?_
      · rw [← e]; exact rep_abs_int hb
      · rw [← e]; exact abs_int_lt hb
    · rw [decide_eq_false hlt, if_neg (by decide)]
      rw [if_neg hlt] at t3
      have e : ((⌊v⌋ : Int) : ℚ) = ((trunc v : Int) : ℚ) - 0 := by rw [t3, sub_zero]
      rw [e]
      refine htmp.sub is_zero ?_ ?_
      · rw [← e]; exact rep_abs_int hb
      · rw [← e]; exact abs_int_lt hb
  rw [fcvtzs_int hfx hb]
  exact expTail_app mla_mulAdd hc hfx a1 (by omega) (exp_reduced (expClamp_abs q) h3 (Int.floor_le v) (Int.lt_floor_add_one v))

/-! ## pow -/

theorem expCut_bounds : (8837 / 100 : ℝ) < (expCut : ℝ) ∧ (expCut : ℝ) < 8838 / 100 := by
  constructor <;> norm_num [expCut]

/-- Clamping of a real number. -/
def clampR (t : ℝ) : ℝ := max (-(expCut : ℝ)) (min (expCut : ℝ) t)

theorem clampR_cast (q : ℚ) : ((expClamp q : ℚ) : ℝ) = clampR q := by
  rw [expClamp, clampR]; push_cast; rfl

theorem clampR_lip (a b : ℝ) : |clampR a - clampR b| ≤ |a - b| := by
  rw [clampR, clampR]
  refine (abs_max_sub_max_le_max _ _ _ _).trans ?_
  rw [sub_self, abs_zero]
  refine max_le (abs_nonneg _) ((abs_min_sub_min_le_max _ _ _ _).trans ?_)
  rw [sub_self, abs_zero]
  exact max_le (abs_nonneg _) (le_refl _)

/-- An exponential of an inexact argument. -/
theorem exp_close {a b d : ℝ} (h : |a - b| ≤ d) (hd : d ≤ 1 / 100) :
    |Real.exp a - Real.exp b| ≤ 101 / 100 * d * Real.exp b := by
  have hd0 : 0 ≤ d := le_trans (abs_nonneg _) h
  have e : Real.exp a - Real.exp b = Real.exp b * (Real.exp (a - b) - 1) := by
    rw [mul_sub, ← Real.exp_add]; congr 1
    · congr 1; ring
    · ring
  have h1 := Real.abs_exp_sub_one_sub_id_le (x := a - b) (h.trans (hd.trans (by norm_num)))
  have h2 : |Real.exp (a - b) - 1| ≤ 101 / 100 * d := by
    have h3 : (a - b) ^ 2 ≤ d ^ 2 := by rw [← sq_abs]; exact pow_le_pow_left₀ (abs_nonneg _) h 2
    have h4 : d ^ 2 ≤ 1 / 100 * d := by nlinarith
    rw [abs_le] at h1 h ⊢
    constructor <;> linarith [h1.1, h1.2, h.1, h.2]
  rw [e, abs_mul, abs_of_pos (Real.exp_pos b), mul_comm]
  exact mul_le_mul_of_nonneg_right h2 (Real.exp_pos b).le

/-- `exp` of the product of an inexact logarithm and an exponent. -/
theorem exp_mul {ex : F32 → F32} (hex : ∀ {x : F32} {q : ℚ}, Is x q → ∃ p : ℚ, ex x = fin false p ∧ 0 ≤ p ∧
      |(p : ℝ) - Real.exp (expClamp q : ℚ)| ≤ 42 / 10 ^ 8 * Real.exp (expClamp q : ℚ) + 1 / 2 ^ 126)
    {l y : F32} {L Y : ℝ} (hl : App l L (1 / 10 ^ 7 * (1 + |L|))) (hL : |L| ≤ 89) (hy : App y Y 0) (hY : |Y| ≤ 100) :
    ∃ p : ℚ, ex (mul y l) = fin false p ∧ 0 ≤ p ∧
      |(p : ℝ) - Real.exp (clampR (Y * L))| ≤
        (43 / 10 ^ 8 + 17 / 10 ^ 8 * |Y| * (1 + |L|)) * Real.exp (clampR (Y * L)) + 2 / 2 ^ 126 := by
  have hY0 := abs_nonneg Y
  have hL0 := abs_nonneg L
  set T := |Y| * (1 + |L|) with hT
  have hT0 : 0 ≤ T := mul_nonneg hY0 (by linarith)
  have hTb : T ≤ 9000 := by
    have := mul_le_mul hY (by linarith : 1 + |L| ≤ 90) (by linarith) (by norm_num : (0 : ℝ) ≤ 100)
    rw [hT]; linarith
  have hm := app_mul (A := |Y|) (C := |L|) (B := T * (1 + 1 / 10 ^ 7) + 1 / 10 ^ 8) hy hl (le_refl _) (le_refl _)
    (by rw [hT]; nlinarith) (by linarith [mul_nonneg hT0 (by norm_num : (0 : ℝ) ≤ 1 + 1 / 10 ^ 7)]) (by norm_num; linarith)
  obtain ⟨q, hq, hqe⟩ := hm.is
  have hqd : |(q : ℝ) - Y * L| ≤ 161 / 10 ^ 9 * T + 1 / 10 ^ 14 := by
    refine hqe.trans ?_
    have e : |Y| * (1 / 10 ^ 7 * (1 + |L|)) = 1 / 10 ^ 7 * T := by rw [hT]; ring
    rw [e]
    norm_num
    linarith
  obtain ⟨p, h1, h2, h3⟩ := hex hq
  refine ⟨p, h1, h2, ?_⟩
  rw [clampR_cast] at h3
  have hc := exp_close ((clampR_lip (q : ℝ) (Y * L)).trans hqd) (by norm_num; linarith)
  have e : 17 / 10 ^ 8 * |Y| * (1 + |L|) = 17 / 10 ^ 8 * T := by rw [hT]; ring
  rw [e]
  set E := Real.exp (clampR (Y * L)) with hE
  have hE0 : 0 < E := Real.exp_pos _
  set G := Real.exp (clampR q) with hG
  have hG0 : 0 < G := Real.exp_pos _
  set d := 161 / 10 ^ 9 * T + 1 / 10 ^ 14 with hd
  have hdE : 101 / 100 * d * E = 101 / 100 * (161 / 10 ^ 9) * (T * E) + 101 / 100 * (1 / 10 ^ 14) * E := by rw [hd]; ring
  have hTE : T * E ≤ 9000 * E := mul_le_mul_of_nonneg_right hTb hE0.le
  have hTE0 : 0 ≤ T * E := mul_nonneg hT0 hE0.le
  rw [hdE] at hc
  have e2 : (43 / 10 ^ 8 + 17 / 10 ^ 8 * T) * E = 43 / 10 ^ 8 * E + 17 / 10 ^ 8 * (T * E) := by ring
  rw [e2]
  rw [abs_le] at hc h3 ⊢
  norm_num at hc h3 ⊢
  constructor <;> linarith [hc.1, hc.2, h3.1, h3.2]

/-- The result of a power that does not overflow. -/
theorem pow_unclamp {p : ℚ} {t e : ℝ} (ht : t ≤ 88) (he0 : 0 ≤ e) (he : e ≤ 1)
    (h : |(p : ℝ) - Real.exp (clampR t)| ≤ e * Real.exp (clampR t) + 2 / 2 ^ 126) :
    |(p : ℝ) - Real.exp t| ≤ e * Real.exp t + 5 / 2 ^ 126 := by
  obtain ⟨c1, c2⟩ := expCut_bounds
  by_cases hc : -(expCut : ℝ) ≤ t
  · have e1 : clampR t = t := by
      rw [clampR, min_eq_right (by linarith), max_eq_right hc]
    rw [e1] at h
    refine h.trans ?_
    have : (0 : ℝ) < 1 / 2 ^ 126 := by positivity
    linarith
  · push Not at hc
    have e1 : clampR t = -(expCut : ℝ) := by
      rw [clampR, min_eq_right (by linarith), max_eq_left hc.le]
    rw [e1] at h
    have hsmall : Real.exp (-(expCut : ℝ)) ≤ 1 / 2 ^ 126 := by
      have : (1 : ℝ) / 2 ^ 126 = Real.exp (-(126 * Real.log 2)) := by
        rw [Real.exp_neg, mul_comm, Real.exp_mul, Real.exp_log (by norm_num)]
        norm_num
      rw [this]
      refine Real.exp_le_exp.mpr ?_
      have := log2_bounds.2
      norm_num at this ⊢
      linarith
    have h3 : Real.exp t ≤ Real.exp (-(expCut : ℝ)) := Real.exp_le_exp.mpr hc.le
    have h4 := Real.exp_pos t
    have h5 := Real.exp_pos (-(expCut : ℝ))
    have h6 : e * Real.exp (-(expCut : ℝ)) ≤ Real.exp (-(expCut : ℝ)) := mul_le_of_le_one_left h5.le he
    have h7 : 0 ≤ e * Real.exp t := mul_nonneg he0 h4.le
    rw [abs_le] at h ⊢
    constructor <;> linarith [h.1, h.2]

theorem log_range {p : ℚ} (h1 : (2 : ℚ) ^ (-126 : Int) ≤ p) (h2 : p < 2 ^ 127) : |Real.log p| ≤ 89 := by
  have hb := log2_bounds
  have hp : (0 : ℝ) < p := by exact_mod_cast lt_of_lt_of_le (pow2_pos _) h1
  rw [abs_le]
  constructor
  · have : Real.log ((2 : ℝ) ^ (-126 : Int)) ≤ Real.log p := Real.log_le_log (by positivity) (by
      have := (Rat.cast_le (K := ℝ)).mpr h1
      push_cast at this; exact this)
    rw [Real.log_zpow] at this
    push_cast at this
    norm_num at hb
    linarith [hb.2]
  · have : Real.log p ≤ Real.log ((2 : ℝ) ^ (127 : Nat)) := Real.log_le_log hp (by exact_mod_cast h2.le)
    rw [Real.log_pow] at this
    push_cast at this
    norm_num at hb
    linarith [hb.2]

/-- What `pow` guarantees. -/
def PowAccurate (pw : F32 → F32 → F32) : Prop :=
  (∀ {p Y : ℚ} {y : F32}, Rep p → (2 : ℚ) ^ (-126 : Int) ≤ p → p < 2 ^ 127 → Is y Y → |Y| ≤ 100 → (Y : ℝ) * Real.log p ≤ 88 →
    ∃ r : ℚ, pw (fin false p) y = fin false r ∧ 0 ≤ r ∧
      |(r : ℝ) - (p : ℝ) ^ (Y : ℝ)| ≤ (43 / 10 ^ 8 + 17 / 10 ^ 8 * |(Y : ℝ)| * (1 + |Real.log p|)) * (p : ℝ) ^ (Y : ℝ) + 5 / 2 ^ 126) ∧
  (∀ {p Y : ℚ} {y : F32}, Rep p → 0 ≤ p → p < (2 : ℚ) ^ (-126 : Int) → Is y Y → 0 < Y → Y ≤ 100 →
    ∃ r : ℚ, pw (fin false p) y = fin false r ∧ 0 ≤ r ∧ (r : ℝ) ≤ 101 / 100 * Real.exp (-(87 * Y)) + 5 / 2 ^ 126)

theorem pow_of {lg ex : F32 → F32} (hex : ∀ {x : F32} {q : ℚ}, Is x q → ∃ p : ℚ, ex x = fin false p ∧ 0 ≤ p ∧
      |(p : ℝ) - Real.exp (expClamp q : ℚ)| ≤ 42 / 10 ^ 8 * Real.exp (expClamp q : ℚ) + 1 / 2 ^ 126)
    (hlg : ∀ {p : ℚ}, Rep p → 0 ≤ p → p < 2 ^ 127 → ∃ L : ℝ, App (lg (fin false p)) L (1 / 10 ^ 7 * (1 + |L|)) ∧
      ((2 : ℚ) ^ (-126 : Int) ≤ p → L = Real.log p) ∧
      (p < (2 : ℚ) ^ (-126 : Int) → -127 * Real.log 2 ≤ L ∧ L ≤ -126 * Real.log 2)) :
    PowAccurate (fun x y => ex (mul y (lg x))) := by
  constructor
  · intro p Y y hr h1 h2 hy hY ht
    have hp : (0 : ℝ) < p := by exact_mod_cast lt_of_lt_of_le (pow2_pos _) h1
    obtain ⟨L, hL, hLp, -⟩ := hlg hr (le_trans (pow2_pos _).le h1) h2
    obtain rfl := hLp h1
    have hYr : |(Y : ℝ)| ≤ 100 := by
      have : ((|Y| : ℚ) : ℝ) ≤ ((100 : ℚ) : ℝ) := by exact_mod_cast hY
      push_cast at this; exact this
    have hlr := log_range h1 h2
    obtain ⟨r, e1, e2, e3⟩ := exp_mul hex hL hlr hy.app hYr
    refine ⟨r, e1, e2, ?_⟩
    have hpow : (p : ℝ) ^ (Y : ℝ) = Real.exp (Y * Real.log p) := by
      rw [Real.rpow_def_of_pos hp, mul_comm]
    rw [hpow]
    refine pow_unclamp ht (by positivity) ?_ e3
    have hb : |(Y : ℝ)| * (1 + |Real.log p|) ≤ 100 * 90 :=
      mul_le_mul hYr (by linarith) (by positivity) (by norm_num)
    have e : 17 / 10 ^ 8 * |(Y : ℝ)| * (1 + |Real.log p|) = 17 / 10 ^ 8 * (|(Y : ℝ)| * (1 + |Real.log p|)) := by ring
    rw [e]
    norm_num at hb ⊢
    linarith
  · intro p Y y hr h0 h1 hy hY0 hY
    obtain ⟨L, hL, -, hLs⟩ := hlg hr h0 (lt_trans h1 (by norm_num))
    obtain ⟨a1, a2⟩ := hLs h1
    obtain ⟨l1, l2⟩ := log2_bounds
    have hY0r : (0 : ℝ) < Y := by exact_mod_cast hY0
    have hYr : (Y : ℝ) ≤ 100 := by exact_mod_cast hY
    have hL1 : L ≤ -87 - 3 / 10 := by norm_num at l1 l2 ⊢; linarith
    have hL2 : |L| ≤ 89 := by
      rw [abs_le]; norm_num at l1 l2 ⊢; constructor <;> linarith
    obtain ⟨r, e1, e2, e3⟩ := exp_mul hex hL hL2 hy.app (by rw [abs_of_pos hY0r]; exact hYr)
    refine ⟨r, e1, e2, ?_⟩
    have hYL : (Y : ℝ) * L ≤ -(87 * Y) := by nlinarith
    rw [abs_of_pos hY0r] at e3
    have hTb : (Y : ℝ) * (1 + |L|) ≤ 100 * 90 := mul_le_mul hYr (by linarith) (by positivity) (by norm_num)
    have hee : (43 / 10 ^ 8 + 17 / 10 ^ 8 * (Y : ℝ) * (1 + |L|)) ≤ 1 / 100 := by
      have e : 17 / 10 ^ 8 * (Y : ℝ) * (1 + |L|) = 17 / 10 ^ 8 * (Y * (1 + |L|)) := by ring
      rw [e]
      norm_num at hTb ⊢
      linarith
    have h5 := pow_unclamp (by linarith) (by positivity) (hee.trans (by norm_num)) e3
    have h6 : Real.exp (Y * L) ≤ Real.exp (-(87 * Y)) := Real.exp_le_exp.mpr hYL
    have h7 := Real.exp_pos (Y * L)
    have h8 := mul_le_mul_of_nonneg_right hee h7.le
    rw [abs_le] at h5
    linarith [h5.2]

theorem pow_x86 : PowAccurate x86Libm.pow :=
  pow_of exp_x86 (fun h h0 hl => by
    obtain ⟨L, a, -, c, d⟩ := log_field h h0 hl
    exact ⟨L, a, c, d⟩)

theorem pow_neon : PowAccurate neonLibm.pow :=
  pow_of exp_neon (fun h h0 hl => by
    obtain ⟨L, -, b, c, d⟩ := log_field h h0 hl
    exact ⟨L, b, c, d⟩)

/-! ## sqrt -/

/-- `sqrt`, up to the rounding. -/
theorem sqrt_eq {p : ℚ} (h : 0 < p) : ∃ w : ℚ, sqrt (fin false p) = round false w ∧ 0 < w ∧
    |(w : ℝ) - Real.sqrt p| ≤ Real.sqrt p / 2 ^ 27 := by
  obtain ⟨e1, e2⟩ := exponent_spec h
  set k : Int := 26 - exponent p / 2 with hk
  set a : ℚ := p * (pow2 k * pow2 k) with ha
  have hpk : pow2 k * pow2 k = (2 : ℚ) ^ (2 * k) := by
    rw [pow2_eq, ← zpow_add₀ (by norm_num)]; congr 1; ring
  have ha1 : (2 : ℚ) ^ (52 : Int) ≤ a := by
    have : (2 : ℚ) ^ (52 : Int) ≤ (2 : ℚ) ^ (exponent p + 2 * k) := zpow_le_of_le (by omega)
    rw [zpow_add₀ (by norm_num)] at this
    rw [ha, hpk]
    exact this.trans (mul_le_mul_of_nonneg_right e1 (pow2_pos _).le)
  have ha0 : 0 < a := lt_of_lt_of_le (pow2_pos _) ha1
  set r := Nat.sqrt a.floor.toNat with hr
  have hfl : 0 ≤ ⌊a⌋ := Int.floor_nonneg.mpr ha0.le
  have hfn : ((a.floor.toNat : Nat) : ℚ) = ((⌊a⌋ : Int) : ℚ) := by
    rw [rat_floor]
    have : ((⌊a⌋.toNat : Nat) : Int) = ⌊a⌋ := Int.toNat_of_nonneg hfl
    exact_mod_cast this
  have hr1 : ((r * r : Nat) : ℚ) ≤ a := by
    have : r * r ≤ a.floor.toNat := Nat.sqrt_le _
    have h2 : ((r * r : Nat) : ℚ) ≤ ((a.floor.toNat : Nat) : ℚ) := by exact_mod_cast this
    rw [hfn] at h2
    exact h2.trans (Int.floor_le a)
  have hr2 : a < (((r + 1) * (r + 1) : Nat) : ℚ) := by
    have : a.floor.toNat < (r + 1) * (r + 1) := Nat.lt_succ_sqrt _
    have h2 : ((a.floor.toNat + 1 : Nat) : ℚ) ≤ (((r + 1) * (r + 1) : Nat) : ℚ) := by exact_mod_cast this
    push_cast at h2 ⊢
    rw [hfn] at h2
    exact lt_of_lt_of_le (Int.lt_floor_add_one a) h2
  set m : ℚ := r + (if ((r * r : Nat) : ℚ) = a then 0 else 1 / 2) with hm
  have hsq : |(m : ℝ) - Real.sqrt a| ≤ 1 / 2 := by
    by_cases hc : ((r * r : Nat) : ℚ) = a
    · have : m = r := by rw [hm, if_pos hc, add_zero]
      have h2 : Real.sqrt a = r := by
        rw [← hc]; push_cast
        exact Real.sqrt_mul_self (by positivity)
      rw [this, h2]; push_cast; rw [sub_self, abs_zero]; norm_num
    · have : m = r + 1 / 2 := by rw [hm, if_neg hc]
      have b1 : (r : ℝ) ≤ Real.sqrt a := by
        refine Real.le_sqrt_of_sq_le ?_
        have : ((r * r : Nat) : ℝ) ≤ (a : ℝ) := by exact_mod_cast hr1
        push_cast at this; rw [sq]; exact this
      have b2 : Real.sqrt a ≤ r + 1 := by
        refine Real.sqrt_le_iff.mpr ⟨by positivity, ?_⟩
        have : (a : ℝ) ≤ (((r + 1) * (r + 1) : Nat) : ℝ) := by exact_mod_cast hr2.le
        push_cast at this; rw [sq]; exact this
      rw [this]; push_cast
      rw [abs_le]; constructor <;> linarith
  have hs26 : (2 : ℝ) ^ 26 ≤ Real.sqrt a := by
    refine Real.le_sqrt_of_sq_le ?_
    have : (((2 : ℚ) ^ (52 : Int) : ℚ) : ℝ) ≤ (a : ℝ) := by exact_mod_cast ha1
    push_cast at this
    refine le_trans (by norm_num) this
  have hsa : Real.sqrt a = Real.sqrt p * (2 : ℝ) ^ k := by
    have h2k : (0 : ℝ) < (2 : ℝ) ^ k := zpow_pos (by norm_num) k
    have : (a : ℝ) = p * ((2 : ℝ) ^ k * (2 : ℝ) ^ k) := by
      rw [ha, pow2_eq]; push_cast; rfl
    rw [this, Real.sqrt_mul (by exact_mod_cast h.le), Real.sqrt_mul_self h2k.le]
  have h2k : (0 : ℝ) < (2 : ℝ) ^ (-k) := zpow_pos (by norm_num) _
  refine ⟨m * pow2 (-k), ?_, ?_, ?_⟩
  · rw [sqrt, if_neg h.ne', if_neg (by decide)]
  · have hm0 : (0 : ℝ) < m := by
      rw [abs_le] at hsq
      norm_num at hs26
      linarith [hsq.1]
    have : 0 < m := by exact_mod_cast hm0
    rw [pow2_eq]; exact mul_pos this (pow2_pos _)
  · have e : ((m * pow2 (-k) : ℚ) : ℝ) - Real.sqrt p = ((m : ℝ) - Real.sqrt a) * (2 : ℝ) ^ (-k) := by
      rw [hsa, pow2_eq, sub_mul, mul_assoc, ← zpow_add₀ (by norm_num)]
      push_cast
      simp
    rw [e, abs_mul, abs_of_pos h2k]
    have h3 : Real.sqrt p = Real.sqrt a * (2 : ℝ) ^ (-k) := by
      rw [hsa, mul_assoc, ← zpow_add₀ (by norm_num)]; simp
    rw [h3, mul_div_right_comm]
    refine mul_le_mul_of_nonneg_right ?_ h2k.le
    refine hsq.trans ?_
    rw [le_div_iff₀ (by norm_num)]
    exact le_trans (by norm_num) hs26

theorem rep_pos_ge {p : ℚ} (h : Rep p) (h0 : 0 < p) : (2 : ℚ) ^ (-149 : Int) ≤ p := by
  obtain ⟨m, e, -, he, rfl⟩ := h
  have hm : 1 ≤ m := by
    rcases Nat.eq_zero_or_pos m with rfl | hm
    · simp at h0
    · exact hm
  have h1 := zpow_le_of_le he
  have h2 : (1 : ℚ) ≤ m := by exact_mod_cast hm
  exact h1.trans (le_mul_of_one_le_left (pow2_pos e).le h2)

/-- `sqrt` is accurate. -/
theorem sqrt_app {p : ℚ} (hr : Rep p) (h : 0 ≤ p) (hl : p < 2 ^ 128) : ∃ r : ℚ, sqrt (fin false p) = fin false r ∧ 0 ≤ r ∧
    |(r : ℝ) - Real.sqrt p| ≤ 7 / 10 ^ 8 * Real.sqrt p := by
  rcases h.eq_or_lt with rfl | h0
  · exact ⟨0, by simp [sqrt], le_refl _, by simp⟩
  · obtain ⟨w, e1, e2, e3⟩ := sqrt_eq h0
    have hs1 : (2 : ℝ) ^ (-75 : Int) ≤ Real.sqrt p := by
      refine Real.le_sqrt_of_sq_le ?_
      have := (Rat.cast_le (K := ℝ)).mpr (rep_pos_ge hr h0)
      push_cast at this
      refine le_trans ?_ this
      norm_num
    have hs2 : Real.sqrt p ≤ 2 ^ 64 := by
      refine Real.sqrt_le_iff.mpr ⟨by positivity, ?_⟩
      have := (Rat.cast_le (K := ℝ)).mpr hl.le
      push_cast at this
      refine this.trans ?_
      norm_num
    have hw : (w : ℝ) < ((2 ^ 127 : ℚ) : ℝ) := by
      rw [abs_le] at e3
      have := e3.2
      norm_num at this hs2 ⊢
      linarith
    obtain ⟨r, f1, f2, f3⟩ := round_rel false e2.le (by exact_mod_cast hw)
    refine ⟨r, by rw [e1, f1], f2, ?_⟩
    have f3' := (Rat.cast_le (K := ℝ)).mpr f3
    push_cast at f3'
    rw [abs_le] at e3 f3' ⊢
    norm_num at e3 f3' hs1 ⊢
    constructor <;> linarith [e3.1, e3.2, f3'.1, f3'.2]

end Ezk.F32

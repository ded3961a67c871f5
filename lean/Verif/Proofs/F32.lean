import Verif.Model.F32
import Mathlib.Tactic.Linarith
import Mathlib.Tactic.Positivity
import Mathlib.Tactic.NormNum
import Mathlib.Tactic.Ring
import Mathlib.Tactic.FieldSimp
import Mathlib.Algebra.Order.Floor.Ring
import Mathlib.Algebra.Order.Round
import Mathlib.Algebra.Order.Field.Power

/-!
# Rounding to binary32: exact cases, error bounds, monotonicity
-/

namespace Ezk.F32

theorem pow2_eq (e : Int) : pow2 e = (2 : ℚ) ^ e := by
  cases e with
  | ofNat n => simp [pow2]
  | negSucc n =>
    simp only [pow2, zpow_negSucc, Rat.mkRat_eq_div]
    push_cast
    rw [one_div]

theorem pow2_pos (e : Int) : 0 < (2 : ℚ) ^ e := zpow_pos (by norm_num) e

theorem exponent_spec {q : ℚ} (h : 0 < q) : (2 : ℚ) ^ exponent q ≤ q ∧ q < (2 : ℚ) ^ (exponent q + 1) := by
  have hn : 0 < q.num := Rat.num_pos.mpr h
  have hd : 0 < q.den := q.den_pos
  have hn0 : q.num.natAbs ≠ 0 := by omega
  have ha := Nat.log2_self_le hn0
  have ha' := Nat.lt_log2_self (n := q.num.natAbs)
  have hb := Nat.log2_self_le (n := q.den) (by omega)
  have hb' := Nat.lt_log2_self (n := q.den)
  set a := Nat.log2 q.num.natAbs with hadef
  set b := Nat.log2 q.den with hbdef
  have hq : q = (q.num.natAbs : ℚ) / q.den := by
    conv_lhs => rw [← Rat.num_div_den q]
    congr 1
    have : (q.num : ℚ) = ((q.num.natAbs : Int) : ℚ) := by rw [Int.natAbs_of_nonneg hn.le]
    rw [this]; rfl
  have A : (2 : ℚ) ^ a ≤ q.num.natAbs := by exact_mod_cast ha
  have A' : (q.num.natAbs : ℚ) < 2 ^ (a + 1) := by exact_mod_cast ha'
  have B : (2 : ℚ) ^ b ≤ q.den := by exact_mod_cast hb
  have B' : (q.den : ℚ) < 2 ^ (b + 1) := by exact_mod_cast hb'
  have hdq : (0 : ℚ) < q.den := by exact_mod_cast hd
  have up : q < (2 : ℚ) ^ ((a : Int) - b + 1) := by
    rw [hq, div_lt_iff₀ hdq]
    calc (q.num.natAbs : ℚ) < 2 ^ (a + 1) := A'
      _ = (2 : ℚ) ^ ((a : Int) - b + 1) * 2 ^ b := by
        rw [← zpow_natCast (2 : ℚ) b, ← zpow_add₀ (by norm_num), ← zpow_natCast]
        congr 1; push_cast; ring
      _ ≤ _ := by gcongr
  have lo : (2 : ℚ) ^ ((a : Int) - b - 1) ≤ q := by
    rw [hq, le_div_iff₀ hdq]
    calc (2 : ℚ) ^ ((a : Int) - b - 1) * q.den ≤ (2 : ℚ) ^ ((a : Int) - b - 1) * 2 ^ (b + 1) := by gcongr
      _ = 2 ^ a := by
        rw [← zpow_natCast (2 : ℚ) (b + 1), ← zpow_add₀ (by norm_num), ← zpow_natCast]
        congr 1; push_cast; ring
      _ ≤ _ := A
  unfold exponent
  simp only [← hadef, ← hbdef, pow2_eq]
  split
  · rename_i hk
    exact ⟨hk, up⟩
  · rename_i hk
    refine ⟨lo, ?_⟩
    have : (a : Int) - b - 1 + 1 = a - b := by ring
    rw [this]
    exact not_le.mp hk

theorem zpow_lt_of_lt {a b : Int} (h : (2 : ℚ) ^ a < (2 : ℚ) ^ b) : a < b :=
  (zpow_lt_zpow_iff_right₀ (by norm_num : (1 : ℚ) < 2)).mp h

theorem zpow_le_of_le {a b : Int} (h : a ≤ b) : (2 : ℚ) ^ a ≤ (2 : ℚ) ^ b :=
  zpow_le_zpow_right₀ (by norm_num : (1 : ℚ) ≤ 2) h

theorem exponent_unique {q : ℚ} {e : Int} (h1 : (2 : ℚ) ^ e ≤ q) (h2 : q < (2 : ℚ) ^ (e + 1)) : exponent q = e := by
  have hq : 0 < q := lt_of_lt_of_le (pow2_pos e) h1
  obtain ⟨a, b⟩ := exponent_spec hq
  have := zpow_lt_of_lt (lt_of_le_of_lt a h2)
  have := zpow_lt_of_lt (lt_of_le_of_lt h1 b)
  omega

theorem exponent_lt {q : ℚ} {e : Int} (h : 0 < q) (h2 : q < (2 : ℚ) ^ e) : exponent q < e :=
  zpow_lt_of_lt (lt_of_le_of_lt (exponent_spec h).1 h2)

theorem exponent_ge {q : ℚ} {e : Int} (h2 : (2 : ℚ) ^ e ≤ q) : e ≤ exponent q := by
  have := zpow_lt_of_lt (lt_of_le_of_lt h2 (exponent_spec (lt_of_lt_of_le (pow2_pos e) h2)).2)
  omega

theorem exponent_mono {p q : ℚ} (h : 0 < p) (hpq : p ≤ q) : exponent p ≤ exponent q :=
  exponent_ge (le_trans (exponent_spec h).1 hpq)

theorem ulp_eq (q : ℚ) : ulp q = (2 : ℚ) ^ (max (exponent q) (-126) - 23) := pow2_eq _

theorem ulp_pos (q : ℚ) : 0 < ulp q := by rw [ulp_eq]; exact pow2_pos _

theorem limit_eq : limit = (2 : ℚ) ^ (128 : Int) := pow2_eq _

/-! ## Rounding to an integer -/

theorem rat_floor (q : ℚ) : q.floor = ⌊q⌋ := rfl

theorem rne_cases (q : ℚ) :
    (q - ⌊q⌋ ≤ 1 / 2 ∧ rne q = ⌊q⌋) ∨ (1 / 2 ≤ q - ⌊q⌋ ∧ rne q = ⌊q⌋ + 1) := by
  have e : rne q = if q - ⌊q⌋ < 1 / 2 then ⌊q⌋ else if 1 / 2 < q - ⌊q⌋ then ⌊q⌋ + 1
      else if ⌊q⌋ % 2 = 0 then ⌊q⌋ else ⌊q⌋ + 1 := rfl
  rw [e]
  by_cases h1 : q - ⌊q⌋ < 1 / 2
  · rw [if_pos h1]; exact Or.inl ⟨le_of_lt h1, rfl⟩
  · rw [if_neg h1]
    by_cases h2 : 1 / 2 < q - ⌊q⌋
    · rw [if_pos h2]; exact Or.inr ⟨le_of_lt h2, rfl⟩
    · rw [if_neg h2]
      by_cases h3 : ⌊q⌋ % 2 = 0
      · rw [if_pos h3]; exact Or.inl ⟨not_lt.mp h2, rfl⟩
      · rw [if_neg h3]; exact Or.inr ⟨not_lt.mp h1, rfl⟩

theorem rne_near (q : ℚ) : |(rne q : ℚ) - q| ≤ 1 / 2 := by
  have hl := Int.floor_le q
  have hu := Int.lt_floor_add_one q
  rw [abs_le]
  rcases rne_cases q with ⟨h, e⟩ | ⟨h, e⟩ <;> rw [e] <;> push_cast <;> constructor <;> linarith

theorem rne_of_near {q : ℚ} {n : Int} (h : |q - n| < 1 / 2) : rne q = n := by
  have h2 := rne_near q
  rw [abs_lt] at h
  rw [abs_le] at h2
  have a : (rne q : ℚ) < n + 1 := by linarith [h.2, h2.2]
  have b : (n : ℚ) < rne q + 1 := by linarith [h.1, h2.1]
  have a' : rne q < n + 1 := by exact_mod_cast a
  have b' : n < rne q + 1 := by exact_mod_cast b
  omega

theorem rne_int (n : Int) : rne (n : ℚ) = n := rne_of_near (by simp)

theorem rne_mono {p q : ℚ} (h : p ≤ q) : rne p ≤ rne q := by
  by_contra hc
  push Not at hc
  have hp := rne_near p
  have hq := rne_near q
  rw [abs_le] at hp hq
  have hc' : (rne q : ℚ) + 1 ≤ rne p := by exact_mod_cast hc
  -- both are a tie at the same point
  have e : p = q := by linarith [hp.2, hq.1]
  rw [e] at hc
  exact lt_irrefl _ hc

theorem rne_le {q : ℚ} {n : Int} (h : q ≤ n) : rne q ≤ n := by
  have := rne_mono h
  rwa [rne_int] at this

theorem le_rne {q : ℚ} {n : Int} (h : (n : ℚ) ≤ q) : n ≤ rne q := by
  have := rne_mono h
  rwa [rne_int] at this

theorem rne_nonneg {q : ℚ} (h : 0 ≤ q) : 0 ≤ rne q := le_rne (n := 0) (by exact_mod_cast h)

theorem trunc_eq_floor {q : ℚ} (h : 0 ≤ q) : trunc q = ⌊q⌋ := by
  unfold trunc
  rw [if_pos h, rat_floor]

theorem trunc_neg {q : ℚ} (h : q < 0) : trunc q = ⌈q⌉ := by
  unfold trunc
  rw [if_neg (not_le.mpr h), rat_floor, Int.floor_neg, neg_neg]

theorem trunc_int (n : Int) : trunc (n : ℚ) = n := by
  rcases le_or_gt 0 n with h | h
  · rw [trunc_eq_floor (by exact_mod_cast h), Int.floor_intCast]
  · rw [trunc_neg (by exact_mod_cast h), Int.ceil_intCast]

/-! ## Rounding a magnitude -/

/-- The rounded magnitude. -/
def rnd (q : ℚ) : ℚ := if q = 0 then 0 else rne (q / ulp q) * ulp q

theorem round_eq (neg : Bool) (q : ℚ) : round neg q = if limit ≤ rnd q then inf neg else fin neg (rnd q) := by
  unfold round rnd
  split
  · have : ¬ limit ≤ (0 : ℚ) := by rw [limit_eq]; exact not_le.mpr (pow2_pos _)
    rw [if_neg this]
  · rfl

theorem rnd_zero : rnd 0 = 0 := by simp [rnd]

theorem rnd_pos_eq {q : ℚ} (h : 0 < q) : rnd q = rne (q / ulp q) * ulp q := by
  unfold rnd; rw [if_neg h.ne']

theorem rnd_nonneg {q : ℚ} (h : 0 ≤ q) : 0 ≤ rnd q := by
  rcases h.eq_or_lt with rfl | h
  · rw [rnd_zero]
  · rw [rnd_pos_eq h]
    have := rne_nonneg (div_nonneg h.le (ulp_pos q).le)
    have h2 : (0 : ℚ) ≤ rne (q / ulp q) := by exact_mod_cast this
    exact mul_nonneg h2 (ulp_pos q).le

theorem rnd_near_ulp {q : ℚ} (h : 0 < q) : |rnd q - q| ≤ ulp q / 2 := by
  rw [rnd_pos_eq h]
  have hu := ulp_pos q
  have e : (rne (q / ulp q) : ℚ) * ulp q - q = ((rne (q / ulp q) : ℚ) - q / ulp q) * ulp q := by
    field_simp
  rw [e, abs_mul, abs_of_pos hu]
  have := rne_near (q / ulp q)
  calc _ ≤ 1 / 2 * ulp q := by gcongr
    _ = _ := by ring

/-- The error of one rounding. -/
theorem rnd_error {q : ℚ} (h : 0 ≤ q) : |rnd q - q| ≤ q / 2 ^ 24 + 1 / 2 ^ 150 := by
  rcases h.eq_or_lt with rfl | h
  · rw [rnd_zero]; norm_num
  · refine le_trans (rnd_near_ulp h) ?_
    rw [ulp_eq]
    rcases le_total (exponent q) (-126) with hc | hc
    · rw [max_eq_right hc]
      have : (2 : ℚ) ^ ((-126 : Int) - 23) / 2 = 1 / 2 ^ 150 := by norm_num
      rw [this]
      have : 0 ≤ q / 2 ^ 24 := by positivity
      linarith
    · rw [max_eq_left hc]
      have e : (2 : ℚ) ^ (exponent q - 23) / 2 = (2 : ℚ) ^ (exponent q) / 2 ^ 24 := by
        rw [zpow_sub₀ (by norm_num)]; norm_num; ring
      rw [e]
      have := (exponent_spec h).1
      have h3 : (2 : ℚ) ^ exponent q / 2 ^ 24 ≤ q / 2 ^ 24 := by gcongr
      have : (0 : ℚ) < 1 / 2 ^ 150 := by positivity
      linarith

/-- Representable magnitudes (no upper limit). -/
def Rep (q : ℚ) : Prop := ∃ (m : Nat) (e : Int), m < 2 ^ 24 ∧ -149 ≤ e ∧ q = m * (2 : ℚ) ^ e

theorem rep_zero : Rep 0 := ⟨0, 0, by norm_num, by norm_num, by simp⟩

theorem rep_nat {n : Nat} (h : n < 2 ^ 24) : Rep (n : ℚ) := ⟨n, 0, h, by norm_num, by simp⟩

theorem rnd_rep {q : ℚ} (h : Rep q) : rnd q = q := by
  obtain ⟨m, e, hm, he, rfl⟩ := h
  rcases Nat.eq_zero_or_pos m with rfl | hm0
  · simp [rnd]
  · have hmq : (0 : ℚ) < m := by exact_mod_cast hm0
    have hq : (0 : ℚ) < m * (2 : ℚ) ^ e := mul_pos hmq (pow2_pos e)
    rw [rnd_pos_eq hq]
    have hlt : (m : ℚ) * (2 : ℚ) ^ e < (2 : ℚ) ^ (e + 24) := by
      rw [zpow_add₀ (by norm_num), mul_comm]
      have : (m : ℚ) < 2 ^ 24 := by exact_mod_cast hm
      have h3 := pow2_pos e
      have : (2 : ℚ) ^ e * m < (2 : ℚ) ^ e * 2 ^ 24 := by gcongr
      simpa using this
    have hE := exponent_lt hq hlt
    set u : Int := max (exponent ((m : ℚ) * (2 : ℚ) ^ e)) (-126) - 23 with hu
    have hue : u ≤ e := by omega
    have e1 : ulp ((m : ℚ) * (2 : ℚ) ^ e) = (2 : ℚ) ^ u := ulp_eq _
    rw [e1]
    obtain ⟨k, hk⟩ : ∃ k : Nat, e = u + k := ⟨(e - u).toNat, by omega⟩
    have e2 : (m : ℚ) * (2 : ℚ) ^ e / (2 : ℚ) ^ u = ((m * 2 ^ k : Nat) : Int) := by
      rw [hk, zpow_add₀ (by norm_num)]
      have := (pow2_pos u).ne'
      field_simp
      push_cast
      rw [zpow_natCast]
    rw [e2, rne_int, ← e2]
    have := (pow2_pos u).ne'
    field_simp

theorem rnd_nat {n : Nat} (h : n < 2 ^ 24) : rnd (n : ℚ) = n := rnd_rep (rep_nat h)

/-- Upper end of a binade. -/
theorem rnd_le_binade {q : ℚ} {e : Int} (h0 : 0 ≤ q) (he : -149 ≤ e) (h : q ≤ (2 : ℚ) ^ e) : rnd q ≤ (2 : ℚ) ^ e := by
  rcases h0.eq_or_lt with rfl | h0
  · rw [rnd_zero]; exact (pow2_pos e).le
  · rcases h.eq_or_lt with rfl | h
    · rw [rnd_rep ⟨1, e, by norm_num, he, by simp⟩]
    · rw [rnd_pos_eq h0]
      have hE := exponent_lt h0 h
      set u : Int := max (exponent q) (-126) - 23 with hu
      have e1 : ulp q = (2 : ℚ) ^ u := ulp_eq _
      rw [e1]
      rcases le_or_gt u e with hue | hue
      · obtain ⟨k, hk⟩ : ∃ k : Nat, e = u + k := ⟨(e - u).toNat, by omega⟩
        have e2 : (2 : ℚ) ^ e = ((2 ^ k : Nat) : Int) * (2 : ℚ) ^ u := by
          rw [hk, zpow_add₀ (by norm_num)]; push_cast; rw [zpow_natCast]; ring
        have h3 : q / (2 : ℚ) ^ u ≤ ((2 ^ k : Nat) : Int) := by
          rw [div_le_iff₀ (pow2_pos u), ← e2]; exact h.le
        have h4 := rne_le h3
        have h5 : (rne (q / (2 : ℚ) ^ u) : ℚ) ≤ (((2 ^ k : Nat) : Int) : ℚ) := by exact_mod_cast h4
        rw [e2]
        have := pow2_pos u
        gcongr
      · omega

/-- Lower end of a binade. -/
theorem le_rnd_binade {q : ℚ} {e : Int} (he : -126 ≤ e) (h : (2 : ℚ) ^ e ≤ q) : (2 : ℚ) ^ e ≤ rnd q := by
  have h0 : 0 < q := lt_of_lt_of_le (pow2_pos e) h
  rw [rnd_pos_eq h0]
  have hE := exponent_ge h
  have hs := (exponent_spec h0).1
  have e1 : ulp q = (2 : ℚ) ^ (exponent q - 23) := by rw [ulp_eq, max_eq_left (by omega)]
  have e2 : (2 : ℚ) ^ exponent q = ((2 ^ 23 : Nat) : Int) * (2 : ℚ) ^ (exponent q - 23) := by
    rw [zpow_sub₀ (by norm_num)]; push_cast; norm_num; field_simp
  have h3 : (((2 ^ 23 : Nat) : Int) : ℚ) ≤ q / (2 : ℚ) ^ (exponent q - 23) := by
    rw [le_div_iff₀ (pow2_pos _), ← e2]; exact hs
  have h4 := le_rne h3
  have h5 : (((2 ^ 23 : Nat) : Int) : ℚ) ≤ rne (q / (2 : ℚ) ^ (exponent q - 23)) := by exact_mod_cast h4
  rw [e1]
  calc (2 : ℚ) ^ e ≤ (2 : ℚ) ^ exponent q := zpow_le_of_le hE
    _ = _ := e2
    _ ≤ _ := by
      have := pow2_pos (exponent q - 23)
      gcongr

/-- Rounding preserves order. -/
theorem rnd_mono {p q : ℚ} (h0 : 0 ≤ p) (h : p ≤ q) : rnd p ≤ rnd q := by
  rcases h0.eq_or_lt with rfl | h0
  · rw [rnd_zero]; exact rnd_nonneg h
  · have hq : 0 < q := lt_of_lt_of_le h0 h
    have hE := exponent_mono h0 h
    rcases eq_or_ne (max (exponent p) (-126)) (max (exponent q) (-126)) with hu | hu
    · have e : ulp p = ulp q := by rw [ulp_eq, ulp_eq, hu]
      rw [rnd_pos_eq h0, rnd_pos_eq hq, e]
      have hpos := ulp_pos q
      have h3 : p / ulp q ≤ q / ulp q := by gcongr
      have h4 := rne_mono h3
      have h5 : (rne (p / ulp q) : ℚ) ≤ rne (q / ulp q) := by exact_mod_cast h4
      gcongr
    · have h1 : -126 < exponent q := by omega
      have h2 : exponent p < exponent q := by omega
      calc rnd p ≤ (2 : ℚ) ^ exponent q := by
            refine rnd_le_binade h0.le (by omega) ?_
            exact le_trans (exponent_spec h0).2.le (zpow_le_of_le (by omega))
        _ ≤ rnd q := le_rnd_binade (by omega) (exponent_spec hq).1

theorem rnd_le_nat {q : ℚ} {n : Nat} (h0 : 0 ≤ q) (hn : n < 2 ^ 24) (h : q ≤ n) : rnd q ≤ n := by
  have := rnd_mono h0 h
  rwa [rnd_nat hn] at this

theorem nat_le_rnd {q : ℚ} {n : Nat} (hn : n < 2 ^ 24) (h : (n : ℚ) ≤ q) : (n : ℚ) ≤ rnd q := by
  have := rnd_mono (by positivity) h
  rwa [rnd_nat hn] at this

/-- A number closer to the integer `n` than half the spacing there is rounded to `n`; `n` not a power of two. -/
theorem rnd_to_nat {q : ℚ} {n : Nat} {j : Nat} (hj : j < 23) (h1 : 2 ^ j < n) (h2 : n < 2 ^ (j + 1))
    (h : |q - n| < (2 : ℚ) ^ ((j : Int) - 24)) : rnd q = n := by
  rw [abs_lt] at h
  have hs : (2 : ℚ) ^ ((j : Int) - 24) ≤ 1 := by
    have : (2 : ℚ) ^ ((j : Int) - 24) ≤ (2 : ℚ) ^ (0 : Int) := zpow_le_of_le (by omega)
    simpa using this
  have h1' : (2 : ℚ) ^ j + 1 ≤ n := by exact_mod_cast h1
  have h2' : (n : ℚ) + 1 ≤ 2 ^ (j + 1) := by exact_mod_cast h2
  have lo : (2 : ℚ) ^ (j : Int) ≤ q := by rw [zpow_natCast]; linarith [h.1]
  have hi : q < (2 : ℚ) ^ ((j : Int) + 1) := by
    have : (2 : ℚ) ^ ((j : Int) + 1) = 2 ^ (j + 1) := by rw [← zpow_natCast]; push_cast; rfl
    rw [this]; linarith [h.2]
  have hE := exponent_unique lo hi
  have hq : 0 < q := lt_of_lt_of_le (pow2_pos _) lo
  have hu : ulp q = (2 : ℚ) ^ ((j : Int) - 23) := by rw [ulp_eq, hE, max_eq_left (by omega)]
  have hup : (0 : ℚ) < (2 : ℚ) ^ ((j : Int) - 23) := pow2_pos _
  rw [rnd_pos_eq hq, hu]
  have e24 : (2 : ℚ) ^ ((j : Int) - 24) = (2 : ℚ) ^ ((j : Int) - 23) / 2 := by
    have : (j : Int) - 24 = (j - 23) - 1 := by ring
    rw [this, zpow_sub_one₀ (by norm_num)]; ring
  obtain ⟨k, hk⟩ : ∃ k : Nat, (k : Int) = 23 - j := ⟨23 - j, by omega⟩
  have en : ((n * 2 ^ k : Nat) : Int) * (2 : ℚ) ^ ((j : Int) - 23) = n := by
    have : (j : Int) - 23 = -(k : Int) := by omega
    rw [this, zpow_neg, zpow_natCast]
    push_cast
    field_simp
  have : rne (q / (2 : ℚ) ^ ((j : Int) - 23)) = ((n * 2 ^ k : Nat) : Int) := by
    apply rne_of_near
    have e : q / (2 : ℚ) ^ ((j : Int) - 23) - (((n * 2 ^ k : Nat) : Int) : ℚ)
        = (q - n) / (2 : ℚ) ^ ((j : Int) - 23) := by
      rw [← en]; field_simp
    rw [e, abs_div, abs_of_pos hup, div_lt_iff₀ hup, abs_lt]
    rw [e24] at h
    constructor <;> linarith [h.1, h.2]
  rw [this, en]

/-! ## Operations on values -/

theorem ofNat_eq {n : Nat} (h : n < 2 ^ 24) : (FOps.ofNat n : F32) = fin false n := by
  change ofRat false (n : ℚ) = _
  unfold ofRat
  split
  · rename_i h0; rw [h0]
  · have h1 : ¬ (n : ℚ) < 0 := not_lt.mpr (by positivity)
    have h2 : |(n : ℚ)| = n := abs_of_nonneg (by positivity)
    rw [decide_eq_false h1, h2, round_eq, rnd_nat h, if_neg]
    rw [limit_eq, not_le]
    calc (n : ℚ) < 2 ^ 24 := by exact_mod_cast h
      _ < _ := by norm_num

theorem div_nat {n M : Nat} (hn : n < 2 ^ 24) (hM : 0 < M) (hM' : M < 2 ^ 24) :
    div (FOps.ofNat n) (FOps.ofNat M) = fin false (rnd ((n : ℚ) / M)) := by
  rw [ofNat_eq hn, ofNat_eq hM']
  have hm : (M : ℚ) ≠ 0 := by exact_mod_cast hM.ne'
  have h1 : (1 : ℚ) ≤ M := by exact_mod_cast hM
  simp only [div, if_neg hm, Bool.xor_self]
  rw [round_eq, if_neg]
  rw [limit_eq, not_le]
  have : rnd ((n : ℚ) / M) ≤ n := rnd_le_nat (by positivity) hn (div_le_self (by positivity) h1)
  refine lt_of_le_of_lt this ?_
  calc (n : ℚ) < 2 ^ 24 := by exact_mod_cast hn
    _ < _ := by norm_num

theorem fin_mul_nat {p : ℚ} {M : Nat} (h0 : 0 ≤ p) (hp : p ≤ 2 ^ 24) (hM' : M < 2 ^ 24) :
    mul (fin false p) (FOps.ofNat M) = fin false (rnd (p * M)) := by
  rw [ofNat_eq hM']
  simp only [mul, Bool.xor_self]
  rw [round_eq, if_neg]
  rw [limit_eq, not_le]
  have hM : (M : ℚ) ≤ 2 ^ 24 := by exact_mod_cast hM'.le
  have h : p * M ≤ (2 : ℚ) ^ (48 : Int) := by
    calc p * M ≤ 2 ^ 24 * 2 ^ 24 := by gcongr
      _ = _ := by norm_num
  refine lt_of_le_of_lt (rnd_le_binade (by positivity) (by norm_num) h) (by norm_num)

/-- A sample divided by the largest sample value and multiplied by it again, in binary32. -/
theorem scale_unscale {n M : Nat} (hn : n < 2 ^ 24) (hM : 0 < M) (hM' : M < 2 ^ 24) :
    mul (div (FOps.ofNat n) (FOps.ofNat M)) (FOps.ofNat M) = fin false (rnd (rnd ((n : ℚ) / M) * M)) := by
  rw [div_nat hn hM hM', fin_mul_nat (rnd_nonneg (by positivity)) _ hM']
  have h1 : (1 : ℚ) ≤ M := by exact_mod_cast hM
  have : rnd ((n : ℚ) / M) ≤ n := rnd_le_nat (by positivity) hn (div_le_self (by positivity) h1)
  have h3 : (n : ℚ) ≤ 2 ^ 24 := by exact_mod_cast hn.le
  linarith

/-- Two roundings away from `n`. -/
theorem unscale_near {n M : Nat} (hn : n < 2 ^ 16) (hM : 0 < M) (hM' : M < 2 ^ 16) :
    |rnd (rnd ((n : ℚ) / M) * M) - n| < 1 / 2 := by
  have hMq : (0 : ℚ) < M := by exact_mod_cast hM
  have e1 := rnd_error (q := (n : ℚ) / M) (by positivity)
  have p0 := rnd_nonneg (q := (n : ℚ) / M) (by positivity)
  set p := rnd ((n : ℚ) / M) with hp
  have e2 := rnd_error (q := p * M) (by positivity)
  have hn' : (n : ℚ) ≤ 2 ^ 16 := by exact_mod_cast hn.le
  have hM2 : (M : ℚ) ≤ 2 ^ 16 := by exact_mod_cast hM'.le
  have e3 : |p * M - n| ≤ n / 2 ^ 24 + M / 2 ^ 150 := by
    have : p * M - n = (p - n / M) * M := by field_simp
    rw [this, abs_mul, abs_of_pos hMq]
    calc |p - n / M| * M ≤ ((n : ℚ) / M / 2 ^ 24 + 1 / 2 ^ 150) * M := by gcongr
      _ = _ := by field_simp
  rw [abs_le] at e2 e3
  rw [abs_lt]
  constructor <;> linarith [e2.1, e2.2, e3.1, e3.2]

/-- Every sample of a format with `k` bits survives the two roundings exactly. -/
theorem unscale_exact {n k : Nat} (hk0 : 0 < k) (hk : k ≤ 16) (hn : n ≤ 2 ^ k - 1)
    (hpow : ∀ j < k, rnd (rnd (((2 ^ j : Nat) : ℚ) / ((2 ^ k - 1 : Nat) : ℚ)) * ((2 ^ k - 1 : Nat) : ℚ))
      = ((2 ^ j : Nat) : ℚ)) :
    rnd (rnd ((n : ℚ) / ((2 ^ k - 1 : Nat) : ℚ)) * ((2 ^ k - 1 : Nat) : ℚ)) = n := by
  have hkk : 2 ^ k ≤ 2 ^ 16 := Nat.pow_le_pow_right (by norm_num) hk
  have hk1 : 2 ^ 1 ≤ 2 ^ k := Nat.pow_le_pow_right (by norm_num) hk0
  set M : Nat := 2 ^ k - 1 with hM
  have hM0 : 0 < M := by omega
  have hMq : (0 : ℚ) < M := by exact_mod_cast hM0
  have hMk : (M : ℚ) + 1 = 2 ^ k := by
    have : M + 1 = 2 ^ k := by omega
    exact_mod_cast this
  rcases Nat.eq_zero_or_pos n with rfl | hn0
  · simp [rnd_zero]
  rcases hn.eq_or_lt with rfl | hn1
  · rw [div_self hMq.ne']
    have : rnd 1 = 1 := by simpa using rnd_nat (n := 1) (by norm_num)
    rw [this, one_mul, rnd_nat (by omega)]
  set j := Nat.log2 n with hj
  have h1 : 2 ^ j ≤ n := Nat.log2_self_le (by omega)
  have h2 : n < 2 ^ (j + 1) := Nat.lt_log2_self
  have hjk : j < k := by
    by_contra hc
    have : 2 ^ k ≤ 2 ^ j := Nat.pow_le_pow_right (by norm_num) (by omega)
    omega
  rcases h1.eq_or_lt with h1 | h1
  · rw [← h1]; exact hpow j hjk
  refine rnd_to_nat (j := j) (by omega) h1 h2 ?_
  have h1q : (2 : ℚ) ^ j ≤ n := by exact_mod_cast h1.le
  have h2q : (n : ℚ) + 1 ≤ 2 ^ (j + 1) := by exact_mod_cast h2
  have hnM : (n : ℚ) + 1 ≤ M := by exact_mod_cast hn1
  have lo : (2 : ℚ) ^ ((j : Int) - k) ≤ n / M := by
    rw [zpow_sub₀ (by norm_num), zpow_natCast, zpow_natCast, div_le_div_iff₀ (by positivity) hMq]
    have : (M : ℚ) ≤ 2 ^ k := by linarith
    gcongr
  have hi : (n : ℚ) / M < (2 : ℚ) ^ ((j : Int) - k + 1) := by
    have e : (2 : ℚ) ^ ((j : Int) - k + 1) = 2 ^ (j + 1) / 2 ^ k := by
      have : (j : Int) - k + 1 = ((j + 1 : Nat) : Int) - (k : Nat) := by push_cast; ring
      rw [this, zpow_sub₀ (by norm_num), zpow_natCast, zpow_natCast]
    rw [e, div_lt_div_iff₀ hMq (by positivity), ← hMk]
    -- `n < M`, and `n ≤ 2 ^ (j + 1) - 1`
    nlinarith
  have hE := exponent_unique lo hi
  have hpos : 0 < (n : ℚ) / M := lt_of_lt_of_le (pow2_pos _) lo
  have hu : ulp ((n : ℚ) / M) = (2 : ℚ) ^ ((j : Int) - k - 23) := by rw [ulp_eq, hE, max_eq_left (by omega)]
  have hn := rnd_near_ulp hpos
  rw [hu] at hn
  have e : rnd ((n : ℚ) / M) * M - n = (rnd ((n : ℚ) / M) - n / M) * M := by field_simp
  rw [e, abs_mul, abs_of_pos hMq]
  have e24 : (2 : ℚ) ^ ((j : Int) - 24) = (2 : ℚ) ^ ((j : Int) - k - 23) / 2 * 2 ^ k := by
    have : (j : Int) - 24 = (j - k - 23) - 1 + (k : Nat) := by ring
    rw [this, zpow_add₀ (by norm_num), zpow_sub_one₀ (by norm_num), zpow_natCast]
    ring
  rw [e24]
  have hs : (0 : ℚ) < (2 : ℚ) ^ ((j : Int) - k - 23) / 2 := by
    have := pow2_pos ((j : Int) - k - 23)
    linarith
  calc _ ≤ (2 : ℚ) ^ ((j : Int) - k - 23) / 2 * M := by gcongr
    _ < _ := by
      have : (M : ℚ) < 2 ^ k := by linarith
      gcongr

set_option maxRecDepth 100000 in
theorem unscale_pow : ∀ k ∈ [8, 10, 12], ∀ j < k,
    rnd (rnd (((2 ^ j : Nat) : ℚ) / ((2 ^ k - 1 : Nat) : ℚ)) * ((2 ^ k - 1 : Nat) : ℚ)) = ((2 ^ j : Nat) : ℚ) := by
  decide +kernel

end Ezk.F32

import Verif.Spec.Standards
import Verif.Proofs.PowApp

/-!
# The formulas of the code compared with those of the standards
-/

namespace Ezk
open FOps Spec F32

/-- Nearby exponents. -/
theorem rpow_exponents {q a b : ℝ} (h0 : 0 ≤ q) (h1 : q ≤ 1) (ha : 0 < a) (hb : 0 < b) :
    |q ^ a - q ^ b| ≤ |a - b| / min a b := by
  wlog h : a ≤ b generalizing a b
  · rw [abs_sub_comm, abs_sub_comm a, min_comm]
    exact this hb ha (not_le.mp h).le
  rw [min_eq_left h]
  rcases h0.eq_or_lt with rfl | hq
  · rw [Real.zero_rpow ha.ne', Real.zero_rpow hb.ne']; simp; positivity
  have h2 : q ^ b ≤ q ^ a := Real.rpow_le_rpow_of_exponent_ge hq h1 h
  rw [abs_of_nonneg (by linarith), abs_sub_comm, abs_of_nonneg (by linarith)]
  -- q^a - q^b = q^a (1 - q^(b-a)) ≤ q^a (b-a) (-log q) ≤ (b-a)/a
  have e : q ^ b = q ^ a * q ^ (b - a) := by rw [← Real.rpow_add hq]; congr 1; ring
  have h3 : 1 + (b - a) * Real.log q ≤ q ^ (b - a) := by
    rw [Real.rpow_def_of_pos hq]
    have := Real.add_one_le_exp (Real.log q * (b - a))
    linarith
  have h4 := neg_log_rpow hq ha
  have hqa : 0 ≤ q ^ a := Real.rpow_nonneg h0 _
  have h5 : (1 - q ^ a) / a ≤ 1 / a := div_le_div_of_nonneg_right (by linarith) ha.le
  rw [e]
  have h6 : q ^ a - q ^ a * q ^ (b - a) ≤ (b - a) * (-Real.log q * q ^ a) := by nlinarith
  refine h6.trans ((mul_le_mul_of_nonneg_left (h4.trans h5) (by linarith)).trans (le_of_eq ?_))
  ring

variable {ar : Arith ℝ} (h : Exact ar)
include h

section
open Standard

omit h in
theorem hlg_c : |Standard.c - 0.5599107| ≤ 1 / 10 ^ 7 := by
  have hp : (0 : ℝ) < 4 * Standard.a := by unfold Standard.a; norm_num
  -- log (4a) is near -0.33500...
  have l1 : -0.33501 ≤ Real.log (4 * Standard.a) := by
    rw [Real.le_log_iff_exp_le hp]
    refine exp_le (by rw [abs_le]; norm_num) ?_
    rw [abs_of_neg (by norm_num)]
    unfold Standard.a; norm_num
  have l2 : Real.log (4 * Standard.a) ≤ -0.3350096 := by
    rw [Real.log_le_iff_le_exp hp]
    refine le_exp (by rw [abs_le]; norm_num) ?_
    rw [abs_of_neg (by norm_num)]
    unfold Standard.a; norm_num
  unfold Standard.c
  unfold Standard.a at *
  rw [abs_le]
  norm_num at *
  constructor <;> linarith

theorem std_enc_hlg {x : ℝ} (h0 : 0 ≤ x) :
    |encodeTransfer ar .BT2100HLG x - toSignal .BT2100HLG x| ≤ 1 / 10 ^ 7 := by
  rw [enc_hlg h, max_eq_left h0]
  simp only [toSignal]
  split
  · rw [mul_comm]; simp
  · have hb : Standard.b = 0.28466892 := by unfold Standard.b Standard.a; norm_num
    have hc := hlg_c
    rw [hb]
    have e : 0.17883277 * Real.log (12 * x - 0.28466892) + 0.5599107 - (Standard.a * Real.log (12 * x - 0.28466892) + Standard.c) =
        -(Standard.c - 0.5599107) := by unfold Standard.a; ring
    rw [e, abs_neg]; exact hc

theorem std_dec_hlg {x : ℝ} (h0 : 0 ≤ x) (h1 : x ≤ 1 + 3 / 10 ^ 6) :
    |decodeTransfer ar .BT2100HLG x - toLight .BT2100HLG x| ≤ 1 / 10 ^ 6 := by
  rw [dec_hlg h, max_eq_left h0]
  simp only [toLight]
  split
  · simp
  · have hb : Standard.b = 0.28466892 := by unfold Standard.b Standard.a; norm_num
    have hc := abs_le.mp hlg_c
    rw [hb]
    have ha : Standard.a = 0.17883277 := rfl
    rw [ha]
    set t := (x - 0.5599107) / 0.17883277 with ht
    have hd : |(x - Standard.c) / 0.17883277 - t| ≤ 6 / 10 ^ 7 := by
      rw [ht, ← sub_div, abs_div, abs_of_pos (by norm_num : (0 : ℝ) < 0.17883277), div_le_iff₀ (by norm_num)]
      rw [abs_le]
      have h3 := hc.1
      have h4 := hc.2
      norm_num at h3 h4 ⊢
      constructor <;> linarith
    have ht1 : t ≤ 5 / 2 := by rw [ht, div_le_iff₀ (by norm_num)]; norm_num at h1 ⊢; linarith
    have hcl := exp_close hd (by norm_num)
    have hexp : Real.exp t ≤ 122 / 10 := by
      refine (Real.exp_le_exp.mpr ht1).trans ?_
      have e1 : Real.exp (5 / 2) ^ 2 = Real.exp 1 ^ 5 := by
        rw [← Real.exp_nat_mul, ← Real.exp_nat_mul]; norm_num
      have e2 : Real.exp 1 ^ 5 ≤ (122 / 10) ^ 2 := by
        refine (pow_le_pow_left₀ (Real.exp_pos 1).le Real.exp_one_lt_d9.le 5).trans (by norm_num)
      exact le_of_sq_le_sq (by rw [e1]; exact e2) (by norm_num)
    have h4 : (101 / 100 * (6 / 10 ^ 7) * Real.exp t : ℝ) ≤ 101 / 100 * (6 / 10 ^ 7) * (122 / 10) :=
      mul_le_mul_of_nonneg_left hexp (by norm_num)
    have h5 := abs_le.mp (hcl.trans h4)
    have h6 := h5.1
    have h7 := h5.2
    rw [abs_le]
    norm_num at h6 h7 ⊢
    constructor <;> linarith

theorem std_enc_sdr {x : ℝ} (h0 : 0 ≤ x) (h2 : x ≤ 2) :
    |encodeTransfer ar .SDR x - toSignal .SDR x| ≤ 3 / 10 ^ 4 := by
  rw [enc_sdr h]
  simp only [toSignal]
  have hα : Standard.α = 1.099296826809442 := rfl
  have hβ : Standard.β = 0.018053968510807 := rfl
  rw [hα, hβ]
  have hp : 0 ≤ x ^ (0.45 : ℝ) := Real.rpow_nonneg h0 _
  have hp2 : x ^ (0.45 : ℝ) ≤ 2 := by
    calc x ^ (0.45 : ℝ) ≤ (2 : ℝ) ^ (0.45 : ℝ) := Real.rpow_le_rpow h0 h2 (by norm_num)
      _ ≤ (2 : ℝ) ^ (1 : ℝ) := Real.rpow_le_rpow_of_exponent_le (by norm_num) (by norm_num)
      _ = 2 := Real.rpow_one 2
  by_cases h3 : x < 0.018053968510807
  · rw [if_pos (by norm_num at *; linarith), if_pos h3]; simp; positivity
  · rw [if_neg h3]
    rw [not_lt] at h3
    split
    · rename_i h4
      have l1 : (0.16418 : ℝ) ≤ x ^ (0.45 : ℝ) := by
        rw [le_rpow_iff (m := 9) (n := 20) (by norm_num) (by norm_num) (by norm_num) h0]
        refine le_trans ?_ (pow_le_pow_left₀ (a := 0.018053968510807) (by norm_num) h3 9); norm_num
      have l2 : x ^ (0.45 : ℝ) < (0.1643 : ℝ) := by
        rw [rpow_lt_iff (m := 9) (n := 20) (by norm_num) (by norm_num) (by norm_num) h0]
        refine lt_of_le_of_lt (pow_le_pow_left₀ (b := 0.01805397) h0 h4.le 9) ?_; norm_num
      rw [abs_le]
      norm_num at *
      constructor <;> linarith
    · rw [abs_le]
      norm_num at *
      constructor <;> linarith

theorem std_dec_sdr {x : ℝ} (h0 : 0 ≤ x) (h1 : x ≤ 1) :
    |decodeTransfer ar .SDR x - toLight .SDR x| ≤ 1 / 10 ^ 3 := by
  rw [dec_sdr h]
  simp only [toLight]
  have hα : Standard.α = 1.099296826809442 := rfl
  have hβ : Standard.β = 0.018053968510807 := rfl
  rw [hα, hβ]
  have hhigh : |((x + 0.0993) / 1.099) ^ (1 / 0.45 : ℝ) - ((x + (1.099296826809442 - 1)) / 1.099296826809442) ^ (1 / 0.45 : ℝ)| ≤
      9 / 10 ^ 4 := by
    have h0a : 0 ≤ (x + 0.0993) / 1.099 := by positivity
    have h0b : 0 ≤ (x + (1.099296826809442 - 1)) / 1.099296826809442 := div_nonneg (by norm_num; linarith) (by norm_num)
    have hk : ∀ c : ℝ, 0 ≤ c → c ≤ 1001 / 1000 → (1 / 0.45 : ℝ) * c ^ ((1 / 0.45 : ℝ) - 1) ≤ 224 / 100 := by
      intro c c0 c1
      have h5 : c ^ ((1 / 0.45 : ℝ) - 1) ≤ (1001 / 1000) ^ (2 : ℕ) := by
        calc c ^ ((1 / 0.45 : ℝ) - 1) ≤ (1001 / 1000 : ℝ) ^ ((1 / 0.45 : ℝ) - 1) := Real.rpow_le_rpow c0 c1 (by norm_num)
          _ ≤ (1001 / 1000 : ℝ) ^ (2 : ℝ) := Real.rpow_le_rpow_of_exponent_le (by norm_num) (by norm_num)
          _ = _ := by rw [← Real.rpow_natCast]; norm_num
      refine (mul_le_mul (le_refl _) h5 (Real.rpow_nonneg c0 _) (by norm_num)).trans (by norm_num)
    refine (rpow_lip (K := 224 / 100) h0a h0b (by norm_num) ?_).trans ?_
    · rintro c (rfl | rfl)
      · exact hk _ h0a (by rw [div_le_iff₀ (by norm_num)]; norm_num; linarith)
      · exact hk _ h0b (by rw [div_le_iff₀ (by norm_num)]; norm_num; linarith)
    · have : |(x + 0.0993) / 1.099 - (x + (1.099296826809442 - 1)) / 1.099296826809442| ≤ 3 / 10 ^ 4 := by
        rw [abs_le]; norm_num; constructor <;> linarith
      norm_num at this ⊢; linarith
  by_cases h3 : x < 0.081490956
  · rw [if_pos h3]
    split
    · simp
    · rename_i h4
      rw [not_lt] at h4
      have b0 : 0 ≤ (x + (1.099296826809442 - 1)) / 1.099296826809442 := div_nonneg (by norm_num; linarith) (by norm_num)
      have l1 : (0.018 : ℝ) ≤ ((x + (1.099296826809442 - 1)) / 1.099296826809442) ^ (1 / 0.45 : ℝ) := by
        rw [le_rpow_iff (m := 20) (n := 9) (by norm_num) (by norm_num) (by norm_num) b0]
        refine le_trans ?_ (pow_le_pow_left₀ (a := (4.5 * 0.018053968510807 + (1.099296826809442 - 1)) / 1.099296826809442) (by norm_num)
          (div_le_div_of_nonneg_right (by linarith) (by norm_num)) 20)
        norm_num
      have l2 : ((x + (1.099296826809442 - 1)) / 1.099296826809442) ^ (1 / 0.45 : ℝ) < (0.0182 : ℝ) := by
        rw [rpow_lt_iff (m := 20) (n := 9) (by norm_num) (by norm_num) (by norm_num) b0]
        refine lt_of_le_of_lt (pow_le_pow_left₀ (b := (0.081490956 + (1.099296826809442 - 1)) / 1.099296826809442) b0
          (div_le_div_of_nonneg_right (by linarith) (by norm_num)) 20) ?_
        norm_num
      clear hhigh
      rw [abs_le]
      norm_num at h3 h4 l1 l2 ⊢
      constructor <;> linarith
  · rw [if_neg h3]
    rw [not_lt] at h3
    rw [if_neg (by norm_num at *; linarith)]
    exact hhigh.trans (by norm_num)


theorem std_srgb {x : ℝ} : encodeTransfer ar .SRGB x = toSignal .SRGB x ∧ decodeTransfer ar .SRGB x = toLight .SRGB x := by
  rw [enc_srgb h, dec_srgb h]
  simp only [toSignal, toLight, mul_comm, and_self]

theorem std_dec_pq {x : ℝ} (h0 : 0 ≤ x) (h1 : x ≤ 1) :
    |decodeTransfer ar .BT2100PQ x - toLight .BT2100PQ x| ≤ 1 / 5 := by
  rw [dec_pq h, max_eq_left h0]
  simp only [toLight]
  have e1 : Standard.c1 = 0.8359375 := by unfold Standard.c1; norm_num
  have e2 : Standard.c2 = 18.8515625 := by unfold Standard.c2; norm_num
  have e3 : Standard.c3 = 18.6875 := by unfold Standard.c3; norm_num
  have e4 : Standard.m2 = 78.84375 := by unfold Standard.m2; norm_num
  have e5 : Standard.m1 = 0.1593017578125 := by unfold Standard.m1; norm_num
  rw [e1, e2, e3, e4, e5]
  set E := x ^ (1 / 78.84375 : ℝ) with hE
  have E0 : 0 ≤ E := Real.rpow_nonneg h0 _
  have E1 : E ≤ 1 := Real.rpow_le_one h0 h1 (by norm_num)
  set N := max (E - 0.8359375) 0 with hN
  have N0 : 0 ≤ N := le_max_right _ _
  have N1 : N ≤ 0.1640625 := max_le (by norm_num; linarith) (by norm_num)
  have d1 : (0.164063 : ℝ) ≤ 18.851563 - E * 18.6875 := by norm_num; linarith
  have d2 : (0.1640625 : ℝ) ≤ 18.8515625 - 18.6875 * E := by norm_num; linarith
  set D := 18.851563 - E * 18.6875 with hD
  set D' := 18.8515625 - 18.6875 * E with hD'
  have hDD : D - D' = 5 / 10 ^ 7 := by rw [hD, hD']; norm_num; ring
  have dp : 0 < D := by norm_num at d1; linarith
  have dp' : 0 < D' := by norm_num at d2; linarith
  have q0 : 0 ≤ N / D := by positivity
  have q0' : 0 ≤ N / D' := by positivity
  have q1 : N / D ≤ 1 := by rw [div_le_iff₀ dp]; norm_num at *; linarith
  have q1' : N / D' ≤ 1 := by rw [div_le_iff₀ dp']; norm_num at *; linarith
  have hq : |N / D - N / D'| ≤ 306 / 10 ^ 8 := by
    have e : N / D - N / D' = -(N / D * ((D - D') / D')) := by field_simp; ring
    rw [e, abs_neg, abs_of_nonneg (mul_nonneg q0 (div_nonneg (by rw [hDD]; norm_num) dp'.le)), hDD]
    have : (5 / 10 ^ 7 : ℝ) / D' ≤ 306 / 10 ^ 8 := by
      rw [div_le_iff₀ dp']; norm_num at d2 ⊢; linarith
    calc N / D * (5 / 10 ^ 7 / D') ≤ 1 * (306 / 10 ^ 8) := mul_le_mul q1 this (by positivity) (by norm_num)
      _ = _ := one_mul _
  have hl := rpow_lip (K := 6278 / 1000) q0 q0' (Y := 1 / 0.15930176) (by norm_num) (by
    intro c hc
    have hc0 : 0 ≤ c := by rcases hc with rfl | rfl <;> assumption
    have hc1 : c ≤ 1 := by rcases hc with rfl | rfl <;> assumption
    have := Real.rpow_le_one hc0 hc1 (show (0 : ℝ) ≤ 1 / 0.15930176 - 1 by norm_num)
    refine (mul_le_mul_of_nonneg_left this (by norm_num)).trans (by norm_num))
  have he := rpow_exponents q0' q1' (a := 1 / 0.15930176) (b := 1 / 0.1593017578125) (by norm_num) (by norm_num)
  have he2 : |(1 / 0.15930176 : ℝ) - 1 / 0.1593017578125| / min (1 / 0.15930176) (1 / 0.1593017578125) ≤ 2 / 10 ^ 8 := by
    rw [min_eq_left (by norm_num), div_le_iff₀ (by norm_num), abs_le]; constructor <;> norm_num
  have hl2 := hl.trans (mul_le_mul_of_nonneg_left hq (by norm_num))
  have he3 := he.trans he2
  generalize (N / D) ^ (1 / 0.15930176 : ℝ) = A at *
  generalize (N / D') ^ (1 / 0.15930176 : ℝ) = B at *
  generalize (N / D') ^ (1 / 0.1593017578125 : ℝ) = C at *
  rw [abs_le] at hl2 he3 ⊢
  have := hl2.1
  have := hl2.2
  have := he3.1
  have := he3.2
  clear he he2
  norm_num at *
  constructor <;> linarith

theorem std_enc_pq {x : ℝ} (h0 : 0 ≤ x) (h1 : x ≤ 10000) :
    |encodeTransfer ar .BT2100PQ x - toSignal .BT2100PQ x| ≤ 1 / 10 ^ 5 := by
  rw [enc_pq h, max_eq_left h0]
  simp only [toSignal]
  have e1 : Standard.c1 = 0.8359375 := by unfold Standard.c1; norm_num
  have e2 : Standard.c2 = 18.8515625 := by unfold Standard.c2; norm_num
  have e3 : Standard.c3 = 18.6875 := by unfold Standard.c3; norm_num
  have e4 : Standard.m2 = 78.84375 := by unfold Standard.m2; norm_num
  have e5 : Standard.m1 = 0.1593017578125 := by unfold Standard.m1; norm_num
  rw [e1, e2, e3, e4, e5]
  have y0 : 0 ≤ x / 10000 := by positivity
  have y1 : x / 10000 ≤ 1 := by rw [div_le_iff₀ (by norm_num)]; linarith
  have he := rpow_exponents y0 y1 (a := 0.15930176) (b := 0.1593017578125) (by norm_num) (by norm_num)
  have he2 : |(0.15930176 : ℝ) - 0.1593017578125| / min (0.15930176) (0.1593017578125) ≤ 2 / 10 ^ 8 := by
    rw [min_eq_right (by norm_num), div_le_iff₀ (by norm_num), abs_le]; constructor <;> norm_num
  have he3 := abs_le.mp (he.trans he2)
  have A0 : 0 ≤ (x / 10000) ^ (0.15930176 : ℝ) := Real.rpow_nonneg y0 _
  have B0 : 0 ≤ (x / 10000) ^ (0.1593017578125 : ℝ) := Real.rpow_nonneg y0 _
  have A1 : (x / 10000) ^ (0.15930176 : ℝ) ≤ 1 := Real.rpow_le_one y0 y1 (by norm_num)
  have B1 : (x / 10000) ^ (0.1593017578125 : ℝ) ≤ 1 := Real.rpow_le_one y0 y1 (by norm_num)
  clear he he2
  generalize (x / 10000) ^ (0.15930176 : ℝ) = A at *
  generalize (x / 10000) ^ (0.1593017578125 : ℝ) = B at *
  have g1 := he3.1
  have g2 := he3.2
  clear he3
  have p1 : 0 < A * 18.6875 + 1 := by positivity
  have p2 : 0 < 1 + 18.6875 * B := by positivity
  have hb : |(A * 18.851563 + 0.8359375) / (A * 18.6875 + 1) - (0.8359375 + 18.8515625 * B) / (1 + 18.6875 * B)| ≤ 11 / 10 ^ 8 := by
    have e : (A * 18.851563 + 0.8359375) / (A * 18.6875 + 1) - (0.8359375 + 18.8515625 * B) / (1 + 18.6875 * B) =
        ((18.8515625 - 0.8359375 * 18.6875) * (A - B) + 0.0000005 * A * (1 + 18.6875 * B)) / ((A * 18.6875 + 1) * (1 + 18.6875 * B)) := by
      rw [div_sub_div _ _ p1.ne' p2.ne']
      congr 1
      norm_num
      ring
    rw [e, abs_div, abs_of_pos (mul_pos p1 p2), div_le_iff₀ (mul_pos p1 p2)]
    have m1 : 1 ≤ (A * 18.6875 + 1) * (1 + 18.6875 * B) := by nlinarith
    have m2 : 0.0000005 * A * (1 + 18.6875 * B) ≤ 3 / 10 ^ 8 * ((A * 18.6875 + 1) * (1 + 18.6875 * B)) := by
      rw [← mul_assoc]
      refine mul_le_mul_of_nonneg_right ?_ p2.le
      norm_num; linarith
    have m3 : 0 ≤ 0.0000005 * A * (1 + 18.6875 * B) := by positivity
    rw [abs_le]
    norm_num at *
    constructor <;> linarith
  have q0 : 0 ≤ (A * 18.851563 + 0.8359375) / (A * 18.6875 + 1) := by positivity
  have q0' : 0 ≤ (0.8359375 + 18.8515625 * B) / (1 + 18.6875 * B) := by positivity
  have q1 : (A * 18.851563 + 0.8359375) / (A * 18.6875 + 1) ≤ 1 + 1 / 10 ^ 7 := by
    rw [div_le_iff₀ p1]; norm_num; linarith
  have q1' : (0.8359375 + 18.8515625 * B) / (1 + 18.6875 * B) ≤ 1 + 1 / 10 ^ 7 := by
    rw [div_le_iff₀ p2]; norm_num; linarith
  have hl := rpow_lip (K := 79) q0 q0' (Y := 78.84375) (by norm_num) (by
    intro c hc
    have hc0 : 0 ≤ c := by rcases hc with rfl | rfl <;> assumption
    have hc1 : c ≤ 1 + 1 / 10 ^ 7 := by rcases hc with rfl | rfl <;> assumption
    have h5 : c ^ ((78.84375 : ℝ) - 1) ≤ (1 + 1 / 10 ^ 7) ^ (78 : ℕ) := by
      calc c ^ ((78.84375 : ℝ) - 1) ≤ (1 + 1 / 10 ^ 7 : ℝ) ^ ((78.84375 : ℝ) - 1) := Real.rpow_le_rpow hc0 hc1 (by norm_num)
        _ ≤ (1 + 1 / 10 ^ 7 : ℝ) ^ (78 : ℝ) := Real.rpow_le_rpow_of_exponent_le (by norm_num) (by norm_num)
        _ = _ := by rw [← Real.rpow_natCast]; norm_num
    exact (mul_le_mul_of_nonneg_left h5 (by norm_num)).trans (by norm_num))
  exact hl.trans ((mul_le_mul_of_nonneg_left hb (by norm_num)).trans (by norm_num))

end
end Ezk

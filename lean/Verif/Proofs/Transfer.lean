import Verif.Proofs.Exact
import Mathlib.Analysis.Complex.ExponentialBounds
import Mathlib.Analysis.Convex.SpecificFunctions.Basic

/-! # The transfer functions over the real numbers -/

namespace Ezk
open FOps Spec

section
variable {ar : Arith ℝ} (h : Exact ar)
include h

/-! ## The formulas -/

theorem if_le (a b : ℝ) (x y : ℝ) : (if ar.le a b = true then x else y) = if a ≤ b then x else y := by
  simp only [h.le]
theorem if_lt (a b : ℝ) (x y : ℝ) : (if ar.lt a b = true then x else y) = if a < b then x else y := by
  simp only [h.lt]

theorem enc_gamma22 (x : ℝ) : encodeTransfer ar .Gamma22 x = x ^ (1 / 2.2 : ℝ) := by
  simp only [encodeTransfer, h.pow, lit_real, ofNat_real, div_real]; norm_num [Rat.cast_ofScientific]
theorem dec_gamma22 (x : ℝ) : decodeTransfer ar .Gamma22 x = x ^ (2.2 : ℝ) := by
  simp only [decodeTransfer, h.pow, lit_real, ofNat_real, div_real]; norm_num [Rat.cast_ofScientific]
theorem enc_gamma28 (x : ℝ) : encodeTransfer ar .Gamma28 x = x ^ (1 / 2.8 : ℝ) := by
  simp only [encodeTransfer, h.pow, lit_real, ofNat_real, div_real]; norm_num [Rat.cast_ofScientific]
theorem dec_gamma28 (x : ℝ) : decodeTransfer ar .Gamma28 x = x ^ (2.8 : ℝ) := by
  simp only [decodeTransfer, h.pow, lit_real, ofNat_real, div_real]; norm_num [Rat.cast_ofScientific]
theorem enc_srgb (x : ℝ) : encodeTransfer ar .SRGB x =
    if x ≤ 0.0031308 then x * 12.92 else 1.055 * x ^ (1 / 2.4 : ℝ) - 0.055 := by
  simp only [encodeTransfer, h.pow, h.mul, h.sub, lit_real, div_real, if_le h]; norm_num [Rat.cast_ofScientific]
theorem dec_srgb (x : ℝ) : decodeTransfer ar .SRGB x =
    if x ≤ 0.04045 then x / 12.92 else ((x + 0.055) / 1.055) ^ (2.4 : ℝ) := by
  simp only [decodeTransfer, h.pow, h.div, h.add, lit_real, if_le h]; norm_num [Rat.cast_ofScientific]
theorem enc_sdr (x : ℝ) : encodeTransfer ar .SDR x =
    if x < 0.01805397 then 4.5 * x else 1.099 * x ^ (0.45 : ℝ) - 0.099 := by
  simp only [encodeTransfer, h.pow, h.mul, h.sub, lit_real, if_lt h]; norm_num [Rat.cast_ofScientific]
theorem dec_sdr (x : ℝ) : decodeTransfer ar .SDR x =
    if x < 0.081490956 then x / 4.5 else ((x + 0.0993) / 1.099) ^ (1 / 0.45 : ℝ) := by
  simp only [decodeTransfer, h.pow, h.div, h.add, lit_real, div_real, if_lt h]; norm_num [Rat.cast_ofScientific]
theorem enc_pq (x : ℝ) : encodeTransfer ar .BT2100PQ x =
    (((max x 0 / 10000) ^ (0.15930176 : ℝ) * 18.851563 + 0.8359375) /
      ((max x 0 / 10000) ^ (0.15930176 : ℝ) * 18.6875 + 1)) ^ (78.84375 : ℝ) := by
  simp only [encodeTransfer, pqEncode, h.pow, h.div, h.mul, h.add, h.max, lit_real, Pq.L, Pq.M1, Pq.M2, Pq.C1,
    Pq.C2, Pq.C3]
  norm_num [Rat.cast_ofScientific]
theorem dec_pq (x : ℝ) : decodeTransfer ar .BT2100PQ x =
    (max (max x 0 ^ (1 / 78.84375 : ℝ) - 0.8359375) 0 / (18.851563 - max x 0 ^ (1 / 78.84375 : ℝ) * 18.6875)) ^
      (1 / 0.15930176 : ℝ) * 10000 := by
  simp only [decodeTransfer, pqDecode, h.pow, h.div, h.mul, h.sub, h.max, lit_real, div_real, Pq.L, Pq.M1, Pq.M2,
    Pq.C1, Pq.C2, Pq.C3]
  norm_num [Rat.cast_ofScientific]
theorem enc_hlg (x : ℝ) : encodeTransfer ar .BT2100HLG x =
    if max x 0 ≤ 1 / 12 then Real.sqrt (max x 0 * 3)
    else 0.17883277 * Real.log (12 * max x 0 - 0.28466892) + 0.5599107 := by
  simp only [encodeTransfer, hlgEncode, h.ln, h.sqrt, h.add, h.mul, h.sub, h.max, lit_real, div_real, Hlg.A, Hlg.B',
    Hlg.C, if_le h]
  norm_num [Rat.cast_ofScientific]
theorem dec_hlg (x : ℝ) : decodeTransfer ar .BT2100HLG x =
    if max x 0 ≤ 1 / 2 then max x 0 ^ 2 / 3
    else (Real.exp ((max x 0 - 0.5599107) / 0.17883277) + 0.28466892) / 12 := by
  simp only [decodeTransfer, hlgDecode, h.pow, h.div, h.add, h.sub, h.max, lit_real, Hlg.A, Hlg.B', Hlg.C, if_le h,
    e_real, Real.exp_one_rpow]
  norm_num [Rat.cast_ofScientific]

/-! ## Inverse -/

omit h in
theorem rpow_inv {x : ℝ} (hx : 0 ≤ x) {p : ℝ} (hp : p ≠ 0) : (x ^ (1 / p)) ^ p = x := by
  rw [← Real.rpow_mul hx, one_div, inv_mul_cancel₀ hp, Real.rpow_one]
omit h in
theorem rpow_inv' {x : ℝ} (hx : 0 ≤ x) {p : ℝ} (hp : p ≠ 0) : (x ^ p) ^ (1 / p) = x := by
  rw [← Real.rpow_mul hx, one_div, mul_inv_cancel₀ hp, Real.rpow_one]

theorem pq_inverse {x : ℝ} (hx : 0 ≤ x) : decodeTransfer ar .BT2100PQ (encodeTransfer ar .BT2100PQ x) = x := by
  rw [enc_pq h, dec_pq h, max_eq_left hx]
  have hy : 0 ≤ (x / 10000) ^ (0.15930176 : ℝ) := Real.rpow_nonneg (by positivity) _
  have hyx : ((x / 10000) ^ (0.15930176 : ℝ)) ^ (1 / 0.15930176 : ℝ) = x / 10000 := rpow_inv' (by positivity) (by norm_num)
  generalize (x / 10000) ^ (0.15930176 : ℝ) = y at hy hyx ⊢
  have hq : 0 ≤ (y * 18.851563 + 0.8359375) / (y * 18.6875 + 1) := by positivity
  rw [max_eq_left (Real.rpow_nonneg hq _), rpow_inv' hq (by norm_num)]
  have hd : y * 18.6875 + 1 ≠ 0 := by positivity
  have e1 : (y * 18.851563 + 0.8359375) / (y * 18.6875 + 1) - 0.8359375 =
      y * (18.851563 - 0.8359375 * 18.6875) / (y * 18.6875 + 1) := by
    field_simp; ring
  have e2 : 18.851563 - (y * 18.851563 + 0.8359375) / (y * 18.6875 + 1) * 18.6875 =
      (18.851563 - 0.8359375 * 18.6875) / (y * 18.6875 + 1) := by
    field_simp; ring
  have hc : (0 : ℝ) < 18.851563 - 0.8359375 * 18.6875 := by norm_num
  rw [e1, e2, max_eq_left (by positivity)]
  generalize (18.851563 - 0.8359375 * 18.6875 : ℝ) = c at *
  have : y * c / (y * 18.6875 + 1) / (c / (y * 18.6875 + 1)) = y := by field_simp
  rw [this, hyx]
  ring

theorem srgb_inverse_low {x : ℝ} (hx : x ≤ 0.0031308) :
    decodeTransfer ar .SRGB (encodeTransfer ar .SRGB x) = x := by
  rw [enc_srgb h, dec_srgb h, if_pos hx, if_pos]
  · field_simp
  · norm_num at hx ⊢; linarith

theorem srgb_inverse_high {x : ℝ} (hx : 0.0031308 < x) (hg : 0.04045 < 1.055 * x ^ (1 / 2.4 : ℝ) - 0.055) :
    decodeTransfer ar .SRGB (encodeTransfer ar .SRGB x) = x := by
  have h0 : 0 ≤ x := by norm_num at hx; linarith
  rw [enc_srgb h, dec_srgb h, if_neg (not_le.2 hx), if_neg (not_le.2 hg)]
  have : (1.055 * x ^ (1 / 2.4 : ℝ) - 0.055 + 0.055) / 1.055 = x ^ (1 / 2.4 : ℝ) := by field_simp; ring
  rw [this, rpow_inv h0 (by norm_num)]

omit h in
/-- `c ≤ x ^ (1/2.4)` follows from `c ^ 12 ≤ x ^ 5`. -/
theorem le_root {c x : ℝ} (hc : 0 ≤ c) (hx : 0 ≤ x) (hcx : c ^ 12 ≤ x ^ 5) : c ≤ x ^ (1 / 2.4 : ℝ) := by
  have e : (x ^ (1 / 2.4 : ℝ)) ^ 12 = x ^ 5 := by
    rw [← Real.rpow_natCast, ← Real.rpow_mul hx, ← Real.rpow_natCast]
    norm_num
  exact le_of_pow_le_pow_left₀ (n := 12) (by norm_num) (Real.rpow_nonneg hx _) (by rw [e]; exact hcx)
omit h in
theorem root_le {c x : ℝ} (hc : 0 ≤ c) (hx : 0 ≤ x) (hcx : x ^ 5 ≤ c ^ 12) : x ^ (1 / 2.4 : ℝ) ≤ c := by
  have e : (x ^ (1 / 2.4 : ℝ)) ^ 12 = x ^ 5 := by
    rw [← Real.rpow_natCast, ← Real.rpow_mul hx, ← Real.rpow_natCast]
    norm_num
  exact le_of_pow_le_pow_left₀ (n := 12) (by norm_num) hc (by rw [e]; exact hcx)

/-- sRGB is undone up to 1e-8 everywhere. -/
theorem srgb_near (x : ℝ) : |decodeTransfer ar .SRGB (encodeTransfer ar .SRGB x) - x| ≤ 1e-8 := by
  rcases le_or_gt x 0.0031308 with hx | hx
  · rw [srgb_inverse_low h hx]; norm_num
  rcases lt_or_ge 0.04045 (1.055 * x ^ (1 / 2.4 : ℝ) - 0.055) with hg | hg
  · rw [srgb_inverse_high h hx hg]; norm_num
  have h0 : 0 ≤ x := by norm_num at hx; linarith
  rw [enc_srgb h, dec_srgb h, if_neg (not_le.2 hx), if_pos hg]
  -- `x` lies between the two thresholds
  have hup : x ≤ 0.0031308073 := by
    by_contra hc
    have hc := not_lt.1 (fun hlt => hc (le_of_lt hlt))
    have h1 : (0.0954500001 / 1.055 : ℝ) ≤ x ^ (1 / 2.4 : ℝ) := by
      refine le_root (by norm_num) h0 (le_trans ?_ (pow_le_pow_left₀ (by norm_num) hc 5))
      norm_num
    norm_num at h1 hg
    linarith
  have hlo : (0.0954499074 / 1.055 : ℝ) ≤ x ^ (1 / 2.4 : ℝ) := by
    refine le_root (by norm_num) h0 (le_trans ?_ (pow_le_pow_left₀ (by norm_num) hx.le 5))
    norm_num
  rw [abs_le]
  norm_num at hlo hg hup hx ⊢
  constructor <;> linarith

theorem hlg_inverse_low {x : ℝ} (h0 : 0 ≤ x) (hx : x ≤ 1 / 12) :
    decodeTransfer ar .BT2100HLG (encodeTransfer ar .BT2100HLG x) = x := by
  rw [enc_hlg h, dec_hlg h, max_eq_left h0, if_pos hx, max_eq_left (Real.sqrt_nonneg _), if_pos]
  · rw [Real.sq_sqrt (by positivity)]; field_simp
  · rw [Real.sqrt_le_left (by norm_num)]; linarith

theorem hlg_inverse_high {x : ℝ} (hx : 1 / 12 < x)
    (hg : 1 / 2 < 0.17883277 * Real.log (12 * x - 0.28466892) + 0.5599107) :
    decodeTransfer ar .BT2100HLG (encodeTransfer ar .BT2100HLG x) = x := by
  have h0 : 0 ≤ x := by linarith
  have hp : 0 < 12 * x - 0.28466892 := by norm_num; linarith
  rw [enc_hlg h, dec_hlg h, max_eq_left h0, if_neg (not_le.2 hx), max_eq_left (by linarith), if_neg (not_le.2 hg)]
  have : (0.17883277 * Real.log (12 * x - 0.28466892) + 0.5599107 - 0.5599107) / 0.17883277 =
      Real.log (12 * x - 0.28466892) := by field_simp; ring
  rw [this, Real.exp_log hp]
  ring

omit h in
/-- Upper bound of `exp` for arguments in `[-1, 0]` by its Taylor polynomial. -/
theorem exp_le {x b : ℝ} (hx : |x| ≤ 1)
    (hb : 1 + x + x ^ 2 / 2 + x ^ 3 / 6 + x ^ 4 / 24 + x ^ 5 / 120 + x ^ 6 / 720 + x ^ 7 / 5040 + x ^ 8 / 40320 +
      x ^ 9 / 362880 + |x| ^ 10 * (11 / 36288000) ≤ b) : Real.exp x ≤ b := by
  have := Real.exp_bound hx (n := 10) (by norm_num)
  rw [abs_le] at this
  have h2 := this.2
  simp only [Finset.sum_range_succ, Finset.sum_range_zero, Nat.factorial] at h2
  norm_num at h2
  linarith
omit h in
theorem le_exp {x b : ℝ} (hx : |x| ≤ 1)
    (hb : b ≤ 1 + x + x ^ 2 / 2 + x ^ 3 / 6 + x ^ 4 / 24 + x ^ 5 / 120 + x ^ 6 / 720 + x ^ 7 / 5040 + x ^ 8 / 40320 +
      x ^ 9 / 362880 - |x| ^ 10 * (11 / 36288000)) : b ≤ Real.exp x := by
  have := Real.exp_bound hx (n := 10) (by norm_num)
  rw [abs_le] at this
  have h2 := this.1
  simp only [Finset.sum_range_succ, Finset.sum_range_zero, Nat.factorial] at h2
  norm_num at h2
  linarith

/-- HLG is undone up to 1e-7 everywhere. -/
theorem hlg_near {x : ℝ} (h0 : 0 ≤ x) :
    |decodeTransfer ar .BT2100HLG (encodeTransfer ar .BT2100HLG x) - x| ≤ 1e-7 := by
  rcases le_or_gt x (1 / 12) with hx | hx
  · rw [hlg_inverse_low h h0 hx]; norm_num
  rcases lt_or_ge (1 / 2) (0.17883277 * Real.log (12 * x - 0.28466892) + 0.5599107) with hg | hg
  · rw [hlg_inverse_high h hx hg]; norm_num
  have hp : 0 < 12 * x - 0.28466892 := by norm_num; linarith
  -- the value is just below 1/2
  have hlo : 0.4999999 ≤ 0.17883277 * Real.log (12 * x - 0.28466892) + 0.5599107 := by
    have : (0.4999999 - 0.5599107) / 0.17883277 ≤ Real.log (12 * x - 0.28466892) := by
      rw [Real.le_log_iff_exp_le hp]
      refine exp_le (by rw [abs_le]; norm_num) ?_
      rw [abs_of_neg (by norm_num)]
      norm_num
      linarith
    rw [div_le_iff₀ (by norm_num)] at this
    linarith
  have hup : x ≤ 0.0833334 := by
    have : Real.log (12 * x - 0.28466892) ≤ (0.5 - 0.5599107) / 0.17883277 := by
      rw [le_div_iff₀ (by norm_num)]; norm_num at hg ⊢; linarith
    rw [Real.log_le_iff_le_exp hp] at this
    have hb : Real.exp ((0.5 - 0.5599107) / 0.17883277) ≤ 0.7153316 := by
      refine exp_le (by rw [abs_le]; norm_num) ?_
      rw [abs_of_neg (by norm_num)]
      norm_num
    have := le_trans this hb
    norm_num at this ⊢
    linarith
  rw [enc_hlg h, dec_hlg h, max_eq_left h0, if_neg (not_le.2 hx), max_eq_left (by norm_num at hlo; linarith), if_pos hg]
  generalize 0.17883277 * Real.log (12 * x - 0.28466892) + 0.5599107 = v at *
  rw [abs_le]
  norm_num at *
  constructor <;> nlinarith

theorem gamma_inverse {x : ℝ} (h0 : 0 ≤ x) :
    decodeTransfer ar .Gamma22 (encodeTransfer ar .Gamma22 x) = x ∧
      decodeTransfer ar .Gamma28 (encodeTransfer ar .Gamma28 x) = x := by
  rw [enc_gamma22 h, dec_gamma22 h, enc_gamma28 h, dec_gamma28 h]
  exact ⟨rpow_inv h0 (by norm_num), rpow_inv h0 (by norm_num)⟩

omit h in
/-- A rational power is compared by integer powers. -/
theorem le_rpow_iff {c x p : ℝ} {m n : Nat} (hn : n ≠ 0) (hp : p * n = m) (hc : 0 ≤ c) (hx : 0 ≤ x) :
    c ≤ x ^ p ↔ c ^ n ≤ x ^ m := by
  have e : (x ^ p) ^ n = x ^ m := by
    rw [← Real.rpow_natCast, ← Real.rpow_mul hx, hp, Real.rpow_natCast]
  rw [← e]
  exact (pow_le_pow_iff_left₀ hc (Real.rpow_nonneg hx _) hn).symm
omit h in
theorem rpow_lt_iff {c x p : ℝ} {m n : Nat} (hn : n ≠ 0) (hp : p * n = m) (hc : 0 ≤ c) (hx : 0 ≤ x) :
    x ^ p < c ↔ x ^ m < c ^ n := by
  rw [← not_le, ← not_le, le_rpow_iff hn hp hc hx]

theorem sdr_inverse_low {x : ℝ} (hx : x < 0.01805397) : decodeTransfer ar .SDR (encodeTransfer ar .SDR x) = x := by
  rw [enc_sdr h, dec_sdr h, if_pos hx, if_pos]
  · field_simp
  · norm_num at hx ⊢; linarith

/-- SDR is undone up to 1e-3 on `[0, 1]`. -/
theorem sdr_near {x : ℝ} (hx1 : x ≤ 1) : |decodeTransfer ar .SDR (encodeTransfer ar .SDR x) - x| ≤ 1e-3 := by
  rcases lt_or_ge x 0.01805397 with hx | hx
  · rw [sdr_inverse_low h hx]; norm_num
  have h0 : 0 ≤ x := by norm_num at hx; linarith
  have hlo : (0.18 / 1.099 : ℝ) ≤ x ^ (0.45 : ℝ) := by
    rw [le_rpow_iff (m := 9) (n := 20) (by norm_num) (by norm_num) (by norm_num) h0]
    exact le_trans (by norm_num) (pow_le_pow_left₀ (by norm_num) hx 9)
  rw [enc_sdr h, dec_sdr h, if_neg (not_lt.2 hx)]
  split
  · rename_i hg
    have hup : x ≤ 0.0183 := by
      by_contra hc
      have hc := (not_le.1 hc).le
      have : (0.1806 / 1.099 : ℝ) ≤ x ^ (0.45 : ℝ) := by
        rw [le_rpow_iff (m := 9) (n := 20) (by norm_num) (by norm_num) (by norm_num) h0]
        exact le_trans (by norm_num) (pow_le_pow_left₀ (by norm_num) hc 9)
      norm_num at this hg
      linarith
    rw [abs_le]
    norm_num at hlo hg hup hx ⊢
    constructor <;> linarith
  · have ht1 : x ^ (0.45 : ℝ) ≤ 1 := Real.rpow_le_one h0 hx1 (by norm_num)
    have ht : (x ^ (0.45 : ℝ)) ^ (1 / 0.45 : ℝ) = x := rpow_inv' h0 (by norm_num)
    generalize x ^ (0.45 : ℝ) = t at *
    have ht0 : 0 < t := lt_of_lt_of_le (by norm_num) hlo
    have e1 : (1.099 * t - 0.099 + 0.0993) / 1.099 = t + 0.0003 / 1.099 := by field_simp; ring
    rw [e1, ← ht]
    have hs : 0 < t + 0.0003 / 1.099 := by positivity
    have hs1 : t + 0.0003 / 1.099 ≤ 1.0003 := by norm_num; linarith
    have hts : t ≤ t + 0.0003 / 1.099 := by norm_num
    -- Bernoulli's inequality
    have hb := one_add_mul_self_le_rpow_one_add (s := t / (t + 0.0003 / 1.099) - 1)
      (by have : 0 ≤ t / (t + 0.0003 / 1.099) := by positivity
          linarith) (p := 1 / 0.45) (by norm_num)
    rw [add_sub_cancel, Real.div_rpow ht0.le hs.le, le_div_iff₀ (by positivity)] at hb
    have hsp : (t + 0.0003 / 1.099) ^ (1 / 0.45 : ℝ) ≤ 1.0003 ^ (3 : ℕ) := by
      rw [← Real.rpow_natCast]
      exact le_trans (Real.rpow_le_rpow hs.le hs1 (by norm_num))
        (Real.rpow_le_rpow_of_exponent_le (by norm_num) (by norm_num))
    have hmono : t ^ (1 / 0.45 : ℝ) ≤ (t + 0.0003 / 1.099) ^ (1 / 0.45 : ℝ) :=
      Real.rpow_le_rpow ht0.le hts (by norm_num)
    -- `s ^ p / s ≤ 1.0003 ^ 2`
    have hq : (t + 0.0003 / 1.099) ^ (1 / 0.45 : ℝ) ≤ (t + 0.0003 / 1.099) * 1.002 := by
      have e2 : (t + 0.0003 / 1.099) ^ (1 / 0.45 : ℝ) =
          (t + 0.0003 / 1.099) * (t + 0.0003 / 1.099) ^ (1 / 0.45 - 1 : ℝ) := by
        rw [mul_comm, ← Real.rpow_add_one hs.ne']
        norm_num
      rw [e2]
      refine mul_le_mul_of_nonneg_left ?_ hs.le
      refine le_trans (Real.rpow_le_rpow hs.le hs1 (by norm_num)) ?_
      refine le_trans (Real.rpow_le_rpow_of_exponent_le (y := 1 / 0.45 - 1) (z := ((2 : ℕ) : ℝ)) (by norm_num)
        (by norm_num)) ?_
      rw [Real.rpow_natCast]
      norm_num
    rw [abs_of_nonneg (by linarith)]
    have hd : t / (t + 0.0003 / 1.099) - 1 = -(0.0003 / 1.099) / (t + 0.0003 / 1.099) := by
      field_simp; ring
    rw [hd] at hb
    generalize (t + 0.0003 / 1.099) ^ (1 / 0.45 : ℝ) = S at *
    generalize t ^ (1 / 0.45 : ℝ) = T at *
    generalize t + 0.0003 / 1.099 = s at *
    have : S / s ≤ 1.002 := by rw [div_le_iff₀ hs]; linarith
    have e3 : (1 + 1 / 0.45 * (-(0.0003 / 1.099) / s)) * S = S - 1 / 0.45 * (0.0003 / 1.099) * (S / s) := by
      field_simp
      ring
    rw [e3] at hb
    norm_num at this hb ⊢
    linarith

/-- SDR: white does not come back. -/
theorem sdr_white : 1 < decodeTransfer ar .SDR (encodeTransfer ar .SDR 1) := by
  rw [enc_sdr h, dec_sdr h, if_neg (by norm_num), if_neg (by norm_num)]
  exact Real.one_lt_rpow (by norm_num) (by norm_num)

/-- sRGB: a value just above the threshold does not come back. -/
theorem srgb_gap : decodeTransfer ar .SRGB (encodeTransfer ar .SRGB 0.003130807) ≠ 0.003130807 := by
  have hg : (0.003130807 : ℝ) ^ (1 / 2.4 : ℝ) < 0.0954499999 / 1.055 := by
    rw [rpow_lt_iff (m := 5) (n := 12) (by norm_num) (by norm_num) (by norm_num) (by norm_num)]
    norm_num
  have e : encodeTransfer ar .SRGB 0.003130807 = 1.055 * (0.003130807 : ℝ) ^ (1 / 2.4 : ℝ) - 0.055 := by
    rw [enc_srgb h, if_neg (by norm_num)]
  rw [e]
  generalize (0.003130807 : ℝ) ^ (1 / 2.4 : ℝ) = v at *
  rw [dec_srgb h, if_pos (by norm_num at hg ⊢; linarith)]
  intro hc
  norm_num at hg hc
  linarith

/-- HLG: a value just above the threshold does not come back. -/
theorem hlg_gap : decodeTransfer ar .BT2100HLG (encodeTransfer ar .BT2100HLG (1 / 12 + 1e-9)) ≠ 1 / 12 + 1e-9 := by
  have hlt : (0.17883277 : ℝ) * Real.log (12 * (1 / 12 + 1e-9) - 0.28466892) + 0.5599107 < 1 / 2 := by
    have : Real.log (12 * (1 / 12 + 1e-9) - 0.28466892) < (0.5 - 0.5599107) / 0.17883277 := by
      rw [Real.log_lt_iff_lt_exp (by norm_num)]
      refine lt_of_lt_of_le (b := 0.7153311) (by norm_num) (le_exp (by rw [abs_le]; norm_num) ?_)
      rw [abs_of_neg (by norm_num)]
      norm_num
    rw [lt_div_iff₀ (by norm_num)] at this
    norm_num at this ⊢
    linarith
  have e : encodeTransfer ar .BT2100HLG (1 / 12 + 1e-9) =
      (0.17883277 : ℝ) * Real.log (12 * (1 / 12 + 1e-9) - 0.28466892) + 0.5599107 := by
    rw [enc_hlg h, max_eq_left (by norm_num), if_neg (by norm_num)]
  rw [e]
  generalize (0.17883277 : ℝ) * Real.log (12 * (1 / 12 + 1e-9) - 0.28466892) + 0.5599107 = v at *
  rw [dec_hlg h, if_pos (max_le hlt.le (by norm_num))]
  have : max v 0 ^ 2 ≤ (1 / 2) ^ 2 := pow_le_pow_left₀ (le_max_right _ _) (max_le hlt.le (by norm_num)) 2
  intro hc
  norm_num at this hc
  linarith

/-! ## Monotonicity -/

omit h in
theorem mono_le {a b : ℝ → ℝ} {t ε lo : ℝ} (hε : 0 ≤ ε)
    (ha : ∀ x y, lo ≤ x → x ≤ y → y ≤ t → a x ≤ a y) (hb : ∀ x y, t ≤ x → x ≤ y → b x ≤ b y)
    (hab : a t ≤ b t + ε) {x y : ℝ} (h0 : lo ≤ x) (hxy : x ≤ y) :
    (if x ≤ t then a x else b x) ≤ (if y ≤ t then a y else b y) + ε := by
  split <;> split <;> rename_i h1 h2
  · have := ha x y h0 hxy h2; linarith
  · have := ha x t h0 h1 le_rfl
    have := hb t y le_rfl (not_le.1 h2).le
    linarith
  · exact absurd (le_trans hxy h2) h1
  · have := hb x y (not_le.1 h1).le hxy; linarith
omit h in
theorem mono_lt {a b : ℝ → ℝ} {t ε lo : ℝ} (hε : 0 ≤ ε)
    (ha : ∀ x y, lo ≤ x → x ≤ y → y ≤ t → a x ≤ a y) (hb : ∀ x y, t ≤ x → x ≤ y → b x ≤ b y)
    (hab : a t ≤ b t + ε) {x y : ℝ} (h0 : lo ≤ x) (hxy : x ≤ y) :
    (if x < t then a x else b x) ≤ (if y < t then a y else b y) + ε := by
  split <;> split <;> rename_i h1 h2
  · have := ha x y h0 hxy h2.le; linarith
  · have := ha x t h0 h1.le le_rfl
    have := hb t y le_rfl (not_lt.1 h2)
    linarith
  · exact absurd (lt_of_le_of_lt hxy h2) h1
  · have := hb x y (not_lt.1 h1) hxy; linarith

theorem enc_srgb_mono {x y : ℝ} (h0 : 0 ≤ x) (hxy : x ≤ y) :
    encodeTransfer ar .SRGB x ≤ encodeTransfer ar .SRGB y + 1e-7 := by
  rw [enc_srgb h, enc_srgb h]
  refine mono_le (a := fun x => x * 12.92) (b := fun x => 1.055 * x ^ (1 / 2.4 : ℝ) - 0.055) (lo := 0) (by norm_num)
    ?_ ?_ ?_ h0 hxy
  · intro x y _ hxy _; nlinarith
  · intro x y hx hxy
    have := Real.rpow_le_rpow (le_trans (by norm_num) hx) hxy (z := (1 / 2.4 : ℝ)) (by norm_num)
    linarith
  · have : (0.0954499 / 1.055 : ℝ) ≤ (0.0031308 : ℝ) ^ (1 / 2.4 : ℝ) := by
      rw [le_rpow_iff (m := 5) (n := 12) (by norm_num) (by norm_num) (by norm_num) (by norm_num)]; norm_num
    norm_num at this ⊢
    linarith

/-- sRGB encoding decreases at its threshold. -/
theorem enc_srgb_drop : encodeTransfer ar .SRGB 0.0031308001 < encodeTransfer ar .SRGB 0.0031308 := by
  rw [enc_srgb h, enc_srgb h, if_neg (by norm_num), if_pos (by norm_num)]
  have : (0.0031308001 : ℝ) ^ (1 / 2.4 : ℝ) < 0.09544992 / 1.055 := by
    rw [rpow_lt_iff (m := 5) (n := 12) (by norm_num) (by norm_num) (by norm_num) (by norm_num)]; norm_num
  norm_num at this ⊢
  linarith

theorem dec_srgb_mono {x y : ℝ} (h0 : 0 ≤ x) (hxy : x ≤ y) :
    decodeTransfer ar .SRGB x ≤ decodeTransfer ar .SRGB y := by
  rw [dec_srgb h, dec_srgb h, ← add_zero (ite (y ≤ 0.04045) _ _)]
  refine mono_le (a := fun x => x / 12.92) (b := fun x => ((x + 0.055) / 1.055) ^ (2.4 : ℝ)) (lo := 0)
    le_rfl ?_ ?_ ?_ h0 hxy
  · intro x y _ hxy _; gcongr
  · intro x y hx hxy
    have : 0 ≤ x := le_trans (by norm_num) hx
    exact Real.rpow_le_rpow (by positivity) (by gcongr) (by norm_num)
  · rw [add_zero, le_rpow_iff (m := 12) (n := 5) (by norm_num) (by norm_num) (by norm_num) (by norm_num)]; norm_num

theorem enc_sdr_mono {x y : ℝ} (h0 : 0 ≤ x) (hxy : x ≤ y) :
    encodeTransfer ar .SDR x ≤ encodeTransfer ar .SDR y := by
  rw [enc_sdr h, enc_sdr h, ← add_zero (ite (y < 0.01805397) _ _)]
  refine mono_lt (a := fun x => 4.5 * x) (b := fun x => 1.099 * x ^ (0.45 : ℝ) - 0.099) (lo := 0)
    le_rfl ?_ ?_ ?_ h0 hxy
  · intro x y _ hxy _; nlinarith
  · intro x y hx hxy
    have := Real.rpow_le_rpow (le_trans (by norm_num) hx) hxy (z := (0.45 : ℝ)) (by norm_num)
    linarith
  · have : (0.180242865 / 1.099 : ℝ) ≤ (0.01805397 : ℝ) ^ (0.45 : ℝ) := by
      rw [le_rpow_iff (m := 9) (n := 20) (by norm_num) (by norm_num) (by norm_num) (by norm_num)]; norm_num
    norm_num at this ⊢
    linarith

theorem dec_sdr_mono {x y : ℝ} (h0 : 0 ≤ x) (hxy : x ≤ y) :
    decodeTransfer ar .SDR x ≤ decodeTransfer ar .SDR y := by
  rw [dec_sdr h, dec_sdr h, ← add_zero (ite (y < 0.081490956) _ _)]
  refine mono_lt (a := fun x => x / 4.5) (b := fun x => ((x + 0.0993) / 1.099) ^ (1 / 0.45 : ℝ)) (lo := 0)
    le_rfl ?_ ?_ ?_ h0 hxy
  · intro x y _ hxy _; gcongr
  · intro x y hx hxy
    have : 0 ≤ x := le_trans (by norm_num) hx
    exact Real.rpow_le_rpow (by positivity) (by gcongr) (by norm_num)
  · rw [add_zero, le_rpow_iff (m := 20) (n := 9) (by norm_num) (by norm_num) (by norm_num) (by norm_num)]; norm_num

theorem enc_hlg_mono {x y : ℝ} (hxy : x ≤ y) :
    encodeTransfer ar .BT2100HLG x ≤ encodeTransfer ar .BT2100HLG y + 1e-7 := by
  rw [enc_hlg h, enc_hlg h]
  refine mono_le (a := fun m => Real.sqrt (m * 3)) (b := fun m => 0.17883277 * Real.log (12 * m - 0.28466892) + 0.5599107)
    (lo := 0) (by norm_num) ?_ ?_ ?_ (le_max_right _ _) (max_le_max_right 0 hxy)
  · intro x y _ hxy _; exact Real.sqrt_le_sqrt (by linarith)
  · intro x y hx hxy
    have hp : 0 < 12 * x - 0.28466892 := by norm_num; linarith
    have := Real.log_le_log hp (show 12 * x - 0.28466892 ≤ 12 * y - 0.28466892 by linarith)
    linarith
  · have h1 : Real.sqrt (1 / 12 * 3) ≤ 1 / 2 := by rw [Real.sqrt_le_left (by norm_num)]; norm_num
    have h2 : (0.4999999 - 0.5599107) / 0.17883277 ≤ Real.log (12 * (1 / 12) - 0.28466892) := by
      rw [Real.le_log_iff_exp_le (by norm_num)]
      refine exp_le (by rw [abs_le]; norm_num) ?_
      rw [abs_of_neg (by norm_num)]
      norm_num
    rw [div_le_iff₀ (by norm_num)] at h2
    norm_num at h1 h2 ⊢
    linarith

/-- HLG encoding decreases at its threshold. -/
theorem enc_hlg_drop : encodeTransfer ar .BT2100HLG (1 / 12 + 1e-9) < encodeTransfer ar .BT2100HLG (1 / 12) := by
  have hlt : (0.17883277 : ℝ) * Real.log (12 * (1 / 12 + 1e-9) - 0.28466892) + 0.5599107 < 1 / 2 := by
    have : Real.log (12 * (1 / 12 + 1e-9) - 0.28466892) < (0.5 - 0.5599107) / 0.17883277 := by
      rw [Real.log_lt_iff_lt_exp (by norm_num)]
      refine lt_of_lt_of_le (b := 0.7153311) (by norm_num) (le_exp (by rw [abs_le]; norm_num) ?_)
      rw [abs_of_neg (by norm_num)]
      norm_num
    rw [lt_div_iff₀ (by norm_num)] at this
    norm_num at this ⊢
    linarith
  rw [enc_hlg h, enc_hlg h, max_eq_left (by norm_num), if_neg (by norm_num), max_eq_left (by norm_num), if_pos le_rfl]
  refine lt_of_lt_of_le hlt (Real.le_sqrt_of_sq_le ?_)
  norm_num

theorem dec_hlg_mono {x y : ℝ} (hxy : x ≤ y) :
    decodeTransfer ar .BT2100HLG x ≤ decodeTransfer ar .BT2100HLG y := by
  rw [dec_hlg h, dec_hlg h, ← add_zero (ite (max y 0 ≤ 1 / 2) _ _)]
  refine mono_le (a := fun m => m ^ 2 / 3) (b := fun m => (Real.exp ((m - 0.5599107) / 0.17883277) + 0.28466892) / 12)
    (lo := 0) le_rfl ?_ ?_ ?_ (le_max_right _ _) (max_le_max_right 0 hxy)
  · intro x y _ hxy _; gcongr
  · intro x y hx hxy; gcongr
  · have : (0.71533108 : ℝ) ≤ Real.exp ((1 / 2 - 0.5599107) / 0.17883277) := by
      refine le_exp (by rw [abs_le]; norm_num) ?_
      rw [abs_of_neg (by norm_num)]
      norm_num
    norm_num at this ⊢
    linarith

theorem enc_pq_mono {x y : ℝ} (hxy : x ≤ y) :
    encodeTransfer ar .BT2100PQ x ≤ encodeTransfer ar .BT2100PQ y := by
  rw [enc_pq h, enc_pq h]
  have hx0 : 0 ≤ max x 0 := le_max_right _ _
  have hm : (max x 0 / 10000) ^ (0.15930176 : ℝ) ≤ (max y 0 / 10000) ^ (0.15930176 : ℝ) :=
    Real.rpow_le_rpow (by positivity) (by gcongr) (by norm_num)
  have h0 : 0 ≤ (max x 0 / 10000) ^ (0.15930176 : ℝ) := by positivity
  generalize (max x 0 / 10000) ^ (0.15930176 : ℝ) = a at *
  generalize (max y 0 / 10000) ^ (0.15930176 : ℝ) = b at *
  have hb : 0 ≤ b := le_trans h0 hm
  refine Real.rpow_le_rpow (by positivity) ?_ (by norm_num)
  rw [div_le_div_iff₀ (by positivity) (by positivity)]
  norm_num
  nlinarith

theorem dec_pq_mono {x y : ℝ} (hxy : x ≤ y) (hy : y ≤ 1) :
    decodeTransfer ar .BT2100PQ x ≤ decodeTransfer ar .BT2100PQ y := by
  rw [dec_pq h, dec_pq h]
  have hm : max x 0 ^ (1 / 78.84375 : ℝ) ≤ max y 0 ^ (1 / 78.84375 : ℝ) :=
    Real.rpow_le_rpow (le_max_right _ _) (max_le_max_right 0 hxy) (by norm_num)
  have h1 : max y 0 ^ (1 / 78.84375 : ℝ) ≤ 1 := Real.rpow_le_one (le_max_right _ _) (max_le hy (by norm_num)) (by norm_num)
  generalize max x 0 ^ (1 / 78.84375 : ℝ) = a at *
  generalize max y 0 ^ (1 / 78.84375 : ℝ) = b at *
  have ha : (0 : ℝ) < 18.851563 - a * 18.6875 := by norm_num; linarith
  have hb : (0 : ℝ) < 18.851563 - b * 18.6875 := by norm_num; linarith
  have : max (a - 0.8359375) 0 / (18.851563 - a * 18.6875) ≤ max (b - 0.8359375) 0 / (18.851563 - b * 18.6875) := by
    refine div_le_div₀ (le_max_right _ _) (max_le_max_right 0 (by linarith)) hb (by linarith)
  have := Real.rpow_le_rpow (by positivity) this (z := (1 / 0.15930176 : ℝ)) (by norm_num)
  linarith

theorem gamma_mono {x y : ℝ} (h0 : 0 ≤ x) (hxy : x ≤ y) :
    (encodeTransfer ar .Gamma22 x ≤ encodeTransfer ar .Gamma22 y ∧
      encodeTransfer ar .Gamma28 x ≤ encodeTransfer ar .Gamma28 y) ∧
    decodeTransfer ar .Gamma22 x ≤ decodeTransfer ar .Gamma22 y ∧
      decodeTransfer ar .Gamma28 x ≤ decodeTransfer ar .Gamma28 y := by
  simp only [enc_gamma22 h, enc_gamma28 h, dec_gamma22 h, dec_gamma28 h]
  exact ⟨⟨Real.rpow_le_rpow h0 hxy (by norm_num), Real.rpow_le_rpow h0 hxy (by norm_num)⟩,
    Real.rpow_le_rpow h0 hxy (by norm_num), Real.rpow_le_rpow h0 hxy (by norm_num)⟩

/-! ## Zero -/

theorem dec_zero (t : ColorTransfer) : decodeTransfer ar t 0 = 0 := by
  cases t
  · rfl
  · rw [dec_gamma22 h, Real.zero_rpow (by norm_num)]
  · rw [dec_gamma28 h, Real.zero_rpow (by norm_num)]
  · rw [dec_srgb h, if_pos (by norm_num), zero_div]
  · rw [dec_sdr h, if_pos (by norm_num), zero_div]
  · rw [dec_pq h, max_self, Real.zero_rpow (by norm_num), max_eq_right (by norm_num), zero_div,
      Real.zero_rpow (by norm_num), zero_mul]
  · rw [dec_hlg h, max_self, if_pos (by norm_num)]; norm_num

theorem enc_zero {t : ColorTransfer} (ht : t ≠ .BT2100PQ) : encodeTransfer ar t 0 = 0 := by
  cases t
  · rfl
  · rw [enc_gamma22 h, Real.zero_rpow (by norm_num)]
  · rw [enc_gamma28 h, Real.zero_rpow (by norm_num)]
  · rw [enc_srgb h, if_pos (by norm_num), zero_mul]
  · rw [enc_sdr h, if_pos (by norm_num), mul_zero]
  · exact absurd rfl ht
  · rw [enc_hlg h, max_self, if_pos (by norm_num), zero_mul, Real.sqrt_zero]

theorem enc_pq_zero : 0 < encodeTransfer ar .BT2100PQ 0 ∧ encodeTransfer ar .BT2100PQ 0 ≤ 1e-6 := by
  rw [enc_pq h, max_self, zero_div, Real.zero_rpow (by norm_num)]
  norm_num only
  constructor
  · positivity
  · refine le_trans (Real.rpow_le_rpow_of_exponent_ge (z := ((78 : ℕ) : ℝ)) (by norm_num) (by norm_num) (by norm_num)) ?_
    rw [Real.rpow_natCast]
    norm_num

/-! ## One -/

theorem enc_one {t : ColorTransfer} (ht : t ≠ .BT2100PQ) (ht' : t ≠ .BT2100HLG) : encodeTransfer ar t 1 = 1 := by
  cases t
  · rfl
  · rw [enc_gamma22 h, Real.one_rpow]
  · rw [enc_gamma28 h, Real.one_rpow]
  · rw [enc_srgb h, if_neg (by norm_num), Real.one_rpow]; norm_num
  · rw [enc_sdr h, if_neg (by norm_num), Real.one_rpow]; norm_num
  · exact absurd rfl ht
  · exact absurd rfl ht'

end
end Ezk

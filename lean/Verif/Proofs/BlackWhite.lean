import Verif.Proofs.Grey
import Verif.Proofs.ChangePq
import Verif.Proofs.EncodeCont

/-!
# The light of black and of white
-/

namespace Ezk
open F32 FOps Spec

attribute [local instance] ratOps

/-- Powers of zero nearly vanish. -/
theorem pow_zero_app {ar : Arith F32} (hf : Floats ar) (s : Bool) {y : F32} {Y : ℚ} (hy : Is y Y) (h1 : 2 ≤ Y) (h2 : Y ≤ 100) :
    App (ar.pow (fin s 0) y) 0 (1 / 10 ^ 12) := by
  have hY : (2 : ℝ) ≤ Y := by exact_mod_cast h1
  have he : Real.exp (-(87 * (Y : ℝ))) ≤ 1 / 10 ^ 20 := by
    have h3 : Real.exp (-(87 * (Y : ℝ))) ≤ Real.exp (-((100 : ℕ) : ℝ)) := Real.exp_le_exp.mpr (by push_cast; linarith)
    refine h3.trans ?_
    rw [Real.exp_neg, ← mul_one ((100 : ℕ) : ℝ), Real.exp_nat_mul, one_div]
    refine inv_anti₀ (by norm_num) (le_trans ?_ (pow_le_pow_left₀ (by norm_num) Real.exp_one_gt_d9.le 100))
    exact le_trans (by norm_num) (pow_le_pow_left₀ (by norm_num) (show (2 : ℝ) ≤ 2.7182818283 by norm_num) 100)
  obtain ⟨z, r, e, r0, hr⟩ : ∃ (z : Bool) (r : ℚ), ar.pow (fin s 0) y = fin z r ∧ 0 ≤ r ∧
      (r : ℝ) ≤ 101 / 100 * Real.exp (-(87 * Y)) + 5 / 2 ^ 126 := by
    cases s with
    | false =>
      obtain ⟨r, e, r0, hr⟩ := hf.lib.pow.2 rep_zero (le_refl _) (pow2_pos _) hy (by linarith) h2
      exact ⟨false, r, e, r0, hr⟩
    | true => exact hf.lib.negzero hy (by linarith) h2
  refine ⟨z, r, e, r0, ?_⟩
  rw [sub_zero]
  have r0' : (0 : ℝ) ≤ r := by exact_mod_cast r0
  have : |((signed z r : ℚ) : ℝ)| = r := by cases z <;> simp [signed, abs_of_nonneg r0']
  rw [this]
  norm_num at he hr ⊢
  linarith

/-- The light of black. -/
theorem black_light {rr : Arith ℝ} (hr : Exact rr) {ar : Arith F32} (hf : Floats ar) (t : ColorTransfer) :
    App (decodeTransfer ar t (ar.div (FOps.ofNat 0) (FOps.ofNat 255))) 0 (2 / 10 ^ 10) := by
  have e : ar.div (FOps.ofNat 0) (FOps.ofNat 255) = (fin false 0 : F32) := by rw [hf.div]; decide +kernel
  have hz : Is (fin false 0 : F32) 0 := is_zero
  by_cases ht : t = .BT2100PQ
  · subst ht
    have h := (light_pq_app hr hf (n := 0) (by norm_num)).1
    have z : decodeTransfer rr .BT2100PQ (((0 : Nat) : ℝ) / 255) = 0 := by
      rw [dec_pq hr]
      simp only [Nat.cast_zero, zero_div, max_self]
      rw [Real.zero_rpow (by norm_num), max_eq_right (by norm_num), zero_div, Real.zero_rpow (by norm_num), zero_mul]
    rw [z] at h
    exact h.mono (by norm_num)
  rw [e]
  have none : App (fin false 0 : F32) 0 (2 / 10 ^ 10) := ⟨false, 0, rfl, le_refl _, by norm_num [signed]⟩
  cases t with
  | Linear => exact none
  | Gamma22 => exact (pow_zero_app hf false is_22 (by norm_num) (by norm_num)).mono (by norm_num)
  | Gamma28 => exact (pow_zero_app hf false is_28 (by norm_num) (by norm_num)).mono (by norm_num)
  | SRGB =>
    simp only [decodeTransfer]
    rw [hf.le hz is_srgb_dec (le_refl _) (by norm_num), if_pos (by norm_num), hf.div]
    have : F32.div (fin false 0) (lit 12.92) = fin false 0 := by decide +kernel
    rw [this]; exact none
  | SDR =>
    simp only [decodeTransfer]
    rw [hf.lt hz is_sdr_dec (le_refl _) (by norm_num), if_pos (by norm_num), hf.div]
    have : F32.div (fin false 0) (lit 4.5) = fin false 0 := by decide +kernel
    rw [this]; exact none
  | BT2100PQ => exact absurd rfl ht
  | BT2100HLG =>
    simp only [decodeTransfer, hlgDecode]
    obtain ⟨s, em⟩ := hf.max_neg hz (le_refl _)
    have hs : Is (fin s 0 : F32) 0 := ⟨s, 0, rfl, le_refl _, by cases s <;> simp [signed]⟩
    rw [em, hf.le hs is_05 (le_refl _) (by norm_num), if_pos (by norm_num), hf.div]
    have := app_div_const (B := 1 / 10 ^ 8) (pow_zero_app hf s is_2 (le_refl _) (by norm_num)) is_3 (by norm_num) (by norm_num)
      (le_refl _) (by norm_num)
    rw [zero_div] at this
    exact this.mono (by norm_num)

/-- Nearly no light has nearly no signal: less than half a code. -/
theorem enc_black {rr : Arith ℝ} (he : Exact rr) (t : ColorTransfer) {a : ℝ} (h0 : 0 ≤ a) (h1 : a ≤ 11 / 10 ^ 9) :
    encodeTransfer rr t a ≤ 17 / 10 ^ 4 := by
  cases t with
  | Linear => simp only [encodeTransfer]; norm_num at h1 ⊢; linarith
  | Gamma22 =>
    rw [enc_gamma22 he]
    refine (Real.rpow_le_rpow h0 h1 (by norm_num)).trans (le_of_lt ?_)
    rw [rpow_lt_iff (m := 5) (n := 11) (by norm_num) (by norm_num) (by norm_num) (by norm_num)]; norm_num
  | Gamma28 =>
    rw [enc_gamma28 he]
    refine (Real.rpow_le_rpow h0 h1 (by norm_num)).trans (le_of_lt ?_)
    rw [rpow_lt_iff (m := 5) (n := 14) (by norm_num) (by norm_num) (by norm_num) (by norm_num)]; norm_num
  | SRGB => rw [enc_srgb he, if_pos (by norm_num at h1 ⊢; linarith)]; norm_num at h1 ⊢; linarith
  | SDR => rw [enc_sdr he, if_pos (by norm_num at h1 ⊢; linarith)]; norm_num at h1 ⊢; linarith
  | BT2100HLG =>
    rw [enc_hlg he, max_eq_left h0, if_pos (by norm_num at h1 ⊢; linarith)]
    apply Real.sqrt_le_iff.mpr
    norm_num at h1 ⊢; linarith
  | BT2100PQ =>
    rw [enc_pq he, max_eq_left h0]
    have y0 : 0 ≤ (a / 10000) ^ (0.15930176 : ℝ) := by positivity
    have y1 : (a / 10000) ^ (0.15930176 : ℝ) ≤ 0.014 := by
      calc (a / 10000) ^ (0.15930176 : ℝ) ≤ (11 / 10 ^ 13 : ℝ) ^ (0.15930176 : ℝ) :=
            Real.rpow_le_rpow (by positivity) (by norm_num at h1 ⊢; linarith) (by norm_num)
        _ ≤ (11 / 10 ^ 13 : ℝ) ^ (5 / 32 : ℝ) :=
            Real.rpow_le_rpow_of_exponent_ge (by norm_num) (by norm_num) (by norm_num)
        _ ≤ 0.014 := by
          apply le_of_lt
          rw [rpow_lt_iff (m := 5) (n := 32) (by norm_num) (by norm_num) (by norm_num) (by norm_num)]; norm_num
    generalize (a / 10000) ^ (0.15930176 : ℝ) = y at *
    have r0 : 0 ≤ (y * 18.851563 + 0.8359375) / (y * 18.6875 + 1) := by positivity
    have r1 : (y * 18.851563 + 0.8359375) / (y * 18.6875 + 1) ≤ 0.88 := by
      rw [div_le_iff₀ (by positivity)]
      norm_num at y1 ⊢; linarith
    calc _ ≤ (0.88 : ℝ) ^ (78.84375 : ℝ) := Real.rpow_le_rpow r0 r1 (by norm_num)
      _ ≤ (0.88 : ℝ) ^ ((78 : ℕ) : ℝ) := Real.rpow_le_rpow_of_exponent_ge (by norm_num) (by norm_num) (by norm_num)
      _ ≤ 17 / 10 ^ 4 := by rw [Real.rpow_natCast]; norm_num

/-- Light of nearly 1 or more has a signal of nearly 1 or more, except for PQ. -/
theorem enc_white {rr : Arith ℝ} (he : Exact rr) {t : ColorTransfer} (ht : t ≠ .BT2100PQ) {a : ℝ} (h : 9989 / 10 ^ 4 ≤ a) :
    9985 / 10 ^ 4 ≤ encodeTransfer rr t a := by
  have root : ∀ {Z : ℝ}, 0 ≤ Z → Z ≤ 1 → 9989 / 10 ^ 4 ≤ a ^ Z := by
    intro Z h0 h1
    calc (9989 / 10 ^ 4 : ℝ) = (9989 / 10 ^ 4 : ℝ) ^ (1 : ℝ) := (Real.rpow_one _).symm
      _ ≤ (9989 / 10 ^ 4 : ℝ) ^ Z := Real.rpow_le_rpow_of_exponent_ge (by norm_num) (by norm_num) h1
      _ ≤ a ^ Z := Real.rpow_le_rpow (by norm_num) h h0
  cases t with
  | Linear => simp only [encodeTransfer]; norm_num at h ⊢; linarith
  | Gamma22 =>
    rw [enc_gamma22 he]
    have := root (Z := 1 / 2.2) (by norm_num) (by norm_num)
    generalize a ^ (1 / 2.2 : ℝ) = z at *
    norm_num at this ⊢; linarith
  | Gamma28 =>
    rw [enc_gamma28 he]
    have := root (Z := 1 / 2.8) (by norm_num) (by norm_num)
    generalize a ^ (1 / 2.8 : ℝ) = z at *
    norm_num at this ⊢; linarith
  | SRGB =>
    rw [enc_srgb he, if_neg (by norm_num at h ⊢; linarith)]
    have := root (Z := 1 / 2.4) (by norm_num) (by norm_num)
    generalize a ^ (1 / 2.4 : ℝ) = z at *
    norm_num at this ⊢; linarith
  | SDR =>
    rw [enc_sdr he, if_neg (by norm_num at h ⊢; linarith)]
    have := root (Z := 0.45) (by norm_num) (by norm_num)
    generalize a ^ (0.45 : ℝ) = z at *
    norm_num at this ⊢; linarith
  | BT2100PQ => exact absurd rfl ht
  | BT2100HLG =>
    have h' : (0.9989 : ℝ) ≤ a := by norm_num at h ⊢; exact h
    rw [enc_hlg he, max_eq_left (by linarith), if_neg (by norm_num; linarith)]
    have hlog : (2.4526 : ℝ) ≤ Real.log (12 * a - 0.28466892) := by
      rw [Real.le_log_iff_exp_le (by norm_num; linarith)]
      refine le_trans ?_ (show (11.7 : ℝ) ≤ _ by norm_num; linarith)
      have e : Real.exp (2.4526 : ℝ) = Real.exp (2.4526 / 4) ^ 4 := by rw [← Real.exp_nat_mul]; norm_num
      have l2 : Real.exp (2.4526 / 4 : ℝ) ≤ (1.848 : ℝ) := by
        refine exp_le (by rw [abs_le]; norm_num) ?_
        rw [abs_of_pos (by norm_num)]; norm_num
      rw [e]
      exact (pow_le_pow_left₀ (Real.exp_pos _).le l2 4).trans (by norm_num)
    norm_num at hlog ⊢
    linarith

end Ezk

import Verif.Proofs.PqReal
import Verif.Proofs.Standards

/-!
# ICtCp over the reals
-/

namespace Ezk
open FOps Spec

/-- The PQ signal, bounded. -/
theorem pq_power {y : ℝ} (y0 : 0 < y) :
    pqF y ^ (78.84375 : ℝ) ≤ 2 * Real.exp (-(13.62 / (y * 18.6875 + 1))) := by
  set w := y * 18.6875 + 1 with hw
  have w0 : 1 < w := by rw [hw]; norm_num; linarith
  have F0 : 0 < pqF y := by unfold pqF; positivity
  rw [Real.rpow_def_of_pos F0]
  have hlog := Real.log_le_sub_one_of_pos F0
  have hb1 : (pqF y - 1) * 78.84375 ≤ 0.6931 + -(13.62 / w) := by
    have e : pqF y - 1 = (y * 0.164063 - 0.1640625) / w := by
      unfold pqF
      rw [← hw]
      field_simp
      rw [hw]
      norm_num
      ring
    rw [e]
    have : (0.6931 + -(13.62 / w)) - (y * 0.164063 - 0.1640625) / w * 78.84375 =
        (0.6931 * w - 13.62 - (y * 0.164063 - 0.1640625) * 78.84375) / w := by field_simp; ring
    have h3 : 0 ≤ (0.6931 * w - 13.62 - (y * 0.164063 - 0.1640625) * 78.84375) / w := by
      apply div_nonneg _ (by linarith)
      rw [hw]
      norm_num at *
      linarith
    linarith
  have h2 : Real.exp 0.6931 ≤ 2 := by
    have := Real.log_two_gt_d9
    rw [show (2 : ℝ) = Real.exp (Real.log 2) from (Real.exp_log (by norm_num)).symm]
    exact Real.exp_le_exp.mpr (by norm_num at this ⊢; linarith)
  calc Real.exp (Real.log (pqF y) * 78.84375) ≤ Real.exp (0.6931 + -(13.62 / w)) :=
        Real.exp_le_exp.mpr (by norm_num at hb1 hlog ⊢; nlinarith)
    _ = Real.exp 0.6931 * Real.exp (-(13.62 / w)) := Real.exp_add _ _
    _ ≤ _ := mul_le_mul_of_nonneg_right h2 (Real.exp_pos _).le

theorem cubic_exp_neg {t : ℝ} (h : 0 ≤ t) : Real.exp (-t) * (1 + t + t ^ 2 / 2 + t ^ 3 / 6) ≤ 1 := by
  have := Real.sum_le_exp_of_nonneg h 4
  simp only [Finset.sum_range_succ, Finset.sum_range_zero, Nat.factorial] at this
  rw [Real.exp_neg, inv_mul_le_iff₀ (Real.exp_pos _)]
  norm_num at this ⊢
  linarith

/-- The slope of the PQ encoder over the logarithm of light is at most 0.115. -/
theorem pq_log_slope {y : ℝ} (y0 : 0 < y) :
    pqF y ^ (78.84375 : ℝ) * (40.82 * y) ≤
      0.115 * ((y * 18.851563 + 0.8359375) * (y * 18.6875 + 1)) := by
  have h := pq_power y0
  set w := y * 18.6875 + 1 with hw
  have w0 : 1 < w := by rw [hw]; norm_num; linarith
  have c := cubic_exp_neg (t := 13.62 / w) (by positivity)
  have e : (1 + 13.62 / w + (13.62 / w) ^ 2 / 2 + (13.62 / w) ^ 3 / 6) =
      (w ^ 3 + 13.62 * w ^ 2 + 13.62 ^ 2 / 2 * w + 13.62 ^ 3 / 6) / w ^ 3 := by field_simp
  rw [e, ← mul_div_assoc, div_le_one (by positivity)] at c
  have ey : y = (w - 1) / 18.6875 := by rw [hw]; norm_num
  set E := Real.exp (-(13.62 / w))
  have E0 : 0 < E := Real.exp_pos _
  set P := w ^ 3 + 13.62 * w ^ 2 + 13.62 ^ 2 / 2 * w + 13.62 ^ 3 / 6 with hP
  have P0 : 0 < P := by rw [hP]; positivity
  have poly : 2 * w ^ 3 * (40.82 * y) ≤ 0.115 * ((y * 18.851563 + 0.8359375) * w) * P := by
    have q : 2 * w ^ 2 * (40.82 * y) ≤ 0.115 * (y * 18.851563 + 0.8359375) * P := by
      rw [ey, hP]
      clear_value w E P
      norm_num
      nlinarith [sq_nonneg (w - 13.4), mul_nonneg (sub_nonneg.mpr w0.le) (sq_nonneg (w - 13.4)), sq_nonneg (w * (w - 13.4)),
        mul_nonneg (sub_nonneg.mpr w0.le) (sq_nonneg (w - 12))]
    have := mul_le_mul_of_nonneg_right q (show 0 ≤ w by linarith)
    nlinarith
  have step : E * (40.82 * y) * 2 ≤ 0.115 * ((y * 18.851563 + 0.8359375) * w) := by
    have k := mul_le_mul_of_nonneg_right c (show 0 ≤ 2 * (40.82 * y) by positivity)
    have : E * (40.82 * y) * 2 * P ≤ 0.115 * ((y * 18.851563 + 0.8359375) * w) * P := by
      calc E * (40.82 * y) * 2 * P = E * P * (2 * (40.82 * y)) := by ring
        _ ≤ w ^ 3 * (2 * (40.82 * y)) := k
        _ = 2 * w ^ 3 * (40.82 * y) := by ring
        _ ≤ _ := poly
    exact le_of_mul_le_mul_right this P0
  have := mul_le_mul_of_nonneg_right h (show 0 ≤ 40.82 * y by positivity)
  linarith

/-- The PQ encoder turns relative changes of light into changes of the signal. -/
theorem pq_rel_up {l m d : ℝ} (h0 : 0 < l) (hlm : l ≤ m) (hd : m ≤ (1 + d) * l) (d1 : d ≤ 1 / 100) :
    pqF ((m / 10000) ^ (0.15930176 : ℝ)) ^ (78.84375 : ℝ) ≤ pqF ((l / 10000) ^ (0.15930176 : ℝ)) ^ (78.84375 : ℝ) + 0.115 * d := by
  have d0 : 0 ≤ d := by nlinarith
  set y := (l / 10000) ^ (0.15930176 : ℝ) with hy
  set z := (m / 10000) ^ (0.15930176 : ℝ) with hz
  have y0 : 0 < y := Real.rpow_pos_of_pos (by positivity) _
  have yz : y ≤ z := Real.rpow_le_rpow (by positivity) (by linarith) (by norm_num)
  have zy : z ≤ y * (1 + 0.15930176 * d) := by
    calc z ≤ (l / 10000 * (1 + d)) ^ (0.15930176 : ℝ) :=
          Real.rpow_le_rpow (div_nonneg (by linarith) (by norm_num)) (by linarith) (by norm_num)
      _ = y * (1 + d) ^ (0.15930176 : ℝ) := Real.mul_rpow (by positivity) (by positivity)
      _ ≤ _ := by
        refine mul_le_mul_of_nonneg_left ?_ y0.le
        exact rpow_one_add_le_one_add_mul_self (by linarith) (by norm_num) (by norm_num)
  clear_value y z
  have key := pq_log_slope y0
  have F0 : 0 < pqF y := by unfold pqF; positivity
  set A := y * 18.851563 + 0.8359375 with hA
  set w := y * 18.6875 + 1 with hw
  have A0 : 0 < A := by positivity
  have w0 : 0 < w := by positivity
  have v0 : 0 < z * 18.6875 + 1 := by nlinarith
  set κ := 0.51455 * y / (A * w) with hκ
  have κ0 : 0 ≤ κ := by positivity
  have hκ1 : κ * (A * w) = 0.51455 * y := by rw [hκ]; field_simp
  have κ1 : κ ≤ 75 / 10 ^ 4 := by
    rw [hκ, div_le_iff₀ (by positivity), hA, hw]
    nlinarith [sq_nonneg (18.769 * y - 0.9143)]
  have hF : pqF z ≤ pqF y * (1 + κ * d) := by
    unfold pqF
    rw [← hA, ← hw, div_mul_eq_mul_div, div_le_div_iff₀ v0 w0]
    have a : 3.22998096875 * (z - y) ≤ 0.51455 * (y * d) := by nlinarith
    have b : A * w * κ * d ≤ A * (z * 18.6875 + 1) * κ * d := by
      have : w ≤ z * 18.6875 + 1 := by rw [hw]; norm_num; linarith
      gcongr
    have c : A * w * κ * d = 0.51455 * (y * d) := by
      calc A * w * κ * d = κ * (A * w) * d := by ring
        _ = _ := by rw [hκ1]; ring
    have e : (z * 18.851563 + 0.8359375) * w = A * (z * 18.6875 + 1) + 3.22998096875 * (z - y) := by
      rw [hA, hw]; norm_num; ring
    calc (z * 18.851563 + 0.8359375) * w = A * (z * 18.6875 + 1) + 3.22998096875 * (z - y) := e
      _ ≤ A * (z * 18.6875 + 1) + A * (z * 18.6875 + 1) * κ * d := by linarith
      _ = _ := by ring
  have Fz : 0 ≤ pqF z := by unfold pqF; have : 0 < z := by linarith
                            positivity
  have e : (1 + κ * d) ^ (78.84375 : ℝ) ≤ 1 + 79.32 * κ * d := by
    have b : (1 + κ * d) ^ (78.84375 : ℝ) ≤ Real.exp (78.84375 * (κ * d)) := by
      rw [Real.rpow_def_of_pos (by positivity)]
      refine Real.exp_le_exp.mpr ?_
      have := Real.log_le_sub_one_of_pos (show 0 < 1 + κ * d by positivity)
      norm_num at this ⊢
      linarith
    have κd : κ * d ≤ 75 / 10 ^ 6 := by
      calc κ * d ≤ 75 / 10 ^ 4 * (1 / 100) := mul_le_mul κ1 d1 d0 (by norm_num)
        _ = _ := by norm_num
    have κd0 : 0 ≤ κ * d := by positivity
    have c := (abs_le.mp (Real.abs_exp_sub_one_sub_id_le (x := 78.84375 * (κ * d)) (by
      rw [abs_of_nonneg (by positivity)]; norm_num at κd ⊢; linarith))).2
    have : (78.84375 * (κ * d)) ^ 2 ≤ 0.4663 * (κ * d) := by
      have := mul_le_mul_of_nonneg_right κd κd0
      norm_num at this ⊢; nlinarith
    norm_num at this b c ⊢
    linarith
  have W0 : 0 ≤ pqF y ^ (78.84375 : ℝ) := Real.rpow_nonneg F0.le _
  have fin : pqF y ^ (78.84375 : ℝ) * (79.32 * κ) ≤ 0.115 := by
    have : pqF y ^ (78.84375 : ℝ) * (79.32 * κ) * (A * w) ≤ 0.115 * (A * w) := by
      calc pqF y ^ (78.84375 : ℝ) * (79.32 * κ) * (A * w) = pqF y ^ (78.84375 : ℝ) * (79.32 * (κ * (A * w))) := by ring
        _ = pqF y ^ (78.84375 : ℝ) * (79.32 * (0.51455 * y)) := by rw [hκ1]
        _ ≤ pqF y ^ (78.84375 : ℝ) * (40.82 * y) := by
          refine mul_le_mul_of_nonneg_left ?_ W0
          norm_num; linarith
        _ ≤ _ := key
    exact le_of_mul_le_mul_right this (by positivity)
  calc pqF z ^ (78.84375 : ℝ) ≤ (pqF y * (1 + κ * d)) ^ (78.84375 : ℝ) := Real.rpow_le_rpow Fz hF (by norm_num)
    _ = pqF y ^ (78.84375 : ℝ) * (1 + κ * d) ^ (78.84375 : ℝ) := Real.mul_rpow F0.le (by positivity)
    _ ≤ pqF y ^ (78.84375 : ℝ) * (1 + 79.32 * κ * d) := mul_le_mul_of_nonneg_left e W0
    _ = pqF y ^ (78.84375 : ℝ) + pqF y ^ (78.84375 : ℝ) * (79.32 * κ) * d := by ring
    _ ≤ _ := by
      have := mul_le_mul_of_nonneg_right fin d0
      linarith

theorem sqrt_rel_up {l m d : ℝ} (h0 : 0 < l) (h1 : l ≤ 1 / 12) (hlm : l ≤ m) (hd : m ≤ (1 + d) * l) :
    Real.sqrt (m * 3) ≤ Real.sqrt (l * 3) + d / 4 := by
  have d0 : 0 ≤ d := by nlinarith
  have s0 : 0 < Real.sqrt (l * 3) := Real.sqrt_pos.mpr (by positivity)
  have s1 : Real.sqrt (l * 3) ≤ 1 / 2 := by rw [Real.sqrt_le_left (by norm_num)]; linarith
  have s2 : Real.sqrt (l * 3) ^ 2 = l * 3 := Real.sq_sqrt (by positivity)
  calc Real.sqrt (m * 3) ≤ Real.sqrt (l * 3) * (1 + d / 2) := by
        apply Real.sqrt_le_iff.mpr ⟨by positivity, ?_⟩
        rw [mul_pow, s2]
        nlinarith [mul_nonneg h0.le (sq_nonneg d)]
    _ ≤ _ := by nlinarith

theorem log_rel_up {l m d : ℝ} (h1 : 1 / 12 ≤ l) (hlm : l ≤ m) (hd : m ≤ (1 + d) * l) :
    0.17883277 * Real.log (12 * m - 0.28466892) ≤ 0.17883277 * Real.log (12 * l - 0.28466892) + 251 / 1000 * d := by
  have d0 : 0 ≤ d := by nlinarith
  have p1 : 0 < 12 * l - 0.28466892 := by norm_num; linarith
  have p2 : 0 < 12 * m - 0.28466892 := by norm_num; linarith
  have hl := Real.log_le_sub_one_of_pos (div_pos p2 p1)
  rw [Real.log_div p2.ne' p1.ne'] at hl
  have hq : (12 * m - 0.28466892) / (12 * l - 0.28466892) - 1 ≤ 1.3981 * d := by
    rw [div_sub_one p1.ne', div_le_iff₀ p1]
    norm_num at *
    nlinarith
  norm_num at *
  linarith

/-- The HLG encoder turns relative changes of light into changes of the signal. -/
theorem hlg_rel_up {ar : Arith ℝ} (h : Exact ar) {l m d : ℝ} (h0 : 0 < l) (hlm : l ≤ m) (hd : m ≤ (1 + d) * l) :
    encodeTransfer ar .BT2100HLG m ≤ encodeTransfer ar .BT2100HLG l + 251 / 1000 * d + 1 / 10 ^ 6 := by
  have d0 : 0 ≤ d := by nlinarith
  rw [enc_hlg h, enc_hlg h, max_eq_left h0.le, max_eq_left (by linarith)]
  split
  · rename_i hm
    rw [if_pos (by linarith)]
    have := sqrt_rel_up h0 (by linarith) hlm hd
    norm_num at *; linarith
  · rename_i hm
    rw [not_le] at hm
    split
    · rename_i hl
      have a := sqrt_rel_up (m := 1 / 12) (d := 1 / 12 / l - 1) h0 hl hl (by
        rw [add_sub_cancel, div_mul_cancel₀ _ h0.ne'])
      have b := log_rel_up (l := 1 / 12) (m := m) (d := 12 * m - 1) le_rfl hm.le (by linarith)
      have dd : (1 / 12 / l - 1) + (12 * m - 1) ≤ d := by
        have e : 1 / 12 / l * (12 * m) = m / l := by field_simp
        have e1 : m / l ≤ 1 + d := by rw [div_le_iff₀ h0]; exact hd
        have e2 : 0 ≤ 1 / 12 / l - 1 := by rw [sub_nonneg, le_div_iff₀ h0]; linarith
        nlinarith
      have k0 : 0 ≤ 1 / 12 / l - 1 := by rw [sub_nonneg, le_div_iff₀ h0]; linarith
      generalize 1 / 12 / l - 1 = k at a dd k0
      have e1 : (1 / 2 : ℝ) ≤ Real.sqrt (1 / 12 * 3) := Real.le_sqrt_of_sq_le (by norm_num)
      have e2 : Real.log (12 * (1 / 12) - 0.28466892) ≤ (0.5 - 0.5599106) / 0.17883277 := by
        rw [Real.log_le_iff_le_exp (by norm_num)]
        refine le_exp (by rw [abs_le]; norm_num) ?_
        rw [abs_of_neg (by norm_num)]
        norm_num
      rw [le_div_iff₀ (by norm_num)] at e2
      norm_num at *
      linarith
    · rename_i hl
      have := log_rel_up (not_le.mp hl).le hlm hd
      norm_num at *; linarith

section
variable {ar : Arith ℝ} (h : Exact ar)
include h

theorem pq_rel {l m d : ℝ} (h0 : 0 ≤ l) (hd : |m - l| ≤ d * l) (d1 : d ≤ 15 / 10 ^ 4) :
    |encodeTransfer ar .BT2100PQ m - encodeTransfer ar .BT2100PQ l| ≤ 116 / 1000 * d ∨ l = 0 ∧ m = 0 := by
  rcases h0.eq_or_lt with rfl | h0
  · right; rw [mul_zero] at hd; exact ⟨rfl, by simpa using abs_nonpos_iff.mp hd⟩
  left
  have d0 : 0 ≤ d := by
    have := (abs_nonneg _).trans hd
    by_contra hc
    nlinarith
  obtain ⟨g1, g2⟩ := abs_le.mp hd
  have m0 : 0 < m := by nlinarith
  rw [enc_pq h, enc_pq h, max_eq_left h0.le, max_eq_left m0.le]
  change |pqF ((m / 10000) ^ (0.15930176 : ℝ)) ^ (78.84375 : ℝ) - pqF ((l / 10000) ^ (0.15930176 : ℝ)) ^ (78.84375 : ℝ)| ≤ _
  have mono : ∀ {a b : ℝ}, 0 < a → a ≤ b → pqF ((a / 10000) ^ (0.15930176 : ℝ)) ^ (78.84375 : ℝ) ≤
      pqF ((b / 10000) ^ (0.15930176 : ℝ)) ^ (78.84375 : ℝ) := by
    intro a b ha hab
    have := enc_pq_mono h hab
    rw [enc_pq h, enc_pq h, max_eq_left ha.le, max_eq_left (by linarith)] at this
    exact this
  rcases le_total l m with hlm | hlm
  · have a := pq_rel_up (d := d) h0 hlm (by linarith) (by linarith)
    rw [abs_of_nonneg (by linarith [mono h0 hlm])]
    linarith
  · have a := pq_rel_up (l := m) (m := l) (d := 1002 / 1000 * d) m0 hlm (by nlinarith) (by linarith)
    rw [abs_of_nonpos (by linarith [mono m0 hlm])]
    linarith

theorem hlg_rel {l m d : ℝ} (h0 : 0 ≤ l) (hd : |m - l| ≤ d * l) (d1 : d ≤ 15 / 10 ^ 4) :
    |encodeTransfer ar .BT2100HLG m - encodeTransfer ar .BT2100HLG l| ≤ 252 / 1000 * d + 1 / 10 ^ 6 ∨ l = 0 ∧ m = 0 := by
  rcases h0.eq_or_lt with rfl | h0
  · right; rw [mul_zero] at hd; exact ⟨rfl, by simpa using abs_nonpos_iff.mp hd⟩
  left
  have d0 : 0 ≤ d := by
    have := (abs_nonneg _).trans hd
    by_contra hc
    nlinarith
  obtain ⟨g1, g2⟩ := abs_le.mp hd
  have m0 : 0 < m := by nlinarith
  rcases le_total l m with hlm | hlm
  · have a := hlg_rel_up h (d := d) h0 hlm (by linarith)
    have b := enc_hlg_mono h hlm
    rw [abs_le]
    norm_num at b ⊢
    constructor <;> linarith
  · have a := hlg_rel_up h (l := m) (m := l) (d := 1002 / 1000 * d) m0 hlm (by nlinarith)
    have b := enc_hlg_mono h hlm
    rw [abs_le]
    norm_num at b ⊢
    constructor <;> linarith

/-- The encoded light of cone responses that are nearly those of the standard. -/
theorem pq_rel_std {l m d : ℝ} (h0 : 0 ≤ l) (h1 : l ≤ 10000) (hd : |m - l| ≤ d * l) (d0 : 0 ≤ d) (d1 : d ≤ 15 / 10 ^ 4) :
    |encodeTransfer ar .BT2100PQ m - Standard.toSignal .BT2100PQ l| ≤ 116 / 1000 * d + 1 / 10 ^ 5 := by
  have a := std_enc_pq h h0 h1
  rcases pq_rel h h0 hd d1 with b | ⟨rfl, rfl⟩
  · rw [abs_le] at *
    constructor <;> linarith [a.1, a.2, b.1, b.2]
  · exact a.trans (by linarith)

theorem hlg_rel_std {l m d : ℝ} (h0 : 0 ≤ l) (hd : |m - l| ≤ d * l) (d0 : 0 ≤ d) (d1 : d ≤ 15 / 10 ^ 4) :
    |encodeTransfer ar .BT2100HLG m - Standard.toSignal .BT2100HLG l| ≤ 252 / 1000 * d + 2 / 10 ^ 6 := by
  have a := std_enc_hlg h h0
  rcases hlg_rel h h0 hd d1 with b | ⟨rfl, rfl⟩
  · rw [abs_le] at *
    constructor <;> linarith [a.1, a.2, b.1, b.2]
  · refine a.trans ?_
    norm_num; linarith

/-- The cone responses of the code. -/
theorem lms_near {r g b : ℝ} (r0 : 0 ≤ r) (g0 : 0 ≤ g) (b0 : 0 ≤ b) :
    let c := toLms ar (rowMul ar (r, g, b) ColorPrimaries.BT2020.rgbToXyzMat)
    let s := Standard.lms (r, g, b)
    |c.1 - s.1| ≤ 11 / 10 ^ 5 * s.1 ∧ |c.2.1 - s.2.1| ≤ 22 / 10 ^ 5 * s.2.1 ∧ |c.2.2 - s.2.2| ≤ 33 / 10 ^ 5 * s.2.2 := by
  simp only [toLms, rowMul, dot_real h, lit_real, ColorPrimaries.rgbToXyzMat, BT2020_RGB_TO_XYZ, Standard.lms]
  norm_num [Rat.cast_ofScientific]
  refine ⟨?_, ?_, ?_⟩ <;> rw [abs_le] <;> constructor <;> linarith

end

/-- Cone responses are no brighter than the light. -/
theorem lms_range {r g b x : ℝ} (r0 : 0 ≤ r) (g0 : 0 ≤ g) (b0 : 0 ≤ b) (hr : r ≤ x) (hg : g ≤ x) (hb : b ≤ x) :
    let s := Standard.lms (r, g, b)
    (0 ≤ s.1 ∧ s.1 ≤ x) ∧ (0 ≤ s.2.1 ∧ s.2.1 ≤ x) ∧ 0 ≤ s.2.2 ∧ s.2.2 ≤ x := by
  simp only [Standard.lms]
  refine ⟨⟨by positivity, ?_⟩, ⟨by positivity, ?_⟩, by positivity, ?_⟩ <;> rw [div_le_iff₀ (by norm_num)] <;> linarith

end Ezk

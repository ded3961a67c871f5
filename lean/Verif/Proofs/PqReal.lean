import Verif.Proofs.PowApp

/-!
# PQ: the real functions

How powers, and the PQ curve, react to small changes.
-/

namespace Ezk

/-- A power below 1 does not enlarge relative errors. -/
theorem rpow_rel_root {p q M d : ℝ} (hq : 0 < q) (hp : 0 < p) (hM0 : 0 ≤ M) (hM1 : M ≤ 1) (h : |p - q| ≤ d * q) :
    |p ^ M - q ^ M| ≤ d * q ^ M := by
  have hqM := Real.rpow_pos_of_pos hq M
  have hr : 0 < p / q := by positivity
  have e : p ^ M = (p / q) ^ M * q ^ M := by
    rw [Real.div_rpow hp.le hq.le]; field_simp
  have hd : |p / q - 1| ≤ d := by
    rw [show p / q - 1 = (p - q) / q by field_simp, abs_div, abs_of_pos hq, div_le_iff₀ hq]; exact h
  have key : |(p / q) ^ M - 1| ≤ d := by
    rw [abs_le] at hd ⊢
    rcases le_total 1 (p / q) with h1 | h1
    · have a : 1 ≤ (p / q) ^ M := Real.one_le_rpow h1 hM0
      have b : (p / q) ^ M ≤ (p / q) ^ (1 : ℝ) := Real.rpow_le_rpow_of_exponent_le h1 hM1
      rw [Real.rpow_one] at b
      constructor <;> linarith [hd.1, hd.2]
    · have a : (p / q) ^ M ≤ 1 := Real.rpow_le_one hr.le h1 hM0
      have b : (p / q) ^ (1 : ℝ) ≤ (p / q) ^ M := Real.rpow_le_rpow_of_exponent_ge hr h1 hM1
      rw [Real.rpow_one] at b
      constructor <;> linarith [hd.1, hd.2]
  rw [e, show (p / q) ^ M * q ^ M - q ^ M = ((p / q) ^ M - 1) * q ^ M by ring, abs_mul, abs_of_pos hqM]
  exact mul_le_mul_of_nonneg_right key hqM.le

/-- A power above 1 multiplies relative errors. -/
theorem rpow_rel {p q M d : ℝ} (hq : 0 < q) (hp : 0 < p) (hM : 1 ≤ M) (hd1 : M * d ≤ 1) (h : |p - q| ≤ d * q) :
    |p ^ M - q ^ M| ≤ (M * d + (M * d) ^ 2) * q ^ M := by
  have hqM := Real.rpow_pos_of_pos hq M
  have hr : 0 < p / q := by positivity
  have e : p ^ M = (p / q) ^ M * q ^ M := by
    rw [Real.div_rpow hp.le hq.le]; field_simp
  have hd : |p / q - 1| ≤ d := by
    rw [show p / q - 1 = (p - q) / q by field_simp, abs_div, abs_of_pos hq, div_le_iff₀ hq]; exact h
  have hd0 : 0 ≤ d := (abs_nonneg _).trans hd
  have hMd : 0 ≤ M * d := by positivity
  have key : |(p / q) ^ M - 1| ≤ M * d + (M * d) ^ 2 := by
    rw [abs_le] at hd ⊢
    constructor
    · have a := one_add_mul_self_le_rpow_one_add (s := p / q - 1) (by linarith) hM
      rw [add_sub_cancel] at a
      have b : -(M * d) ≤ M * (p / q - 1) := by nlinarith [hd.1]
      nlinarith [sq_nonneg (M * d)]
    · have a : (p / q) ^ M ≤ Real.exp (M * d) := by
        rw [Real.rpow_def_of_pos hr]
        refine Real.exp_le_exp.mpr ?_
        have := Real.log_le_sub_one_of_pos hr
        nlinarith [hd.2]
      have b := (abs_le.mp (Real.abs_exp_sub_one_sub_id_le (x := M * d) (by rw [abs_of_nonneg hMd]; exact hd1))).2
      linarith
  rw [e, show (p / q) ^ M * q ^ M - q ^ M = ((p / q) ^ M - 1) * q ^ M by ring, abs_mul, abs_of_pos hqM]
  exact mul_le_mul_of_nonneg_right key hqM.le

/-- Powers of numbers up to 1 with nearly the same exponent. -/
theorem rpow_exponent {p Y Z c : ℝ} (hp : 0 < p) (hp1 : p ≤ 1) (hc : 0 < c) (hY : c ≤ Y) (hZ : c ≤ Z) :
    |p ^ Y - p ^ Z| ≤ |Y - Z| / c := by
  wlog h : Y ≤ Z generalizing Y Z
  · rw [abs_sub_comm, abs_sub_comm Y]
    exact this hZ hY (not_le.mp h).le
  have hY0 : 0 < Y := by linarith
  have hm : p ^ Z ≤ p ^ Y := Real.rpow_le_rpow_of_exponent_ge hp hp1 h
  rw [abs_of_nonneg (by linarith), abs_sub_comm, abs_of_nonneg (by linarith)]
  have e : p ^ Z = p ^ Y * Real.exp (Real.log p * (Z - Y)) := by
    rw [← Real.rpow_def_of_pos hp, ← Real.rpow_add hp]; congr 1; ring
  have hq0 : 0 < p ^ Y := Real.rpow_pos_of_pos hp _
  have h2 := mul_le_mul_of_nonneg_left (Real.add_one_le_exp (Real.log p * (Z - Y))) hq0.le
  rw [← e] at h2
  have h4 := neg_log_rpow hp hY0
  have h5 : (1 - p ^ Y) / Y ≤ 1 / c := by
    rw [div_le_div_iff₀ hY0 hc]
    nlinarith
  have h6 : -Real.log p * p ^ Y * (Z - Y) ≤ 1 / c * (Z - Y) := mul_le_mul_of_nonneg_right (h4.trans h5) (by linarith)
  have e2 : (Z - Y) / c = 1 / c * (Z - Y) := by ring
  rw [e2]
  linarith

/-- The error of `pow` for bases up to 1: the logarithm does no harm. -/
theorem pow_error_unit {p Y : ℝ} (hp : 0 < p) (hp1 : p ≤ 1) (hY : 0 < Y) :
    (43 / 10 ^ 8 + 17 / 10 ^ 8 * Y * (1 + |Real.log p|)) * p ^ Y ≤
      43 / 10 ^ 8 * p ^ Y + 17 / 10 ^ 8 * (Y * p ^ Y + (1 - p ^ Y)) := by
  rw [abs_of_nonpos (Real.log_nonpos hp.le hp1)]
  have h2 := neg_log_rpow hp hY
  rw [le_div_iff₀ hY] at h2
  have e : (43 / 10 ^ 8 + 17 / 10 ^ 8 * Y * (1 + -Real.log p)) * p ^ Y =
      43 / 10 ^ 8 * p ^ Y + 17 / 10 ^ 8 * (Y * p ^ Y + (-Real.log p * p ^ Y * Y)) := by ring
  rw [e]
  linarith

/-- `t² e^(-t)` is at most `4 / e²`. -/
theorem sq_exp_neg {t : ℝ} (ht : 0 < t) : Real.exp (-t) * t ^ 2 ≤ 5415 / 10000 := by
  have h1 := Real.add_one_le_exp (t / 2 - 1)
  have h2 : Real.exp (t / 2 - 1) * Real.exp 1 = Real.exp (t / 2) := by rw [← Real.exp_add]; congr 1; ring
  have he := Real.exp_one_gt_d9
  have h3 : t / 2 * (27182 / 10000) ≤ Real.exp (t / 2) := by
    rw [← h2]
    exact mul_le_mul (by linarith) (by norm_num at he ⊢; linarith) (by norm_num) (Real.exp_pos _).le
  have h4 : Real.exp (t / 2) * Real.exp (t / 2) = Real.exp t := by rw [← Real.exp_add]; congr 1; ring
  have h5 : (t / 2 * (27182 / 10000)) ^ 2 ≤ Real.exp t := by
    rw [← h4, ← sq]; exact pow_le_pow_left₀ (by positivity) h3 2
  rw [Real.exp_neg, inv_mul_le_iff₀ (Real.exp_pos _)]
  nlinarith

/-- The fraction inside the PQ encoder. -/
noncomputable def pqF (y : ℝ) : ℝ := (y * 18.851563 + 0.8359375) / (y * 18.6875 + 1)

theorem pqF_bounds {y : ℝ} (h0 : -3 / 10 ^ 6 ≤ y) (h1 : y ≤ 1 + 3 / 10 ^ 6) :
    83585 / 100000 ≤ pqF y ∧ pqF y ≤ 1 + 6 / 10 ^ 8 := by
  have hw : 0 < y * 18.6875 + 1 := by norm_num at h0 ⊢; linarith
  unfold pqF
  constructor
  · rw [le_div_iff₀ hw]; norm_num at *; linarith
  · rw [div_le_iff₀ hw]; norm_num at *; linarith

/-- Beyond the brightest light. -/
theorem pqF_wide {y : ℝ} (h0 : -3 / 10 ^ 6 ≤ y) (h1 : y ≤ 123 / 100) : 83585 / 100000 ≤ pqF y ∧ pqF y ≤ 1 + 2 / 1000 := by
  have hw : 0 < y * 18.6875 + 1 := by norm_num at h0 ⊢; linarith
  unfold pqF
  constructor
  · rw [le_div_iff₀ hw]; norm_num at *; linarith
  · rw [div_le_iff₀ hw]; norm_num at *; linarith

/-- The slope of the PQ encoder in `y = (light / 10000) ^ m1` is at most 2. -/
theorem pq_slope {y z : ℝ} (h0 : -3 / 10 ^ 6 ≤ y) (hyz : y ≤ z) (h1 : z ≤ 1 + 3 / 10 ^ 6) (hd : z - y ≤ 1 / 1000) :
    pqF z ^ (78.84375 : ℝ) - pqF y ^ (78.84375 : ℝ) ≤ 2 * (z - y) := by
  obtain ⟨b0, b1⟩ := pqF_bounds (y := z) (by linarith) h1
  obtain ⟨a0, a1⟩ := pqF_bounds h0 (by linarith)
  set w := z * 18.6875 + 1 with hw
  set v := y * 18.6875 + 1 with hv
  have hv0 : 999 / 1000 < v := by rw [hv]; norm_num at *; linarith
  have hw0 : 999 / 1000 < w := by rw [hw]; norm_num at *; linarith
  have hdiff : pqF z - pqF y = 3.22998096875 * (z - y) / (v * w) := by
    unfold pqF
    rw [← hw, ← hv]
    field_simp
    rw [hw, hv]
    norm_num
    ring
  have hle : pqF y ≤ pqF z := by
    have : 0 ≤ 3.22998096875 * (z - y) / (v * w) := by
      apply div_nonneg <;> [skip; positivity]
      norm_num; linarith
    linarith
  have ht := rpow_tangent (a := pqF y) (b := pqF z) (Y := 78.84375) (by linarith) hle (by norm_num)
  refine ht.trans ?_
  have hb0 : 0 < pqF z := by linarith
  -- the power
  have hpw : pqF z ^ (78.84375 - 1 : ℝ) ≤ 2 * Real.exp (-(13.62 / w)) / (83585 / 100000) := by
    rw [Real.rpow_sub_one hb0.ne']
    have hx : pqF z ^ (78.84375 : ℝ) ≤ 2 * Real.exp (-(13.62 / w)) := by
      rw [Real.rpow_def_of_pos hb0]
      have hlog := Real.log_le_sub_one_of_pos hb0
      have hb1 : (pqF z - 1) * 78.84375 ≤ 0.6931 + -(13.62 / w) := by
        have e : pqF z - 1 = (z * 0.164063 - 0.1640625) / w := by
          unfold pqF
          rw [← hw]
          field_simp
          rw [hw]
          norm_num
          ring
        rw [e]
        have : (0.6931 + -(13.62 / w)) - (z * 0.164063 - 0.1640625) / w * 78.84375 =
            (0.6931 * w - 13.62 - (z * 0.164063 - 0.1640625) * 78.84375) / w := by field_simp; ring
        have h3 : 0 ≤ (0.6931 * w - 13.62 - (z * 0.164063 - 0.1640625) * 78.84375) / w := by
          apply div_nonneg _ (by linarith)
          rw [hw]
          norm_num at *
          linarith
        linarith
      have h2 : Real.exp 0.6931 ≤ 2 := by
        have := Real.log_two_gt_d9
        rw [show (2 : ℝ) = Real.exp (Real.log 2) from (Real.exp_log (by norm_num)).symm]
        exact Real.exp_le_exp.mpr (by norm_num at this ⊢; linarith)
      calc Real.exp (Real.log (pqF z) * 78.84375) ≤ Real.exp (0.6931 + -(13.62 / w)) :=
            Real.exp_le_exp.mpr (by norm_num at hb1 hlog ⊢; nlinarith)
        _ = Real.exp 0.6931 * Real.exp (-(13.62 / w)) := Real.exp_add _ _
        _ ≤ _ := mul_le_mul_of_nonneg_right h2 (Real.exp_pos _).le
    exact div_le_div₀ (by positivity) hx (by norm_num) b0
  have hs := sq_exp_neg (t := 13.62 / w) (by positivity)
  rw [div_pow, ← mul_div_assoc, div_le_iff₀ (by positivity)] at hs
  have hvw : w ≤ 102 / 100 * v := by rw [hw, hv]; norm_num at *; linarith
  rw [hdiff]
  set E := Real.exp (-(13.62 / w)) with hE
  have hE0 : 0 < E := Real.exp_pos _
  have hEv : E ≤ 3 / 1000 * (v * w) := by
    norm_num at hs ⊢
    nlinarith
  calc 78.84375 * pqF z ^ (78.84375 - 1 : ℝ) * (3.22998096875 * (z - y) / (v * w))
      ≤ 78.84375 * (2 * E / (83585 / 100000)) * (3.22998096875 * (z - y) / (v * w)) := by
        gcongr
    _ = (78.84375 * 2 / (83585 / 100000) * 3.22998096875) * (z - y) * (E / (v * w)) := by field_simp
    _ ≤ (78.84375 * 2 / (83585 / 100000) * 3.22998096875) * (z - y) * (3 / 1000) := by
        have hq : E / (v * w) ≤ 3 / 1000 := by rw [div_le_iff₀ (by positivity)]; exact hEv
        apply mul_le_mul_of_nonneg_left hq
        apply mul_nonneg (by norm_num); linarith
    _ ≤ 2 * (z - y) := by norm_num; linarith

end Ezk

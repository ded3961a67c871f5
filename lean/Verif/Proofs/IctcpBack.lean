import Verif.Proofs.IctcpReal

/-!
# ICtCp back to light, over the reals
-/

namespace Ezk
open FOps Spec

/-- A power far below 1 divides relative errors. -/
theorem rpow_rel_small {p q M d : ℝ} (hq : 0 < q) (hp : 0 < p) (hM0 : 0 < M) (hM1 : M ≤ 1) (d1 : d ≤ 1 / 100)
    (h : |p - q| ≤ d * q) : |p ^ M - q ^ M| ≤ 102 / 100 * M * d * q ^ M := by
  have hqM := Real.rpow_pos_of_pos hq M
  have hr : 0 < p / q := by positivity
  have e : p ^ M = (p / q) ^ M * q ^ M := by
    rw [Real.div_rpow hp.le hq.le]; field_simp
  have hd : |p / q - 1| ≤ d := by
    rw [show p / q - 1 = (p - q) / q by field_simp, abs_div, abs_of_pos hq, div_le_iff₀ hq]; exact h
  have hd0 : 0 ≤ d := (abs_nonneg _).trans hd
  have Md : 0 ≤ M * d := by positivity
  have key : |(p / q) ^ M - 1| ≤ 102 / 100 * M * d := by
    rw [abs_le] at hd ⊢
    constructor
    · have a := Real.one_sub_inv_le_log_of_pos hr
      have b : 1 + M * Real.log (p / q) ≤ (p / q) ^ M := by
        rw [Real.rpow_def_of_pos hr]
        have := Real.add_one_le_exp (Real.log (p / q) * M)
        linarith
      have c : (p / q)⁻¹ ≤ 1 + 102 / 100 * d := by
        rw [inv_le_iff_one_le_mul₀ hr]
        nlinarith [hd.1]
      have := mul_le_mul_of_nonneg_left (show -(102 / 100 * d) ≤ Real.log (p / q) by linarith) hM0.le
      linarith
    · have a := rpow_one_add_le_one_add_mul_self (s := p / q - 1) (by linarith) hM0.le hM1
      rw [add_sub_cancel] at a
      have := mul_le_mul_of_nonneg_left hd.2 hM0.le
      linarith
  rw [e, show (p / q) ^ M * q ^ M - q ^ M = ((p / q) ^ M - 1) * q ^ M by ring, abs_mul, abs_of_pos hqM]
  exact mul_le_mul_of_nonneg_right key hqM.le

/-- The fraction inside the PQ encoder, `c` being the constant the code rounds. -/
noncomputable def stdF (c y : ℝ) : ℝ := (0.8359375 + c * y) / (1 + 18.6875 * y)

theorem std_pqF (l : ℝ) : Standard.toSignal .BT2100PQ l =
    stdF 18.8515625 ((l / 10000) ^ (0.1593017578125 : ℝ)) ^ (78.84375 : ℝ) := by
  have e1 : Standard.c1 = 0.8359375 := by unfold Standard.c1; norm_num
  have e2 : Standard.c2 = 18.8515625 := by unfold Standard.c2; norm_num
  have e3 : Standard.c3 = 18.6875 := by unfold Standard.c3; norm_num
  have e4 : Standard.m2 = 78.84375 := by unfold Standard.m2; norm_num
  have e5 : Standard.m1 = 0.1593017578125 := by unfold Standard.m1; norm_num
  simp only [Standard.toSignal, e1, e2, e3, e4, e5, stdF]

/-- The fraction inside the PQ decoder of the code, applied to a slightly wrong argument, against that of the standard. -/
theorem pq_frac {c y q : ℝ} (c0 : 18.8515625 ≤ c) (c1 : c ≤ 18.851563) (y0 : 8 / 100 ≤ y) (y1 : y ≤ 1 + 1 / 1000)
    (hq : |q - stdF c y| ≤ 27 / 10 ^ 8) :
    0 < (max (q - 0.8359375) 0 / (18.851563 - q * 18.6875)) ∧
    |max (q - 0.8359375) 0 / (18.851563 - q * 18.6875) - y| ≤ 4 / 10 ^ 5 * y := by
  have w0 : 0 < 1 + 18.6875 * y := by positivity
  have hP : stdF c y * (1 + 18.6875 * y) = 0.8359375 + c * y := by
    unfold stdF; field_simp
  have cy0 : 18.8515625 * y ≤ c * y := mul_le_mul_of_nonneg_right c0 (by linarith)
  have cy1 : c * y ≤ 18.851563 * y := mul_le_mul_of_nonneg_right c1 (by linarith)
  have P1 : stdF c y ≤ 1 + 1 / 10 ^ 5 := by unfold stdF; rw [div_le_iff₀ w0]; norm_num at *; linarith
  have P0 : 92 / 100 ≤ stdF c y := by unfold stdF; rw [le_div_iff₀ w0]; norm_num at *; linarith
  have hP2 : (stdF c y - 0.8359375) = c * y - 18.6875 * stdF c y * y := by linarith
  generalize stdF c y = P at *
  obtain ⟨g1, g2⟩ := abs_le.mp hq
  have n0 : 0 < q - 0.8359375 := by norm_num at *; linarith
  have m0 : 0 < 18.851563 - q * 18.6875 := by norm_num at *; linarith
  rw [max_eq_left n0.le]
  refine ⟨div_pos n0 m0, ?_⟩
  have e : (q - 0.8359375) / (18.851563 - q * 18.6875) - y =
      ((q - P) * (1 + 18.6875 * y) - (18.851563 * y - c * y)) / (18.851563 - q * 18.6875) := by
    field_simp
    norm_num at hP2 ⊢
    linarith
  rw [e, abs_div, abs_of_pos m0, div_le_iff₀ m0]
  have k1 : (q - P) * (1 + 18.6875 * y) ≤ 27 / 10 ^ 8 * (1 + 18.6875 * y) := mul_le_mul_of_nonneg_right g2 w0.le
  have k2 : -(27 / 10 ^ 8) * (1 + 18.6875 * y) ≤ (q - P) * (1 + 18.6875 * y) := mul_le_mul_of_nonneg_right g1 w0.le
  have hden : 3.2298 ≤ (18.851563 - q * 18.6875) * (1 + 18.6875 * y) := by
    have : (18.851563 - q * 18.6875) * (1 + 18.6875 * y) = 18.851563 - 18.6875 * 0.8359375 + 18.6875 * (18.851563 * y - c * y) -
        18.6875 * ((q - P) * (1 + 18.6875 * y)) := by
      norm_num at hP ⊢; linarith
    rw [this]
    norm_num at *
    linarith
  have key : (27 / 10 ^ 8 * (1 + 18.6875 * y) + 0.0000005 * y) * (1 + 18.6875 * y) ≤ 4 / 10 ^ 5 * y * 3.2298 := by
    norm_num at *
    nlinarith [mul_nonneg (sub_nonneg.mpr y0) (sub_nonneg.mpr y1)]
  have fin : 27 / 10 ^ 8 * (1 + 18.6875 * y) + 0.0000005 * y ≤ 4 / 10 ^ 5 * y * (18.851563 - q * 18.6875) := by
    refine le_of_mul_le_mul_right (key.trans ?_) w0
    rw [mul_assoc _ _ (1 + 18.6875 * y)]
    exact mul_le_mul_of_nonneg_left hden (by positivity)
  rw [abs_le]
  have y5 : 0 ≤ 0.0000005 * y := by positivity
  norm_num at *
  constructor <;> linarith

theorem stdF_le {c y z : ℝ} (c0 : 18.8515625 ≤ c) (h0 : 0 ≤ y) (h : y ≤ z) : stdF c y ≤ stdF c z := by
  unfold stdF
  rw [div_le_div_iff₀ (by positivity) (by nlinarith)]
  norm_num at *
  nlinarith

/-- Near black, the decoded light stays dark. -/
theorem pq_dark {c y v : ℝ} (c0 : 18.8515625 ≤ c) (c1 : c ≤ 18.851563) (y0 : 0 ≤ y) (hy : y ≤ 9 / 100) (hv : v ≤ stdF c y ^ (78.84375 : ℝ) + 2 / 10 ^ 7) :
    let l := (max (max v 0 ^ (1 / 78.84375 : ℝ) - 0.8359375) 0 / (18.851563 - max v 0 ^ (1 / 78.84375 : ℝ) * 18.6875)) ^
      (1 / 0.15930176 : ℝ) * 10000
    0 ≤ l ∧ l ≤ 5 / 1000 := by
  intro l
  have cp : 0 ≤ c := le_trans (by norm_num) c0
  have F0 : 0 ≤ stdF c y := by unfold stdF; positivity
  have F1 : stdF c y ≤ 0.9444 := (stdF_le c0 y0 hy).trans (by unfold stdF; norm_num at c1 ⊢; linarith)
  have a1 : stdF c y ^ (78.84375 : ℝ) ≤ (0.9444 : ℝ) ^ (78.84375 : ℝ) := Real.rpow_le_rpow F0 F1 (by norm_num)
  have a2 : (1 / 1000 : ℝ) ≤ (0.9444 : ℝ) ^ (78.84375 : ℝ) := by
    refine le_trans ?_ (Real.rpow_le_rpow_of_exponent_ge (y := (79 : ℝ)) (by norm_num) (by norm_num) (by norm_num))
    rw [show (79 : ℝ) = ((79 : ℕ) : ℝ) by norm_num, Real.rpow_natCast]
    norm_num
  have a3 : (0.9444 : ℝ) ^ (78.84375 : ℝ) * (1 + 2 / 10) ≤ (0.947 : ℝ) ^ (78.84375 : ℝ) := by
    have e : (0.947 : ℝ) = 0.9444 * (1 + 26 / 9444) := by norm_num
    rw [e, Real.mul_rpow (by norm_num) (by norm_num)]
    refine mul_le_mul_of_nonneg_left ?_ (by positivity)
    refine le_trans ?_ (one_add_mul_self_le_rpow_one_add (by norm_num) (by norm_num))
    norm_num
  have hq : max v 0 ^ (1 / 78.84375 : ℝ) ≤ 0.947 := by
    have b : max v 0 ≤ (0.947 : ℝ) ^ (78.84375 : ℝ) := by
      refine max_le ?_ (by positivity)
      norm_num at *
      linarith
    calc max v 0 ^ (1 / 78.84375 : ℝ) ≤ ((0.947 : ℝ) ^ (78.84375 : ℝ)) ^ (1 / 78.84375 : ℝ) :=
          Real.rpow_le_rpow (le_max_right _ _) b (by norm_num)
      _ = 0.947 := by rw [← Real.rpow_mul (by norm_num)]; norm_num
  simp only [l]
  clear l
  generalize max v 0 ^ (1 / 78.84375 : ℝ) = q at *
  have d0 : 0 < 18.851563 - q * 18.6875 := by norm_num at *; linarith
  have hz : max (q - 0.8359375) 0 / (18.851563 - q * 18.6875) ≤ 0.0963 := by
    rw [div_le_iff₀ d0]
    refine max_le ?_ ?_ <;> norm_num at * <;> linarith
  have z0 : 0 ≤ max (q - 0.8359375) 0 / (18.851563 - q * 18.6875) := div_nonneg (le_max_right _ _) d0.le
  have c' : (0.0963 : ℝ) ^ (1 / 0.15930176 : ℝ) ≤ 5 / 10 ^ 7 := by
    refine (Real.rpow_le_rpow_of_exponent_ge (z := 25 / 4) (by norm_num) (by norm_num) (by norm_num)).trans (le_of_lt ?_)
    rw [rpow_lt_iff (m := 25) (n := 4) (by norm_num) (by norm_num) (by norm_num) (by norm_num)]
    norm_num
  have := (Real.rpow_le_rpow z0 hz (z := 1 / 0.15930176) (by norm_num)).trans c'
  exact ⟨by positivity, by linarith⟩

/-- The two exponents of PQ light. -/
theorem pq_exponents {y : ℝ} (y0 : 9 / 100 ≤ y) (y1 : y ≤ 1) :
    |y ^ (1 / 0.15930176 : ℝ) - y ^ (1 / 0.1593017578125 : ℝ)| ≤ 1 / 10 ^ 6 * y ^ (1 / 0.1593017578125 : ℝ) := by
  have yp : 0 < y := by linarith
  have e : y ^ (1 / 0.15930176 : ℝ) = y ^ (1 / 0.1593017578125 : ℝ) * y⁻¹ ^ (1 / 0.1593017578125 - 1 / 0.15930176 : ℝ) := by
    rw [Real.inv_rpow yp.le, ← Real.rpow_neg yp.le, ← Real.rpow_add yp]; congr 1; ring
  have i1 : 1 ≤ y⁻¹ := (one_le_inv₀ yp).mpr y1
  have i2 : y⁻¹ ≤ 100 / 9 := by rw [inv_le_comm₀ yp (by norm_num)]; norm_num; linarith
  have a : 1 ≤ y⁻¹ ^ (1 / 0.1593017578125 - 1 / 0.15930176 : ℝ) := Real.one_le_rpow i1 (by norm_num)
  have b := rpow_one_add_le_one_add_mul_self (s := y⁻¹ - 1) (p := (1 / 0.1593017578125 - 1 / 0.15930176 : ℝ)) (by linarith) (by norm_num)
    (by norm_num)
  rw [add_sub_cancel] at b
  have c : y⁻¹ ^ (1 / 0.1593017578125 - 1 / 0.15930176 : ℝ) ≤ 1 + 1 / 10 ^ 6 := by
    refine b.trans ?_
    norm_num
    linarith
  have p := Real.rpow_pos_of_pos yp (1 / 0.1593017578125 : ℝ)
  rw [e]
  generalize y⁻¹ ^ (1 / 0.1593017578125 - 1 / 0.15930176 : ℝ) = w at *
  generalize y ^ (1 / 0.1593017578125 : ℝ) = u at *
  rw [show u * w - u = u * (w - 1) by ring, abs_mul, abs_of_pos p, abs_of_nonneg (by linarith), mul_comm]
  exact mul_le_mul_of_nonneg_right (by linarith) p.le

/-- Decoding a PQ signal that is almost right, of light that is not too dark. -/
theorem pq_bright {c y v : ℝ} (c0 : 18.8515625 ≤ c) (c1 : c ≤ 18.851563) (hd : 9 / 100 ≤ y) (y1 : y ≤ 1 + 1 / 1000)
    (hv : |v - stdF c y ^ (78.84375 : ℝ)| ≤ 2 / 10 ^ 7) :
    |(max (max v 0 ^ (1 / 78.84375 : ℝ) - 0.8359375) 0 / (18.851563 - max v 0 ^ (1 / 78.84375 : ℝ) * 18.6875)) ^ (1 / 0.15930176 : ℝ) -
      y ^ (1 / 0.15930176 : ℝ)| ≤ 26 / 10 ^ 5 * y ^ (1 / 0.15930176 : ℝ) := by
  have y0 : 0 < y := by linarith
  have cy0 : 18.8515625 * y ≤ c * y := mul_le_mul_of_nonneg_right c0 y0.le
  have cy1 : c * y ≤ 18.851563 * y := mul_le_mul_of_nonneg_right c1 y0.le
  obtain ⟨g1, g2⟩ := abs_le.mp hv
  have F0 : 0.9443 ≤ stdF c y := le_trans (by unfold stdF; norm_num at *; linarith) (stdF_le c0 (by norm_num) hd)
  have w0 : 0 < 1 + 18.6875 * y := by positivity
  have F1 : stdF c y ≤ 1 + 1 / 10 ^ 5 := by unfold stdF; rw [div_le_iff₀ w0]; norm_num at *; linarith
  have s0 : (1 / 100 : ℝ) ≤ stdF c y ^ (78.84375 : ℝ) := by
    calc (1 / 100 : ℝ) ≤ (0.9443 : ℝ) ^ (79 : ℕ) := by norm_num
      _ = (0.9443 : ℝ) ^ (79 : ℝ) := by rw [← Real.rpow_natCast]; norm_num
      _ ≤ (0.9443 : ℝ) ^ (78.84375 : ℝ) := Real.rpow_le_rpow_of_exponent_ge (by norm_num) (by norm_num) (by norm_num)
      _ ≤ _ := Real.rpow_le_rpow (by norm_num) F0 (by norm_num)
  have v0 : 0 < v := by norm_num at *; linarith
  rw [max_eq_left v0.le]
  have hq := rpow_rel_small (p := v) (q := stdF c y ^ (78.84375 : ℝ)) (M := 1 / 78.84375) (d := 2 / 10 ^ 5) (by linarith) v0
    (by norm_num) (by norm_num) (by norm_num) (hv.trans (by linarith))
  have eP : (stdF c y ^ (78.84375 : ℝ)) ^ (1 / 78.84375 : ℝ) = stdF c y := by
    rw [← Real.rpow_mul (by norm_num at F0; linarith)]; norm_num
  rw [eP] at hq
  have hq2 : |v ^ (1 / 78.84375 : ℝ) - stdF c y| ≤ 27 / 10 ^ 8 := by
    refine hq.trans ?_
    norm_num at *
    linarith
  obtain ⟨z0, hz⟩ := pq_frac c0 c1 (by linarith) y1 hq2
  have hr := rpow_rel (M := 1 / 0.15930176) y0 z0 (by norm_num) (by norm_num) hz
  refine hr.trans (mul_le_mul_of_nonneg_right (by norm_num) (Real.rpow_nonneg y0.le _))

theorem dark_light {l m : ℝ} (m1 : m ≤ 4 / 25) (h : (l / 10000) ^ m ≤ 9 / 100) (h1 : 0 ≤ m) : l ≤ 5 / 1000 := by
  by_contra hc
  rw [not_le] at hc
  have : (9 / 100 : ℝ) < (5 / 10000000 : ℝ) ^ m := by
    refine lt_of_lt_of_le (b := (5 / 10000000 : ℝ) ^ (4 / 25 : ℝ)) ?_
      (Real.rpow_le_rpow_of_exponent_ge (by norm_num) (by norm_num) m1)
    refine lt_of_lt_of_le (b := 91 / 1000) (by norm_num) ?_
    rw [le_rpow_iff (m := 4) (n := 25) (by norm_num) (by norm_num) (by norm_num) (by norm_num)]
    norm_num
  have b : (5 / 10000000 : ℝ) ^ m ≤ (l / 10000) ^ m := Real.rpow_le_rpow (by norm_num) (by linarith) h1
  linarith

/-- Decoding a signal that is almost that of the standard. -/
theorem dec_pq_std {ar : Arith ℝ} (h : Exact ar) {l v : ℝ} (h0 : 0 ≤ l) (h1 : l ≤ 10000)
    (hv : |v - Standard.toSignal .BT2100PQ l| ≤ 2 / 10 ^ 7) :
    |decodeTransfer ar .BT2100PQ v - l| ≤ 3 / 10 ^ 4 * l + 5 / 1000 := by
  rw [std_pqF] at hv
  rw [dec_pq h]
  have l0 : 0 ≤ l / 10000 := by positivity
  set y := (l / 10000) ^ (0.1593017578125 : ℝ) with hy
  have y0 : 0 ≤ y := Real.rpow_nonneg l0 _
  have y1 : y ≤ 1 := Real.rpow_le_one l0 (by rw [div_le_one (by norm_num)]; exact h1) (by norm_num)
  obtain ⟨g1, g2⟩ := abs_le.mp hv
  rcases le_total y (9 / 100) with hd | hd
  · -- near black
    have hl : l ≤ 5 / 1000 := dark_light (by norm_num) hd (by norm_num)
    obtain ⟨a, b⟩ := pq_dark (v := v) le_rfl (by norm_num) y0 hd (by linarith)
    rw [abs_le]
    constructor <;> linarith
  · have hr := pq_bright le_rfl (by norm_num) hd (by linarith) hv
    have he := pq_exponents hd y1
    have eL : y ^ (1 / 0.1593017578125 : ℝ) = l / 10000 := by
      rw [hy, ← Real.rpow_mul l0]; norm_num
    rw [eL] at he
    generalize (max (max v 0 ^ (1 / 78.84375 : ℝ) - 0.8359375) 0 / (18.851563 - max v 0 ^ (1 / 78.84375 : ℝ) * 18.6875)) ^ (1 / 0.15930176 : ℝ) = A at *
    generalize y ^ (1 / 0.15930176 : ℝ) = C at *
    rw [abs_le] at *
    norm_num at hr he ⊢
    constructor <;> linarith [hr.1, hr.2, he.1, he.2]

/-- Decoding a signal that is almost that of the code. -/
theorem dec_pq_enc {ar : Arith ℝ} (h : Exact ar) {l v : ℝ} (h0 : 0 ≤ l) (h1 : l ≤ 10005)
    (hv : |v - encodeTransfer ar .BT2100PQ l| ≤ 2 / 10 ^ 7) :
    |decodeTransfer ar .BT2100PQ v - l| ≤ 3 / 10 ^ 4 * l + 5 / 1000 := by
  have e : encodeTransfer ar .BT2100PQ l = stdF 18.851563 ((l / 10000) ^ (0.15930176 : ℝ)) ^ (78.84375 : ℝ) := by
    rw [enc_pq h, max_eq_left h0, stdF]
    congr 2
    · ring
    · ring
  rw [e] at hv
  rw [dec_pq h]
  have l0 : 0 ≤ l / 10000 := by positivity
  have y0 : 0 ≤ (l / 10000) ^ (0.15930176 : ℝ) := Real.rpow_nonneg l0 _
  have y1 : (l / 10000) ^ (0.15930176 : ℝ) ≤ 1 + 1 / 1000 := by
    rcases le_total l 10000 with hl | hl
    · have := Real.rpow_le_one (x := l / 10000) (z := 0.15930176) l0 (by rw [div_le_iff₀ (by norm_num)]; linarith) (by norm_num)
      linarith
    · calc (l / 10000) ^ (0.15930176 : ℝ) ≤ (l / 10000) ^ (1 : ℝ) :=
            Real.rpow_le_rpow_of_exponent_le (by rw [le_div_iff₀ (by norm_num)]; linarith) (by norm_num)
        _ = l / 10000 := Real.rpow_one _
        _ ≤ _ := by rw [div_le_iff₀ (by norm_num)]; linarith
  obtain ⟨g1, g2⟩ := abs_le.mp hv
  rcases le_total ((l / 10000) ^ (0.15930176 : ℝ)) (9 / 100) with hd | hd
  · have hl : l ≤ 5 / 1000 := dark_light (by norm_num) hd (by norm_num)
    obtain ⟨a, b⟩ := pq_dark (v := v) (by norm_num) le_rfl y0 hd (by linarith)
    rw [abs_le]
    constructor <;> linarith
  · have hr := pq_bright (by norm_num) le_rfl hd y1 hv
    have eL : ((l / 10000) ^ (0.15930176 : ℝ)) ^ (1 / 0.15930176 : ℝ) = l / 10000 := by
      rw [← Real.rpow_mul l0]; norm_num
    rw [eL] at hr
    rw [abs_le] at *
    constructor <;> linarith [hr.1, hr.2]

/-- Decoding an HLG signal that is almost that of the standard. -/
theorem dec_hlg_std {ar : Arith ℝ} (h : Exact ar) {l v : ℝ} (h0 : 0 ≤ l) (hv : |v - Standard.toSignal .BT2100HLG l| ≤ 4 / 10 ^ 7) :
    |decodeTransfer ar .BT2100HLG v - l| ≤ 3 / 10 ^ 6 * l + 1 / 10 ^ 6 := by
  have hb : Standard.b = 0.28466892 := by unfold Standard.b Standard.a; norm_num
  have hc := abs_le.mp hlg_c
  have ha : Standard.a = 0.17883277 := rfl
  rw [dec_hlg h]
  obtain ⟨g1, g2⟩ := abs_le.mp hv
  -- light of the upper branch
  have upper : ∀ {s : ℝ}, |v - s| ≤ 4 / 10 ^ 7 → ∀ {w : ℝ}, 0 < w → s = Standard.a * Real.log w + Standard.c →
      |Real.exp ((v - 0.5599107) / 0.17883277) - w| ≤ 29 / 10 ^ 7 * w := by
    intro s hs w hw e
    obtain ⟨g1, g2⟩ := abs_le.mp hs
    have e1 : Real.exp ((v - 0.5599107) / 0.17883277) = w * Real.exp ((v - s + (Standard.c - 0.5599107)) / 0.17883277) := by
      conv_rhs => rw [← Real.exp_log hw, ← Real.exp_add]
      congr 1
      rw [e, ha]
      field_simp
      ring
    set d := (v - s + (Standard.c - 0.5599107)) / 0.17883277 with hd
    have d1 : |d| ≤ 28 / 10 ^ 7 := by
      rw [hd, abs_div, abs_of_pos (by norm_num : (0 : ℝ) < 0.17883277), div_le_iff₀ (by norm_num), abs_le]
      norm_num at *
      constructor <;> linarith [hc.1, hc.2]
    have b := Real.abs_exp_sub_one_sub_id_le (x := d) (d1.trans (by norm_num))
    have d2 : d ^ 2 ≤ 1 / 10 ^ 8 := by
      rw [← sq_abs]
      exact (pow_le_pow_left₀ (abs_nonneg _) d1 2).trans (by norm_num)
    have k : |Real.exp d - 1| ≤ 29 / 10 ^ 7 := by
      rw [abs_le] at *
      norm_num at *
      constructor <;> linarith [b.1, b.2, d1.1, d1.2]
    rw [e1, show w * Real.exp d - w = (Real.exp d - 1) * w by ring, abs_mul, abs_of_pos hw]
    exact mul_le_mul_of_nonneg_right k hw.le
  have half : (1 / 2 : ℝ) = Standard.a * Real.log (4 * Standard.a) + Standard.c := by
    unfold Standard.c; norm_num
  have pa : 0 < 4 * Standard.a := by rw [ha]; norm_num
  simp only [Standard.toSignal] at hv g1 g2
  split at hv
  · rename_i hl
    rw [if_pos hl] at g1 g2
    have s0 := Real.sqrt_nonneg (3 * l)
    have s1 : Real.sqrt (3 * l) ≤ 1 / 2 := by rw [Real.sqrt_le_left (by norm_num)]; linarith
    have s2 : Real.sqrt (3 * l) ^ 2 = 3 * l := Real.sq_sqrt (by positivity)
    generalize Real.sqrt (3 * l) = s at *
    split
    · have m1 : |max v 0 - s| ≤ 4 / 10 ^ 7 := by
        rcases le_total v 0 with c | c
        · rw [max_eq_right c, abs_le]; norm_num at *; constructor <;> linarith
        · rw [max_eq_left c]; exact hv
      have m2 : (0 : ℝ) ≤ max v 0 := le_max_right _ _
      generalize max v 0 = u at *
      rw [abs_le] at *
      norm_num at *
      constructor <;> nlinarith
    · rename_i hv2
      rw [not_le] at hv2
      have v2 : 1 / 2 < v := by
        rcases lt_max_iff.mp hv2 with c | c
        · exact c
        · norm_num at c
      rw [max_eq_left (by linarith)]
      have := upper (s := 1 / 2) (by rw [abs_le]; norm_num at *; constructor <;> linarith) pa half
      rw [ha] at this
      rw [abs_le] at *
      norm_num at *
      constructor <;> nlinarith
  · rename_i hl
    rw [if_neg hl] at g1 g2
    rw [not_le] at hl
    rw [hb] at hv g1 g2
    have wp : 0 < 12 * l - 0.28466892 := by norm_num; linarith
    have sh : 1 / 2 ≤ Standard.a * Real.log (12 * l - 0.28466892) + Standard.c := by
      rw [half]
      have : Real.log (4 * Standard.a) ≤ Real.log (12 * l - 0.28466892) := by
        refine Real.log_le_log pa ?_
        rw [ha]; norm_num; linarith
      have a0 : 0 < Standard.a := by rw [ha]; norm_num
      nlinarith
    split
    · rename_i hv2
      have v2 : v ≤ 1 / 2 := (le_max_left _ _).trans hv2
      have v3 : 0 ≤ v := by norm_num at *; linarith
      rw [max_eq_left v3]
      have := upper hv wp rfl
      have t2 := upper (s := 1 / 2) (by rw [abs_le]; norm_num at *; constructor <;> linarith) pa half
      rw [ha] at t2
      have v4 : 1 / 2 - 4 / 10 ^ 7 ≤ v := by linarith
      rw [abs_le] at *
      norm_num at *
      constructor <;> nlinarith
    · rename_i hv2
      rw [not_le] at hv2
      have v2 : 1 / 2 < v := by
        rcases lt_max_iff.mp hv2 with c | c
        · exact c
        · norm_num at c
      rw [max_eq_left (by linarith)]
      have := upper hv wp rfl
      rw [abs_le] at *
      norm_num at *
      constructor <;> linarith

section
variable {ar : Arith ℝ} (h : Exact ar)
include h

/-- Light of cone responses that are nearly those of the standard. -/
theorem rgb_near {r g b l m s x a : ℝ} (r0 : 0 ≤ r) (g0 : 0 ≤ g) (b0 : 0 ≤ b) (hr : r ≤ x) (hg : g ≤ x) (hb : b ≤ x)
    (hl : |l - (Standard.lms (r, g, b)).1| ≤ a) (hm : |m - (Standard.lms (r, g, b)).2.1| ≤ a)
    (hs : |s - (Standard.lms (r, g, b)).2.2| ≤ a) :
    let c := rowMul ar (ofLms ar (l, m, s)) ColorPrimaries.BT2020.xyzToRgbMat
    |c.1 - r| ≤ 175 / 10 ^ 6 * x + 6013 / 1000 * a ∧ |c.2.1 - g| ≤ 175 / 10 ^ 6 * x + 6013 / 1000 * a ∧
      |c.2.2 - b| ≤ 175 / 10 ^ 6 * x + 6013 / 1000 * a := by
  simp only [ofLms, rowMul, dot_real h, lit_real, ColorPrimaries.xyzToRgbMat, BT2020_XYZ_TO_RGB, Standard.lms] at hl hm hs ⊢
  rw [abs_le] at hl hm hs
  obtain ⟨l1, l2⟩ := hl
  obtain ⟨m1, m2⟩ := hm
  obtain ⟨s1, s2⟩ := hs
  norm_num [Rat.cast_ofScientific] at *
  refine ⟨?_, ?_, ?_⟩ <;> rw [abs_le] <;> constructor <;> linarith

/-- The encoded cone responses the code recovers. -/
theorem pq_cones {l m s : ℝ} (l0 : 0 ≤ l) (m0 : 0 ≤ m) (s0 : 0 ≤ s) (l1 : l ≤ 1) (m1 : m ≤ 1) (s1 : s ≤ 1) :
    let c := Standard.ictcpOfPq (l, m, s)
    |ict ar c.1 c.2.1 (lit 0.008609037) c.2.2 (lit 0.111029625) - l| ≤ 2 / 10 ^ 7 ∧
      |ict ar c.1 c.2.1 (lit (-0.008609037)) c.2.2 (lit (-0.111029625)) - m| ≤ 2 / 10 ^ 7 ∧
      |ict ar c.1 c.2.1 (lit 0.5600313) c.2.2 (lit (-0.32062715)) - s| ≤ 2 / 10 ^ 7 := by
  simp only [Standard.ictcpOfPq, ict, h.add, h.mul, lit_real]
  norm_num [Rat.cast_ofScientific]
  refine ⟨?_, ?_, ?_⟩ <;> rw [abs_le] <;> constructor <;> linarith

theorem hlg_cones {l m s : ℝ} (l0 : 0 ≤ l) (m0 : 0 ≤ m) (s0 : 0 ≤ s) (l1 : l ≤ 1.1) (m1 : m ≤ 1.1) (s1 : s ≤ 1.1) :
    let c := Standard.ictcpOfHlg (l, m, s)
    |ict ar c.1 c.2.1 (lit 0.01571858) c.2.2 (lit 0.20958106) - l| ≤ 1 / 10 ^ 7 ∧
      |ict ar c.1 c.2.1 (lit (-0.01571858)) c.2.2 (lit (-0.20958106)) - m| ≤ 1 / 10 ^ 7 ∧
      |ict ar c.1 c.2.1 (lit 1.0212711) c.2.2 (lit (-0.6052745)) - s| ≤ 1 / 10 ^ 7 := by
  simp only [Standard.ictcpOfHlg, ict, h.add, h.mul, lit_real]
  norm_num [Rat.cast_ofScientific] at *
  refine ⟨?_, ?_, ?_⟩ <;> rw [abs_le] <;> constructor <;> linarith

/-- Light of cone responses that are nearly those of the code. -/
theorem rgb_back {r g b l m s x a : ℝ} (r0 : 0 ≤ r) (g0 : 0 ≤ g) (b0 : 0 ≤ b) (hr : r ≤ x) (hg : g ≤ x) (hb : b ≤ x)
    (hl : |l - (toLms ar (rowMul ar (r, g, b) ColorPrimaries.BT2020.rgbToXyzMat)).1| ≤ a)
    (hm : |m - (toLms ar (rowMul ar (r, g, b) ColorPrimaries.BT2020.rgbToXyzMat)).2.1| ≤ a)
    (hs : |s - (toLms ar (rowMul ar (r, g, b) ColorPrimaries.BT2020.rgbToXyzMat)).2.2| ≤ a) :
    let c := rowMul ar (ofLms ar (l, m, s)) ColorPrimaries.BT2020.xyzToRgbMat
    |c.1 - r| ≤ 3 / 10 ^ 7 * x + 6013 / 1000 * a ∧ |c.2.1 - g| ≤ 3 / 10 ^ 7 * x + 6013 / 1000 * a ∧
      |c.2.2 - b| ≤ 3 / 10 ^ 7 * x + 6013 / 1000 * a := by
  simp only [ofLms, toLms, rowMul, dot_real h, lit_real, ColorPrimaries.xyzToRgbMat, BT2020_XYZ_TO_RGB, ColorPrimaries.rgbToXyzMat,
    BT2020_RGB_TO_XYZ] at hl hm hs ⊢
  rw [abs_le] at hl hm hs
  obtain ⟨l1, l2⟩ := hl
  obtain ⟨m1, m2⟩ := hm
  obtain ⟨s1, s2⟩ := hs
  norm_num [Rat.cast_ofScientific] at *
  refine ⟨?_, ?_, ?_⟩ <;> rw [abs_le] <;> constructor <;> linarith

/-- The encoded cone responses the code recovers from what it encoded itself. -/
theorem pq_cones_code {l m s : ℝ} (l0 : 0 ≤ l) (m0 : 0 ≤ m) (s0 : 0 ≤ s) (l1 : l ≤ 1.1) (m1 : m ≤ 1.1) (s1 : s ≤ 1.1) :
    let c := ictcpPq ar (l, m, s)
    |ict ar c.1 c.2.1 (lit 0.008609037) c.2.2 (lit 0.111029625) - l| ≤ 2 / 10 ^ 7 ∧
      |ict ar c.1 c.2.1 (lit (-0.008609037)) c.2.2 (lit (-0.111029625)) - m| ≤ 2 / 10 ^ 7 ∧
      |ict ar c.1 c.2.1 (lit 0.5600313) c.2.2 (lit (-0.32062715)) - s| ≤ 2 / 10 ^ 7 := by
  simp only [ictcpPq, ict, dot_real h, h.add, h.mul, h.div, lit_real]
  norm_num [Rat.cast_ofScientific] at *
  refine ⟨?_, ?_, ?_⟩ <;> rw [abs_le] <;> constructor <;> linarith

theorem hlg_cones_code {l m s : ℝ} (l0 : -1 / 10 ≤ l) (m0 : -1 / 10 ≤ m) (s0 : -1 / 10 ≤ s) (l1 : l ≤ 1.1) (m1 : m ≤ 1.1) (s1 : s ≤ 1.1) :
    let c := ictcpHlg ar (l, m, s)
    |ict ar c.1 c.2.1 (lit 0.01571858) c.2.2 (lit 0.20958106) - l| ≤ 3 / 10 ^ 7 ∧
      |ict ar c.1 c.2.1 (lit (-0.01571858)) c.2.2 (lit (-0.20958106)) - m| ≤ 3 / 10 ^ 7 ∧
      |ict ar c.1 c.2.1 (lit 1.0212711) c.2.2 (lit (-0.6052745)) - s| ≤ 3 / 10 ^ 7 := by
  simp only [ictcpHlg, ict, h.add, h.sub, h.mul, lit_real]
  norm_num [Rat.cast_ofScientific] at *
  refine ⟨?_, ?_, ?_⟩ <;> rw [abs_le] <;> constructor <;> linarith

end

end Ezk

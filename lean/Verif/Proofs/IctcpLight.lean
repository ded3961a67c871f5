import Verif.Proofs.IctcpApp

/-!
# Light of the samples of BT.2100 images, in binary32, with relative errors
-/

namespace Ezk
open F32 FOps Spec

variable {ar : Arith F32} {rr : Arith ℝ}

/-- The constants of the PQ decoder are those of the standard, for signals of 8 bits above 0. -/
theorem std_dec_pq_rel (he : Exact rr) {v : ℝ} (hv : 1 / 255 ≤ v) (hv1 : v ≤ 1) :
    |decodeTransfer rr .BT2100PQ v - Standard.toLight .BT2100PQ v| ≤ 25 / 10 ^ 6 * Standard.toLight .BT2100PQ v ∧
      3 / 10 ^ 4 ≤ Standard.toLight .BT2100PQ v ∧ Standard.toLight .BT2100PQ v ≤ 10000 := by
  have v0 : 0 < v := lt_of_lt_of_le (by norm_num) hv
  rw [dec_pq he, max_eq_left v0.le]
  simp only [Standard.toLight]
  have e1 : Standard.c1 = 0.8359375 := by unfold Standard.c1; norm_num
  have e2 : Standard.c2 = 18.8515625 := by unfold Standard.c2; norm_num
  have e3 : Standard.c3 = 18.6875 := by unfold Standard.c3; norm_num
  have e4 : Standard.m2 = 78.84375 := by unfold Standard.m2; norm_num
  have e5 : Standard.m1 = 0.1593017578125 := by unfold Standard.m1; norm_num
  rw [e1, e2, e3, e4, e5]
  have l : 931 / 1000 ≤ v ^ (1 / 78.84375 : ℝ) := by
    have a : (931 / 1000 : ℝ) ≤ (1 / 255 : ℝ) ^ (1 / 78 : ℝ) := by
      rw [le_rpow_iff (m := 1) (n := 78) (by norm_num) (by norm_num) (by norm_num) (by norm_num)]; norm_num
    refine a.trans ((Real.rpow_le_rpow_of_exponent_ge (by norm_num) (by norm_num) (by norm_num)).trans
      (Real.rpow_le_rpow (by norm_num) hv (by norm_num)))
  have l1 : v ^ (1 / 78.84375 : ℝ) ≤ 1 := Real.rpow_le_one v0.le hv1 (by norm_num)
  generalize v ^ (1 / 78.84375 : ℝ) = q at *
  norm_num at l
  rw [max_eq_left (by norm_num; linarith)]
  have q1 : 0 < q - 0.8359375 := by norm_num; linarith
  have q2 : 0 < 18.8515625 - 18.6875 * q := by norm_num; linarith
  have q3 : 0 < 18.851563 - q * 18.6875 := by norm_num; linarith
  have d := div_rel (a := q - 0.8359375) (b := 18.851563 - q * 18.6875) (A := q - 0.8359375) (B := 18.8515625 - 18.6875 * q)
    (d := 0) (e := 31 / 10 ^ 7) (k := 311 / 10 ^ 8) q1 q2 q3
    (by simp) (by rw [abs_le]; norm_num; constructor <;> linarith)
    (by norm_num) (by norm_num) (by norm_num) (by norm_num)
  have y0 : 65 / 1000 ≤ (q - 0.8359375) / (18.8515625 - 18.6875 * q) := by
    rw [le_div_iff₀ q2]; norm_num; linarith
  have y1 : (q - 0.8359375) / (18.8515625 - 18.6875 * q) ≤ 1 := by
    rw [div_le_one q2]; norm_num; linarith
  have p0 : 0 < (q - 0.8359375) / (18.851563 - q * 18.6875) := by positivity
  generalize (q - 0.8359375) / (18.8515625 - 18.6875 * q) = y at *
  generalize (q - 0.8359375) / (18.851563 - q * 18.6875) = z at *
  norm_num at y0
  have yp : 0 < y := by linarith
  have r := rpow_rel (M := 1 / 0.15930176) yp p0 (by norm_num) (by norm_num) d
  -- the exponent
  have Y0 : 0 < y ^ (1 / 0.1593017578125 : ℝ) := Real.rpow_pos_of_pos yp _
  have Y1 : y ^ (1 / 0.1593017578125 : ℝ) ≤ 1 := Real.rpow_le_one yp.le y1 (by norm_num)
  have Y2 : 3 / 10 ^ 8 ≤ y ^ (1 / 0.1593017578125 : ℝ) := by
    have a : (3 / 10 ^ 8 : ℝ) ≤ (65 / 1000 : ℝ) ^ (63 / 10 : ℝ) := by
      rw [le_rpow_iff (m := 63) (n := 10) (by norm_num) (by norm_num) (by norm_num) (by norm_num)]; norm_num
    refine a.trans ((Real.rpow_le_rpow_of_exponent_ge (by norm_num) (by norm_num) (by norm_num)).trans
      (Real.rpow_le_rpow (by norm_num) (by norm_num; linarith) (by norm_num)))
  have ex : y ^ (1 / 0.1593017578125 : ℝ) = y ^ (1 / 0.15930176 : ℝ) * y ^ (1 / 0.1593017578125 - 1 / 0.15930176 : ℝ) := by
    rw [← Real.rpow_add yp]; congr 1; ring
  have t1 : y ^ (1 / 0.1593017578125 - 1 / 0.15930176 : ℝ) ≤ 1 := Real.rpow_le_one yp.le y1 (by norm_num)
  have t0 : 1 - 14 / 10 ^ 7 ≤ y ^ (1 / 0.1593017578125 - 1 / 0.15930176 : ℝ) := by
    rw [Real.rpow_def_of_pos yp]
    have a := Real.add_one_le_exp (Real.log y * (1 / 0.1593017578125 - 1 / 0.15930176))
    have b := Real.one_sub_inv_le_log_of_pos yp
    have b2 : y⁻¹ ≤ 16 := by rw [inv_le_comm₀ yp (by norm_num)]; norm_num; linarith
    norm_num at a ⊢
    linarith
  have W0 : 0 < y ^ (1 / 0.15930176 : ℝ) := Real.rpow_pos_of_pos yp _
  generalize y ^ (1 / 0.1593017578125 : ℝ) = Y at *
  generalize y ^ (1 / 0.1593017578125 - 1 / 0.15930176 : ℝ) = t at *
  generalize y ^ (1 / 0.15930176 : ℝ) = W at *
  generalize z ^ (1 / 0.15930176 : ℝ) = Z at *
  norm_num at r t0 Y2
  rw [abs_le] at r
  have u1 := mul_le_mul_of_nonneg_left t1 W0.le
  have u2 := mul_le_mul_of_nonneg_left t0 W0.le
  rw [← ex] at u1 u2
  obtain ⟨r1, r2⟩ := r
  refine ⟨?_, by norm_num; linarith, by linarith⟩
  rw [abs_le]
  norm_num
  constructor <;> linarith

theorem std_dec_pq_zero : Standard.toLight .BT2100PQ 0 = 0 := by
  simp only [Standard.toLight]
  have e4 : Standard.m2 = 78.84375 := by unfold Standard.m2; norm_num
  have e5 : Standard.m1 = 0.1593017578125 := by unfold Standard.m1; norm_num
  rw [e4, Real.zero_rpow (by norm_num), max_eq_right (by unfold Standard.c1; norm_num), zero_div, e5, Real.zero_rpow (by norm_num),
    mul_zero]

/-- Nothing is brighter than 10000 cd/m². -/
theorem toLight_pq_le {v : ℝ} (h0 : 0 ≤ v) (h1 : v ≤ 1) :
    0 ≤ Standard.toLight .BT2100PQ v ∧ Standard.toLight .BT2100PQ v ≤ 10000 := by
  simp only [Standard.toLight]
  have t1 : v ^ (1 / Standard.m2) ≤ 1 := Real.rpow_le_one h0 h1 (by unfold Standard.m2; norm_num)
  generalize v ^ (1 / Standard.m2) = t at *
  have e1 : Standard.c1 = 0.8359375 := by unfold Standard.c1; norm_num
  have e2 : Standard.c2 = 18.8515625 := by unfold Standard.c2; norm_num
  have e3 : Standard.c3 = 18.6875 := by unfold Standard.c3; norm_num
  rw [e1, e2, e3]
  have d : (0 : ℝ) < 18.8515625 - 18.6875 * t := by norm_num; linarith
  have q0 : 0 ≤ max (t - 0.8359375) 0 / (18.8515625 - 18.6875 * t) := div_nonneg (le_max_right _ _) d.le
  have q1 : max (t - 0.8359375) 0 / (18.8515625 - 18.6875 * t) ≤ 1 := by
    rw [div_le_one d]
    refine max_le ?_ d.le
    norm_num; linarith
  have m0 : 0 ≤ 1 / Standard.m1 := by unfold Standard.m1; norm_num
  have r0 := Real.rpow_nonneg q0 (1 / Standard.m1)
  have r1 := Real.rpow_le_one q0 q1 m0
  constructor <;> linarith

/-- The light of a sample of a PQ image, against the standard. -/
theorem light_pq_std (he : Exact rr) (hf : Floats ar) {n : Nat} (hn : n ≤ 255) :
    App (decodeTransfer ar .BT2100PQ (ar.div (FOps.ofNat n) (FOps.ofNat 255))) (Standard.toLight .BT2100PQ ((n : ℝ) / 255))
      (586 / 10 ^ 6 * Standard.toLight .BT2100PQ ((n : ℝ) / 255) + 2 / 10 ^ 10) ∧
      0 ≤ Standard.toLight .BT2100PQ ((n : ℝ) / 255) ∧ Standard.toLight .BT2100PQ ((n : ℝ) / 255) ≤ 10000 ∧
      (n = 0 ∧ Standard.toLight .BT2100PQ ((n : ℝ) / 255) = 0 ∨ 3 / 10 ^ 4 ≤ Standard.toLight .BT2100PQ ((n : ℝ) / 255)) := by
  obtain ⟨a, -, -⟩ := light_pq_app he hf hn
  rcases Nat.eq_zero_or_pos n with rfl | h1
  · have z : decodeTransfer rr .BT2100PQ ((0 : Nat) / 255 : ℝ) = 0 := by
      rw [dec_pq he]
      simp only [Nat.cast_zero, zero_div, max_self]
      rw [Real.zero_rpow (by norm_num), max_eq_right (by norm_num), zero_div, Real.zero_rpow (by norm_num), zero_mul]
    rw [z] at a
    have s : Standard.toLight .BT2100PQ ((0 : Nat) / 255 : ℝ) = 0 := by
      rw [Nat.cast_zero, zero_div]; exact std_dec_pq_zero
    rw [s]
    exact ⟨a.mono (by norm_num), le_refl _, by norm_num, Or.inl ⟨rfl, rfl⟩⟩
  · have hn1 : (1 : ℝ) ≤ n := by exact_mod_cast h1
    have hn2 : (n : ℝ) ≤ 255 := by exact_mod_cast hn
    obtain ⟨b, c, d⟩ := std_dec_pq_rel he (v := (n : ℝ) / 255) (by linarith) (by linarith)
    have b2 := (abs_le.mp b).2
    have c' := c
    norm_num at b2 c'
    refine ⟨(a.shift b).mono ?_, by linarith, d, Or.inr c⟩
    norm_num
    linarith

/-- The light of a sample of an HLG image, against the standard. -/
theorem light_hlg_std (he : Exact rr) (hf : Floats ar) {n : Nat} (hn : n ≤ 255) :
    App (decodeTransfer ar .BT2100HLG (ar.div (FOps.ofNat n) (FOps.ofNat 255))) (Standard.toLight .BT2100HLG ((n : ℝ) / 255))
      (5 / 10 ^ 5 * Standard.toLight .BT2100HLG ((n : ℝ) / 255) + 1 / 10 ^ 35) ∧
      0 ≤ Standard.toLight .BT2100HLG ((n : ℝ) / 255) ∧ Standard.toLight .BT2100HLG ((n : ℝ) / 255) ≤ 1002 / 1000 ∧
      (n = 0 ∧ Standard.toLight .BT2100HLG ((n : ℝ) / 255) = 0 ∨ 5 / 10 ^ 6 ≤ Standard.toLight .BT2100HLG ((n : ℝ) / 255)) := by
  have n0 : (0 : ℝ) ≤ (n : ℝ) / 255 := by positivity
  have n1 : (n : ℝ) / 255 ≤ 1 := by rw [div_le_one (by norm_num)]; exact_mod_cast hn
  rcases Nat.lt_or_ge 127 n with h | h
  · -- the upper part
    obtain ⟨a, a0, a1⟩ := light_app hf he (t := .BT2100HLG) nofun hn
    have s := std_dec_hlg he n0 (n1.trans (by norm_num))
    have low : 83 / 1000 ≤ Standard.toLight .BT2100HLG ((n : ℝ) / 255) := by
      have hn' : (128 : ℝ) ≤ n := by exact_mod_cast h
      have hc := abs_le.mp hlg_c
      have hc1 := hc.1
      have hc2 := hc.2
      norm_num at hc1 hc2
      simp only [Standard.toLight]
      rw [if_neg (by intro hh; norm_num at hh; linarith)]
      have hb : Standard.b = 0.28466892 := by unfold Standard.b Standard.a; norm_num
      rw [hb]
      have ha : Standard.a = 0.17883277 := rfl
      rw [ha]
      have ex := Real.exp_le_exp.mpr (show (-(325 / 1000) : ℝ) ≤ ((n : ℝ) / 255 - Standard.c) / 0.17883277 by
        rw [le_div_iff₀ (by norm_num)]; norm_num; linarith)
      have e3 : 7125 / 10000 ≤ Real.exp (-(325 / 1000)) := by
        have e : Real.exp (-(325 / 1000)) = Real.exp (-(8125 / 100000)) ^ 4 := by rw [← Real.exp_nat_mul]; norm_num
        have f := Real.add_one_le_exp (-(8125 / 100000) : ℝ)
        rw [e]
        refine le_trans ?_ (pow_le_pow_left₀ (by norm_num) f 4)
        norm_num
      generalize Real.exp (((n : ℝ) / 255 - Standard.c) / 0.17883277) = w at *
      norm_num
      linarith
    have s2 := abs_le.mp s
    have s21 := s2.1
    have s22 := s2.2
    norm_num at s21 s22
    refine ⟨(a.shift s).mono (by norm_num; linarith), by linarith, by norm_num; linarith, Or.inr (by norm_num; linarith)⟩
  · have hr : (n : ℝ) ≤ 127 := by exact_mod_cast h
    have std : Standard.toLight .BT2100HLG ((n : ℝ) / 255) = ((n : ℝ) / 255) ^ 2 / 3 := by
      simp only [Standard.toLight]; rw [if_pos (by linarith)]
    rw [std]
    obtain ⟨V, hV, hg, V0, V1, hd⟩ := sample_is hf hn
    have hVn : |(V : ℝ) - (n : ℝ) / 255| ≤ 6 / 10 ^ 8 * ((n : ℝ) / 255) := by
      rcases Nat.eq_zero_or_pos n with rfl | h1
      · have e : ar.div (FOps.ofNat 0) (FOps.ofNat 255) = (fin false 0 : F32) := by
          rw [hf.div]; decide +kernel
        rw [e] at hV
        rw [hV.unique is_zero]; simp
      · obtain ⟨V', hV', -, -, -, d⟩ := sample_rel hf hn h1
        rw [hV.unique hV']; exact d
    have Vh : V ≤ 1 / 2 := by
      have := (abs_le.mp hVn).2
      have : (V : ℝ) ≤ ((1 / 2 : ℚ) : ℝ) := by push_cast; norm_num at this ⊢; linarith
      exact_mod_cast this
    generalize ar.div (FOps.ofNat n) (FOps.ofNat 255) = v at *
    simp only [decodeTransfer, hlgDecode]
    obtain ⟨hm, hgm⟩ := max_is hf hV hg
    rw [max_eq_left V0] at hm
    generalize ar.max v (FOps.lit 0.0) = m at *
    rw [hf.le hm is_05 V0 (by norm_num), if_pos (by simpa using Vh)]
    obtain ⟨Y, hY, hcase⟩ := pow_any hf hm hgm V0 (by linarith) is_2 (by norm_num) (by norm_num)
    have two : ((2 : ℚ) : ℝ) = 2 := by norm_num
    rw [two, Real.rpow_two] at hcase
    have V0r : (0 : ℝ) ≤ V := by exact_mod_cast V0
    have Vhr : (V : ℝ) ≤ 1 / 2 := by
      have : (V : ℝ) ≤ ((1 / 2 : ℚ) : ℝ) := by exact_mod_cast Vh
      push_cast at this; exact this
    have hYe : |(Y : ℝ) - ((n : ℝ) / 255) ^ 2| ≤ 4 / 10 ^ 6 * ((n : ℝ) / 255) ^ 2 + 2 / 10 ^ 37 := by
      rcases Nat.eq_zero_or_pos n with rfl | h1
      · have hz : (V : ℝ) = 0 := by simpa using hVn
        have hzq : V = 0 := by exact_mod_cast hz
        rcases hcase with ⟨h2, -⟩ | ⟨-, h2⟩
        · rw [hzq] at h2; norm_num at h2
        · have ex : Real.exp (-(87 * 2)) ≤ 1 / 10 ^ 50 := by
            have e : Real.exp (-(87 * 2)) = (Real.exp 1 ^ 174)⁻¹ := by
              rw [← Real.exp_nat_mul, ← Real.exp_neg]; norm_num
            rw [e]
            have := pow_le_pow_left₀ (by norm_num) (show (2 : ℝ) ≤ Real.exp 1 by linarith [Real.exp_one_gt_d9]) 174
            refine inv_le_of_inv_le₀ (by norm_num) (le_trans ?_ this)
            norm_num
          simp only [Nat.cast_zero, zero_div, ne_eq, OfNat.ofNat_ne_zero, not_false_eq_true, zero_pow, sub_zero, mul_zero, zero_add]
          refine h2.trans ?_
          norm_num at ex ⊢
          linarith
      · have hn1 : (1 : ℝ) ≤ n := by exact_mod_cast h1
        have w1 := (abs_le.mp hVn).1
        have w2 := (abs_le.mp hVn).2
        have VL : 1 / 256 ≤ (V : ℝ) := by norm_num at w1 ⊢; linarith
        have hlog : |Real.log V| ≤ 56 / 10 := by
          have Vp : (0 : ℝ) < V := lt_of_lt_of_le (by norm_num) VL
          rw [abs_of_nonpos (Real.log_nonpos V0r (by linarith))]
          have a := Real.log_le_log (by norm_num) VL
          have b : Real.log (1 / 256 : ℝ) = -(8 * Real.log 2) := by
            rw [one_div, Real.log_inv, show (256 : ℝ) = 2 ^ 8 by norm_num, Real.log_pow]; norm_num
          have c := Real.log_two_lt_d9
          norm_num at c ⊢
          linarith
        rcases hcase with ⟨-, -, h2⟩ | ⟨h2, -⟩
        · have h3 : (43 / 10 ^ 8 + 17 / 10 ^ 8 * 2 * (1 + |Real.log V|)) * (V : ℝ) ^ 2 ≤ 27 / 10 ^ 7 * (V : ℝ) ^ 2 :=
            mul_le_mul_of_nonneg_right (by norm_num at hlog ⊢; linarith) (by positivity)
          have sq : |(V : ℝ) ^ 2 - ((n : ℝ) / 255) ^ 2| ≤ 13 / 10 ^ 8 * ((n : ℝ) / 255) ^ 2 := by
            set N := (n : ℝ) / 255
            have e : (V : ℝ) ^ 2 - N ^ 2 = (V - N) * (V + N) := by ring
            rw [e, abs_mul, abs_of_nonneg (show 0 ≤ (V : ℝ) + N by linarith)]
            calc |(V : ℝ) - N| * (V + N) ≤ 6 / 10 ^ 8 * N * (21 / 10 * N) :=
                  mul_le_mul hVn (by norm_num at w2; linarith) (by linarith) (by positivity)
              _ ≤ _ := by norm_num; nlinarith [sq_nonneg N]
          generalize (V : ℝ) ^ 2 = V2 at *
          generalize ((n : ℝ) / 255) ^ 2 = N2 at *
          rw [abs_le] at *
          obtain ⟨k1, k2⟩ := h2
          obtain ⟨j1, j2⟩ := sq
          norm_num at *
          constructor <;> linarith
        · exfalso
          have : ((V : ℚ) : ℝ) < (((2 : ℚ) ^ (-126 : Int) : ℚ) : ℝ) := by exact_mod_cast h2
          push_cast at this
          norm_num at this
          linarith
    have N2 : ((n : ℝ) / 255) ^ 2 ≤ 1 / 4 := by
      have : (n : ℝ) / 255 ≤ 1 / 2 := by linarith
      nlinarith
    have N0 : 0 ≤ ((n : ℝ) / 255) ^ 2 := by positivity
    have big : n = 0 ∨ 15 / 10 ^ 6 ≤ ((n : ℝ) / 255) ^ 2 := by
      rcases Nat.eq_zero_or_pos n with h1 | h1
      · exact Or.inl h1
      · right
        have hn1 : (1 : ℝ) ≤ n := by exact_mod_cast h1
        have : (1 / 255 : ℝ) ^ 2 ≤ ((n : ℝ) / 255) ^ 2 := pow_le_pow_left₀ (by norm_num) (by linarith) 2
        norm_num at this ⊢
        linarith
    have zero : n = 0 → ((n : ℝ) / 255) ^ 2 / 3 = 0 := by rintro rfl; simp
    generalize ((n : ℝ) / 255) ^ 2 = N at *
    rw [abs_le] at hYe
    obtain ⟨y1, y2⟩ := hYe
    norm_num at y1 y2
    have Yb : |(Y : ℝ) / 3| ≤ N / 3 * (1 + 1 / 10 ^ 5) + 1 / 10 ^ 36 := by
      rw [abs_le]; norm_num; constructor <;> linarith
    rw [hf.div]
    obtain ⟨c, hc, hce⟩ := F32.is_div hY is_3 (by norm_num) (by
      have : ((|Y / 3| : ℚ) : ℝ) ≤ ((2 ^ 100 : ℚ) : ℝ) := by
        push_cast; refine Yb.trans ?_; norm_num; linarith
      exact_mod_cast this)
    have hc2 := err_real hce (B := N / 3 * (1 + 1 / 10 ^ 5) + 1 / 10 ^ 36) (by push_cast; exact Yb)
    push_cast at hc2
    rw [abs_le] at hc2
    obtain ⟨c1, c2⟩ := hc2
    norm_num at c1 c2
    refine ⟨?_, by linarith, by norm_num; linarith, ?_⟩
    · refine (hc.app.shift (d := 5 / 10 ^ 5 * (N / 3) + 1 / 10 ^ 35) ?_).mono (by linarith)
      rw [abs_le]; norm_num; constructor <;> linarith
    · rcases big with h1 | h1
      · exact Or.inl ⟨h1, zero h1⟩
      · right; norm_num at h1 ⊢; linarith

end Ezk

import Verif.Proofs.GreyOrder2

/-!
# Brighter greys: signals
-/

namespace Ezk
open F32 FOps Spec

attribute [local instance] ratOps

theorem fmul_comm {x y : F32} {a b : ℚ} (hx : Is x a) (hy : Is y b) : F32.mul x y = F32.mul y x := by
  obtain ⟨s, p, rfl, -, -⟩ := hx
  obtain ⟨t, q, rfl, -, -⟩ := hy
  simp only [F32.mul]
  rw [mul_comm, Bool.xor_comm]

/-- Powers of clearly different lights. -/
theorem root_gap {X X' Z : ℝ} (h : Brighter' X X') (h1 : 1 / 3 ≤ Z) (h2 : Z ≤ 1 / 2) : X ^ Z + 5 / 10 ^ 6 ≤ X' ^ Z := by
  obtain ⟨a1, a2, -, a4⟩ := h
  have X0 : 0 < X := by norm_num at a1; linarith
  have third : ∀ {k s : ℝ}, 1 ≤ k → 0 ≤ s → s ^ 3 ≤ k → k * X ≤ X' → s * X ^ Z ≤ X' ^ Z := by
    intro k s hk hs hsk hX
    have e1 : (k * X) ^ Z ≤ X' ^ Z := Real.rpow_le_rpow (by positivity) hX (by linarith)
    rw [Real.mul_rpow (by linarith) X0.le] at e1
    refine le_trans (mul_le_mul_of_nonneg_right ?_ (Real.rpow_nonneg X0.le _)) e1
    refine le_trans ?_ (Real.rpow_le_rpow_of_exponent_le hk h1)
    rw [le_rpow_iff (m := 1) (n := 3) (by norm_num) (by norm_num) hs (by linarith), pow_one]
    exact hsk
  have least : ∀ {s : ℝ}, 0 ≤ s → s ≤ 1 → s ^ 2 ≤ X → s ≤ X ^ Z := by
    intro s h0 h1 h3
    have e : s = (s ^ 2) ^ (1 / 2 : ℝ) := by
      rw [← Real.rpow_natCast, ← Real.rpow_mul h0]; norm_num
    rw [e]
    rcases h0.eq_or_lt with rfl | hp
    · rw [show (0 : ℝ) ^ 2 = 0 by norm_num, Real.zero_rpow (by norm_num)]; exact Real.rpow_nonneg X0.le _
    · exact (Real.rpow_le_rpow_of_exponent_ge (by positivity) (pow_le_one₀ h0 h1) h2).trans (Real.rpow_le_rpow (by positivity) h3 (by linarith))
  rcases lt_or_ge X (1 / 10 ^ 4) with hX | hX
  · have b1 := third (k := 11 / 10) (s := 103 / 100) (by norm_num) (by norm_num) (by norm_num) (a4 hX)
    have b2 := least (s := 4 / 10 ^ 4) (by norm_num) (by norm_num) (by norm_num at a1 ⊢; linarith)
    norm_num at b1 b2 ⊢; linarith
  · have b1 := third (k := 1003 / 1000) (s := 10009 / 10 ^ 4) (by norm_num) (by norm_num) (by norm_num) a2
    have b2 := least (s := 1 / 100) (by norm_num) (by norm_num) (by norm_num at hX ⊢; linarith)
    norm_num at b1 b2 ⊢; linarith

theorem ord_of_app {v v' : F32} {r r' e : ℝ} (h : App v r e) (h' : App v' r' e) (hgap : r + 2 * e ≤ r') (h1 : -1 ≤ r) (h2 : r' ≤ 3) (he : e ≤ 1) :
    Ord 4 v v' := by
  obtain ⟨a, ha, da⟩ := h.is
  obtain ⟨b, hb, db⟩ := h'.is
  obtain ⟨a1, a2⟩ := abs_le.mp da
  obtain ⟨b1, b2⟩ := abs_le.mp db
  have e0 := h.nonneg
  have c1 : (a : ℝ) ≤ b := by linarith
  have c2 : |(a : ℝ)| ≤ 4 := abs_le.mpr ⟨by linarith, by linarith⟩
  have c3 : |(b : ℝ)| ≤ 4 := abs_le.mpr ⟨by linarith, by linarith⟩
  exact ⟨a, b, ha, hb, by exact_mod_cast c2, by exact_mod_cast c3, by exact_mod_cast c1⟩

section
variable {ar ar' : Arith F32} (hf : Floats ar) (hf' : Floats ar') {x x' : F32} {X X' : ℚ} (hx : Is x X) (hg : Good x) (hx' : Is x' X')
  (hg' : Good x') (h : Brighter' X X') (hm : X' ≤ 2)
include h hm

theorem Brighter'.rat : 0 < X ∧ X ≤ 2 ∧ 0 < X' ∧ X' ≤ 2 ∧ X ≤ X' := by
  obtain ⟨a1, a2, a3, -⟩ := h
  have b1 : (0 : ℝ) < X := by norm_num at a1; linarith
  have b2 : (X : ℝ) ≤ X' := by norm_num at a2; linarith
  have b3 : (X' : ℝ) ≤ 2 := by exact_mod_cast hm
  have b4 : (X : ℝ) ≤ 2 := by linarith
  have b5 : (0 : ℝ) < X' := by linarith
  exact ⟨by exact_mod_cast b1, by exact_mod_cast b4, by exact_mod_cast b5, by exact_mod_cast b3, by exact_mod_cast b2⟩

theorem Brighter'.root_le {Z : ℝ} (h0 : 0 ≤ Z) (h1 : Z ≤ 1) : 0 ≤ (X : ℝ) ^ Z ∧ (X' : ℝ) ^ Z ≤ 2 := by
  obtain ⟨a1, a2, -, -⟩ := h
  have b1 : (0 : ℝ) < X := by norm_num at a1; linarith
  have b5 : (0 : ℝ) < X' := by linarith
  exact ⟨Real.rpow_nonneg b1.le _, rpow_le_two b5.le (by exact_mod_cast hm) h0 h1⟩

include hx hg hx' hg'

include hf hf' in
theorem order_gamma22 : Ord 4 (encodeTransfer ar .Gamma22 x) (encodeTransfer ar' .Gamma22 x') := by
  obtain ⟨b1, b2, b3, b4, -⟩ := h.rat hm
  obtain ⟨c1, c2⟩ := h.root_le hm (Z := 1 / 2.2) (by norm_num) (by norm_num)
  have := root_gap h (Z := 1 / 2.2) (by norm_num) (by norm_num)
  have a1 := enc_gamma22_app hf hx hg b1.le b2
  have a2 := enc_gamma22_app hf' hx' hg' b3.le b4
  generalize (X : ℝ) ^ (1 / 2.2 : ℝ) = u at *
  generalize (X' : ℝ) ^ (1 / 2.2 : ℝ) = w at *
  exact ord_of_app a1 a2 (by norm_num at this ⊢; linarith) (by linarith) (by norm_num at c2; linarith) (by norm_num)

include hf hf' in
theorem order_gamma28 : Ord 4 (encodeTransfer ar .Gamma28 x) (encodeTransfer ar' .Gamma28 x') := by
  obtain ⟨b1, b2, b3, b4, -⟩ := h.rat hm
  obtain ⟨c1, c2⟩ := h.root_le hm (Z := 1 / 2.8) (by norm_num) (by norm_num)
  have := root_gap h (Z := 1 / 2.8) (by norm_num) (by norm_num)
  have a1 := enc_gamma28_app hf hx hg b1.le b2
  have a2 := enc_gamma28_app hf' hx' hg' b3.le b4
  generalize (X : ℝ) ^ (1 / 2.8 : ℝ) = u at *
  generalize (X' : ℝ) ^ (1 / 2.8 : ℝ) = w at *
  exact ord_of_app a1 a2 (by norm_num at this ⊢; linarith) (by linarith) (by norm_num at c2; linarith) (by norm_num)

include hf hf' in
theorem order_srgb : Ord 4 (encodeTransfer ar .SRGB x) (encodeTransfer ar' .SRGB x') := by
  obtain ⟨b1, b2, b3, b4, b5⟩ := h.rat hm
  obtain ⟨c1, c2⟩ := h.root_le hm (Z := 1 / 2.4) (by norm_num) (by norm_num)
  have gap := root_gap h (Z := 1 / 2.4) (by norm_num) (by norm_num)
  have a1 := enc_srgb_app hf hx hg b1.le b2
  have a2 := enc_srgb_app hf' hx' hg' b3.le b4
  have b5r : (X : ℝ) ≤ X' := by exact_mod_cast b5
  have b3r : (0 : ℝ) < X' := by exact_mod_cast b3
  have b1r : (0 : ℝ) < X := by exact_mod_cast b1
  rcases le_or_gt X' (3361671 / 1073741824) with hl' | hl'
  · simp only [encodeTransfer]
    rw [hf.le hx is_srgb_enc b1.le (by norm_num), hf'.le hx' is_srgb_enc b3.le (by norm_num), if_pos (by simpa using b5.trans hl'),
      if_pos (by simpa using hl')]
    have : Ord (1 / 200) x x' := ⟨X, X', hx, hx', by rw [abs_of_pos b1]; norm_num at hl' ⊢; linarith,
      by rw [abs_of_pos b3]; norm_num at hl' ⊢; linarith, b5⟩
    simp only [hf.mul, hf'.mul]
    exact ord_mul (K := 13) this is_1292 (by norm_num) (by norm_num) (by norm_num) (by norm_num) (by norm_num)
  · have hr' : (3361671 / 1073741824 : ℝ) < X' := by
      have := (Rat.cast_lt (K := ℝ)).mpr hl'; push_cast at this; exact this
    rw [if_neg (by norm_num; linarith)] at a2
    by_cases hl : (X : ℝ) ≤ 0.0031308
    · rw [if_pos hl] at a1
      rcases le_or_gt (X : ℝ) (0.003127) with hu | hu
      · have l1 : (0.09047384 : ℝ) ≤ (X' : ℝ) ^ (1 / 2.4 : ℝ) := by
          rw [le_rpow_iff (m := 5) (n := 12) (by norm_num) (by norm_num) (by norm_num) b3r.le]
          refine le_trans ?_ (pow_le_pow_left₀ (a := 0.0031308) (by norm_num) (by norm_num; linarith) 5)
          norm_num
        generalize (X' : ℝ) ^ (1 / 2.4 : ℝ) = w at *
        exact ord_of_app a1 a2 (by norm_num at l1 hu ⊢; linarith) (by norm_num; linarith) (by norm_num at c2 ⊢; linarith) (by norm_num)
      · have l2 : 0.003136 ≤ (X' : ℝ) := by
          have := h.2.1
          norm_num at this hu ⊢; linarith
        have l1 : (0.09053 : ℝ) ≤ (X' : ℝ) ^ (1 / 2.4 : ℝ) := by
          rw [le_rpow_iff (m := 5) (n := 12) (by norm_num) (by norm_num) (by norm_num) b3r.le]
          refine le_trans ?_ (pow_le_pow_left₀ (a := 0.003136) (by norm_num) l2 5)
          norm_num
        generalize (X' : ℝ) ^ (1 / 2.4 : ℝ) = w at *
        exact ord_of_app a1 a2 (by norm_num at l1 hl ⊢; linarith) (by norm_num; linarith) (by norm_num at c2 ⊢; linarith) (by norm_num)
    · rw [if_neg hl] at a1
      generalize (X : ℝ) ^ (1 / 2.4 : ℝ) = u at *
      generalize (X' : ℝ) ^ (1 / 2.4 : ℝ) = w at *
      exact ord_of_app a1 a2 (by norm_num at gap ⊢; linarith) (by norm_num; linarith) (by norm_num at c2 ⊢; linarith) (by norm_num)

include hf hf' in
theorem order_sdr : Ord 4 (encodeTransfer ar .SDR x) (encodeTransfer ar' .SDR x') := by
  obtain ⟨b1, b2, b3, b4, b5⟩ := h.rat hm
  obtain ⟨c1, c2⟩ := h.root_le hm (Z := 0.45) (by norm_num) (by norm_num)
  have gap := root_gap h (Z := 0.45) (by norm_num) (by norm_num)
  have a1 := enc_sdr_branch hf hx hg b1.le b2
  have a2 := enc_sdr_branch hf' hx' hg' b3.le b4
  have b3r : (0 : ℝ) < X' := by exact_mod_cast b3
  have b1r : (0 : ℝ) < X := by exact_mod_cast b1
  rcases lt_or_ge X' (9692651 / 536870912) with hl' | hl'
  · simp only [encodeTransfer]
    rw [hf.lt hx is_sdr_enc b1.le (by norm_num), hf'.lt hx' is_sdr_enc b3.le (by norm_num), if_pos (by simpa using lt_of_le_of_lt b5 hl'),
      if_pos (by simpa using hl')]
    have : Ord (1 / 50) x x' := ⟨X, X', hx, hx', by rw [abs_of_pos b1]; norm_num at hl' ⊢; linarith,
      by rw [abs_of_pos b3]; norm_num at hl' ⊢; linarith, b5⟩
    simp only [hf.mul, hf'.mul]
    rw [fmul_comm is_45 hx, fmul_comm is_45 hx']
    exact ord_mul (K := 5) this is_45 (by norm_num) (by norm_num) (by norm_num) (by norm_num) (by norm_num)
  · have hr' : (9692651 / 536870912 : ℝ) ≤ X' := by
      have := (Rat.cast_le (K := ℝ)).mpr hl'; push_cast at this; exact this
    rw [if_neg (not_lt.mpr hl')] at a2
    by_cases hl : X < 9692651 / 536870912
    · rw [if_pos hl] at a1
      have hr : (X : ℝ) < 9692651 / 536870912 := by
        have := (Rat.cast_lt (K := ℝ)).mpr hl; push_cast at this; exact this
      have l1 : (0.1642 : ℝ) ≤ (X' : ℝ) ^ (0.45 : ℝ) := by
        rw [le_rpow_iff (m := 9) (n := 20) (by norm_num) (by norm_num) (by norm_num) b3r.le]
        exact le_trans (by norm_num) (pow_le_pow_left₀ (by norm_num) hr' 9)
      generalize (X' : ℝ) ^ (0.45 : ℝ) = w at *
      exact ord_of_app a1 a2 (by norm_num at l1 hr ⊢; linarith) (by norm_num; linarith) (by norm_num at c2 ⊢; linarith) (by norm_num)
    · rw [if_neg hl] at a1
      generalize (X : ℝ) ^ (0.45 : ℝ) = u at *
      generalize (X' : ℝ) ^ (0.45 : ℝ) = w at *
      exact ord_of_app a1 a2 (by norm_num at gap ⊢; linarith) (by norm_num; linarith) (by norm_num at c2 ⊢; linarith) (by norm_num)

include hf hf' in
theorem order_hlg : Ord 4 (encodeTransfer ar .BT2100HLG x) (encodeTransfer ar' .BT2100HLG x') := by
  obtain ⟨b1, b2, b3, b4, b5⟩ := h.rat hm
  have gap := root_gap h (Z := 1 / 2) (by norm_num) (by norm_num)
  have a1 := enc_hlg_app hf hx hg b1.le b2
  have a2 := enc_hlg_app hf' hx' hg' b3.le b4
  have b5r : (X : ℝ) ≤ X' := by exact_mod_cast b5
  have b3r : (0 : ℝ) < X' := by exact_mod_cast b3
  have b1r : (0 : ℝ) < X := by exact_mod_cast b1
  have hh := h.2.1
  have top : (X' : ℝ) ≤ 2 := by exact_mod_cast hm
  generalize (X : ℝ) = u at *
  generalize (X' : ℝ) = w at *
  rw [← Real.sqrt_eq_rpow, ← Real.sqrt_eq_rpow] at gap
  by_cases hl' : w ≤ 1 / 12
  · rw [if_pos hl'] at a2
    rw [if_pos (b5r.trans hl')] at a1
    have s3 : (1 : ℝ) ≤ Real.sqrt 3 := Real.le_sqrt_of_sq_le (by norm_num)
    have s2 : Real.sqrt (w * 3) ≤ 1 := by
      rw [Real.sqrt_le_one]; linarith
    have s1 : 0 ≤ Real.sqrt (u * 3) := Real.sqrt_nonneg _
    refine ord_of_app a1 a2 ?_ (by linarith) (by linarith) (by norm_num)
    rw [Real.sqrt_mul b1r.le, Real.sqrt_mul b3r.le]
    have := mul_le_mul_of_nonneg_left s3 (show 0 ≤ Real.sqrt w - Real.sqrt u by norm_num at gap; linarith)
    norm_num at this gap ⊢
    linarith
  · rw [if_neg hl'] at a2
    rw [not_le] at hl'
    have wp : 0 < 12 * w - 0.28466892 := by norm_num; linarith
    have upper : 0.17883277 * Real.log (12 * w - 0.28466892) + 0.5599107 ≤ 3 := by
      have h3 : Real.log (12 * w - 0.28466892) ≤ 4 := by
        rw [Real.log_le_iff_le_exp wp]
        have h27 : (27 / 10 : ℝ) ^ 4 ≤ Real.exp 4 := by
          have : Real.exp 4 = Real.exp 1 ^ 4 := by rw [← Real.exp_nat_mul]; norm_num
          rw [this]
          exact pow_le_pow_left₀ (by norm_num) (by linarith [Real.exp_one_gt_d9]) 4
        norm_num at h27 ⊢; linarith
      norm_num at h3 ⊢; linarith
    by_cases hl : u ≤ 1 / 12
    · rw [if_pos hl] at a1
      have s1 : 0 ≤ Real.sqrt (u * 3) := Real.sqrt_nonneg _
      refine ord_of_app a1 a2 ?_ (by linarith) upper (by norm_num)
      rcases le_or_gt u (8321 / 10 ^ 5) with hu | hu
      · have k1 : Real.sqrt (u * 3) ≤ 49964 / 10 ^ 5 := by
          apply Real.sqrt_le_iff.mpr
          constructor
          · norm_num
          · norm_num at hu ⊢; linarith
        have k2 : (-0.05992 / 0.17883277 : ℝ) ≤ Real.log (12 * w - 0.28466892) := by
          rw [Real.le_log_iff_exp_le wp]
          refine exp_le (by rw [abs_le]; norm_num) ?_
          rw [abs_of_neg (by norm_num)]
          norm_num
          linarith
        norm_num at k1 k2 ⊢
        linarith
      · have k1 : Real.sqrt (u * 3) ≤ 1 / 2 := by
          apply Real.sqrt_le_iff.mpr
          constructor
          · norm_num
          · norm_num; linarith
        have k2 : (-0.0598 / 0.17883277 : ℝ) ≤ Real.log (12 * w - 0.28466892) := by
          rw [Real.le_log_iff_exp_le wp]
          refine exp_le (by rw [abs_le]; norm_num) ?_
          rw [abs_of_neg (by norm_num)]
          norm_num at hh hu ⊢
          linarith
        norm_num at k1 k2 ⊢
        linarith
    · rw [if_neg hl] at a1
      rw [not_le] at hl
      have up : 0 < 12 * u - 0.28466892 := by norm_num; linarith
      have k0 : 1003 / 1000 * (12 * u - 0.28466892) ≤ 12 * w - 0.28466892 := by norm_num at hh ⊢; linarith
      have k1 := Real.log_le_log (by positivity) k0
      rw [Real.log_mul (by norm_num) up.ne'] at k1
      have k2 := Real.one_sub_inv_le_log_of_pos (show (0 : ℝ) < 1003 / 1000 by norm_num)
      have k3 : (-0.05992 / 0.17883277 : ℝ) ≤ Real.log (12 * u - 0.28466892) := by
        rw [Real.le_log_iff_exp_le up]
        refine exp_le (by rw [abs_le]; norm_num) ?_
        rw [abs_of_neg (by norm_num)]
        norm_num
        linarith
      refine ord_of_app a1 a2 ?_ ?_ upper (by norm_num)
      · norm_num at k1 k2 ⊢; linarith
      · norm_num at k3 ⊢; linarith

include hf hf' in
/-- The signals of two lights, whatever the transfer function. -/
theorem order_encode {t : ColorTransfer} (ht : t ≠ .BT2100PQ) : Ord 4 (encodeTransfer ar t x) (encodeTransfer ar' t x') := by
  cases t with
  | Linear =>
    obtain ⟨b1, b2, b3, b4, b5⟩ := h.rat hm
    exact ⟨X, X', hx, hx', by rw [abs_of_pos b1]; linarith, by rw [abs_of_pos b3]; linarith, b5⟩
  | Gamma22 => exact order_gamma22 hf hf' hx hg hx' hg' h hm
  | Gamma28 => exact order_gamma28 hf hf' hx hg hx' hg' h hm
  | SRGB => exact order_srgb hf hf' hx hg hx' hg' h hm
  | SDR => exact order_sdr hf hf' hx hg hx' hg' h hm
  | BT2100PQ => exact absurd rfl ht
  | BT2100HLG => exact order_hlg hf hf' hx hg hx' hg' h hm

end
end Ezk

import Verif.Proofs.PowApp
import Verif.Proofs.Exact

/-!
# The transfer functions as computed, compared with the exact formulas
-/

namespace Ezk
open F32 FOps Spec

theorem F32.App.shift {x : F32} {r r' e d : ℝ} (h : App x r e) (hr : |r - r'| ≤ d) : App x r' (e + d) := by
  obtain ⟨s, p, h1, h2, h3⟩ := h
  refine ⟨s, p, h1, h2, ?_⟩
  rw [abs_le] at *
  constructor <;> linarith [h3.1, h3.2, hr.1, hr.2]

/-! ## Constants -/

theorem is_22 : Is (FOps.div (FOps.ofNat 22) (lit 10.0) : F32) (9227469 / 4194304) := is_const (by decide +kernel)
theorem is_28 : Is (FOps.div (FOps.ofNat 28) (lit 10.0) : F32) (11744051 / 4194304) := is_const (by decide +kernel)
theorem is_i22 : Is (FOps.div (lit 1.0) (FOps.div (FOps.ofNat 22) (lit 10.0)) : F32) (7626007 / 16777216) :=
  is_const (by decide +kernel)
theorem is_i28 : Is (FOps.div (lit 1.0) (FOps.div (FOps.ofNat 28) (lit 10.0)) : F32) (5991863 / 16777216) :=
  is_const (by decide +kernel)
theorem is_24 : Is (lit 2.4 : F32) (5033165 / 2097152) := is_const (by decide +kernel)
theorem is_i24 : Is (FOps.div (lit 1.0) (lit 2.4) : F32) (13981013 / 33554432) := is_const (by decide +kernel)
theorem is_045 : Is (lit 0.45 : F32) (7549747 / 16777216) := is_const (by decide +kernel)
theorem is_i045 : Is (FOps.div (lit 1.0) (lit 0.45) : F32) (2330169 / 1048576) := is_const (by decide +kernel)
theorem is_1292 : Is (lit 12.92 : F32) (6773801 / 524288) := is_const (by decide +kernel)
theorem is_1055 : Is (lit 1.055 : F32) (8849981 / 8388608) := is_const (by decide +kernel)
theorem is_0055 : Is (lit 0.055 : F32) (7381975 / 134217728) := is_const (by decide +kernel)
theorem is_45 : Is (lit 4.5 : F32) (9 / 2) := is_const (by decide +kernel)
theorem is_1099 : Is (lit 1.099 : F32) (1152385 / 1048576) := is_const (by decide +kernel)
theorem is_0099 : Is (lit 0.099 : F32) (13287555 / 134217728) := is_const (by decide +kernel)
theorem is_00993 : Is (lit 0.0993 : F32) (3331955 / 33554432) := is_const (by decide +kernel)
theorem is_srgb_enc : Is (lit 0.0031308 : F32) (3361671 / 1073741824) := is_const (by decide +kernel)
theorem is_srgb_dec : Is (lit 0.04045 : F32) (5429107 / 134217728) := is_const (by decide +kernel)
theorem is_sdr_enc : Is (lit 0.01805397 : F32) (9692651 / 536870912) := is_const (by decide +kernel)
theorem is_sdr_dec : Is (lit 0.081490956 : F32) (10937531 / 134217728) := is_const (by decide +kernel)
theorem is_3 : Is (lit 3.0 : F32) 3 := is_const (by decide +kernel)
theorem is_12 : Is (lit 12.0 : F32) 12 := is_const (by decide +kernel)
theorem is_2 : Is (lit 2.0 : F32) 2 := is_const (by decide +kernel)
theorem is_05 : Is (lit 0.5 : F32) (1 / 2) := is_const (by decide +kernel)
theorem is_112 : Is (FOps.div (lit 1.0) (lit 12.0) : F32) (11184811 / 134217728) := is_const (by decide +kernel)
theorem is_hlgA : Is (Hlg.A : F32) (750079 / 4194304) := is_const (by decide +kernel)
theorem is_hlgB : Is (Hlg.B' : F32) (298497 / 1048576) := is_const (by decide +kernel)
theorem is_hlgC : Is (Hlg.C : F32) (9393743 / 16777216) := is_const (by decide +kernel)
theorem is_e : Is (FOps.e : F32) (2850325 / 1048576) := is_const (by decide +kernel)

section
variable {ar : Arith F32} (hf : Floats ar)
include hf

/-! ## Decoding -/

theorem dec_gamma22_app {x : F32} {X : ℚ} (hx : Is x X) (hg : Good x) (h0 : 0 ≤ X) (h1 : X ≤ 1) :
    App (decodeTransfer ar .Gamma22 x) ((X : ℝ) ^ (2.2 : ℝ)) (2 / 10 ^ 6) := by
  have hX : (X : ℝ) ≤ 1001 / 1000 := by
    have : (X : ℝ) ≤ 1 := by exact_mod_cast h1
    linarith
  refine (pow_app hf hx hg h0 is_22 (by norm_num) (by norm_num) ?_ (Or.inl ⟨hX, by norm_num⟩) (Or.inl ⟨hX, by norm_num⟩)).mono
    (by norm_num)
  rw [min_def]; split <;> (rw [abs_le]; constructor <;> norm_num)

theorem dec_gamma28_app {x : F32} {X : ℚ} (hx : Is x X) (hg : Good x) (h0 : 0 ≤ X) (h1 : X ≤ 1) :
    App (decodeTransfer ar .Gamma28 x) ((X : ℝ) ^ (2.8 : ℝ)) (2 / 10 ^ 6) := by
  have hX : (X : ℝ) ≤ 1001 / 1000 := by
    have : (X : ℝ) ≤ 1 := by exact_mod_cast h1
    linarith
  refine (pow_app hf hx hg h0 is_28 (by norm_num) (by norm_num) ?_ (Or.inl ⟨hX, by norm_num⟩) (Or.inl ⟨hX, by norm_num⟩)).mono
    (by norm_num)
  rw [min_def]; split <;> (rw [abs_le]; constructor <;> norm_num)

/-- `((x + a) / b) ^ c` for numbers up to 1. -/
theorem dec_power {x a b c : F32} {X A B C : ℚ} {A' B' C' : ℝ} (hx : Is x X) (hg : Good x) (h0 : 0 ≤ X) (h1 : X ≤ 1)
    (ha : Is a A) (hga : Good a) (hb : Is b B) (hgb : Good b) (hc : Is c C) (hA : 5 / 100 ≤ A) (hA' : |(A : ℝ) - A'| ≤ 4 / 10 ^ 9) (hB : 105 / 100 ≤ B)
    (hB' : |(B : ℝ) - B'| ≤ 6 / 10 ^ 8) (hAB : A' + 1 ≤ B' + 4 / 10 ^ 4) (hC : 2 ≤ C) (hC2 : C ≤ 25 / 10) (hC' : 2 ≤ C') (hC2' : C' ≤ 25 / 10)
    (hCC : |C' - C| ≤ 2 / 10 ^ 7) (hA0 : 0 ≤ A') (hB2 : B' ≤ 11 / 10) :
    App (ar.pow (ar.div (ar.add x a) b) c) ((((X : ℝ) + A') / B') ^ C') (2 / 10 ^ 6) := by
  have hX1 : (X : ℝ) ≤ 1 := by exact_mod_cast h1
  have hX0 : (0 : ℝ) ≤ X := by exact_mod_cast h0
  have hBr : (105 / 100 : ℝ) ≤ B := by
    have := (Rat.cast_le (K := ℝ)).mpr hB; push_cast at this; exact this
  have hAr : (5 / 100 : ℝ) ≤ A := by
    have := (Rat.cast_le (K := ℝ)).mpr hA; push_cast at this; exact this
  have hCr : (2 : ℝ) ≤ C := by exact_mod_cast hC
  have hC2r : (C : ℝ) ≤ 25 / 10 := by
    have := (Rat.cast_le (K := ℝ)).mpr hC2; push_cast at this; exact this
  have hAb := abs_le.mp hA'
  have hBb := abs_le.mp hB'
  rw [hf.div, hf.add]
  have s1 := app_add (B := 1102 / 1000) hx.app ha.app (by rw [abs_of_nonneg (by linarith)]; norm_num at *; linarith [hAb.1, hAb.2, hBb.1, hBb.2])
    (by norm_num) (by norm_num)
  have s2 := app_div_const (B := 1002 / 1000) s1 hb (by linarith) (by
      rw [abs_of_nonneg (by linarith), div_le_iff₀ (by linarith)]
      norm_num at *; linarith [hAb.1, hAb.2, hBb.1, hBb.2]) (by norm_num) (by norm_num)
  have hgq : Good (F32.div (F32.add x a) b) := good_div (good_add hg hga) hgb
  obtain ⟨q, hq, hqe⟩ := s2.is
  have hB0 : (0 : ℝ) < B := by linarith
  have hB0' : (0 : ℝ) < B' := by norm_num at *; linarith [hBb.1, hBb.2]
  -- distance to the exact base
  have hbase : |((X : ℝ) + A) / B - ((X : ℝ) + A') / B'| ≤ 7 / 10 ^ 8 := by
    have e : ((X : ℝ) + A) / B - ((X : ℝ) + A') / B' = ((A - A') - ((X : ℝ) + A') / B' * (B - B')) / B := by
      field_simp; ring
    have hq : |((X : ℝ) + A') / B'| ≤ 1001 / 1000 := by
      rw [abs_of_nonneg (by positivity), div_le_iff₀ hB0']
      norm_num at *; linarith [hBb.1, hBb.2]
    rw [e, abs_div, abs_of_pos hB0, div_le_iff₀ hB0]
    have h3 : |((X : ℝ) + A') / B' * (B - B')| ≤ 1001 / 1000 * (6 / 10 ^ 8) := by
      rw [abs_mul]; exact mul_le_mul hq hB' (abs_nonneg _) (by norm_num)
    refine (abs_sub _ _).trans ?_
    norm_num at *; linarith
  have hbd : (105 / 100 : ℝ)⁻¹ ≤ 953 / 1000 := by norm_num
  have hdq : |(q : ℝ) - ((X : ℝ) + A') / B'| ≤ 2 / 10 ^ 7 := by
    have hdB : (0 + 0 + (1102 / 1000 + 1 / 10 ^ 9) * (6 / 10 ^ 8) : ℝ) / B ≤ 64 / 10 ^ 9 := by
      rw [div_le_iff₀ hB0]; norm_num at *; linarith
    have := abs_le.mp hqe
    have h3 := abs_le.mp hbase
    rw [abs_le]
    norm_num at *
    constructor <;> linarith [this.1, this.2, h3.1, h3.2]
  have hbl : 4 / 100 ≤ ((X : ℝ) + A') / B' := by
    rw [le_div_iff₀ hB0']
    have h3 := hAb.2
    norm_num at h3 hAr hB2 ⊢; linarith
  have hbu : ((X : ℝ) + A') / B' ≤ 10005 / 10000 := by
    rw [div_le_iff₀ hB0']; norm_num at *; linarith [hBb.1, hBb.2]
  have hq1 : (q : ℝ) ≤ 1001 / 1000 := by have := abs_le.mp hdq; norm_num at *; linarith [this.2]
  have hq0r : (0 : ℝ) ≤ q := by
    have h3 := (abs_le.mp hdq).1
    norm_num at h3 hbl; linarith
  have hq0 : 0 ≤ q := by exact_mod_cast hq0r
  have hpw := pow_app hf hq hgq hq0 hc (Z := C') (by linarith) (by linarith) (by
      have h2 : (2 : ℝ) ≤ min (C : ℝ) C' := le_min hCr hC'
      refine hCC.trans ?_
      norm_num; linarith) (Or.inl ⟨hq1, by linarith⟩) (Or.inl ⟨hq1, by linarith⟩)
  have hk : ∀ c : ℝ, 0 ≤ c → c ≤ 1001 / 1000 → C' * c ^ (C' - 1) ≤ 252 / 100 := by
    intro c c0 c1
    have h5 : c ^ (C' - 1) ≤ (1001 / 1000) ^ (2 : ℕ) := by
      calc c ^ (C' - 1) ≤ (1001 / 1000 : ℝ) ^ (C' - 1) := Real.rpow_le_rpow c0 c1 (by linarith)
        _ ≤ (1001 / 1000 : ℝ) ^ (2 : ℝ) := Real.rpow_le_rpow_of_exponent_le (by norm_num) (by linarith)
        _ = _ := by rw [← Real.rpow_natCast]; norm_num
    refine (mul_le_mul hC2' h5 (Real.rpow_nonneg c0 _) (by norm_num)).trans (by norm_num)
  have hl := rpow_lip (K := 252 / 100) hq0r (show 0 ≤ ((X : ℝ) + A') / B' by linarith) (show 1 ≤ C' by linarith) (by
    rintro c (rfl | rfl)
    · exact hk _ hq0r hq1
    · exact hk _ (by linarith) (by linarith))
  refine (hpw.shift hl).mono ?_
  norm_num at *; linarith

omit hf in
/-- No number lies between two neighbours. -/
theorem rep_between {M : Nat} {k : Int} {X : ℚ} (hr : Rep X) (hk : -126 ≤ k) (h1 : (2 : ℚ) ^ k ≤ X) (h2 : X < (2 : ℚ) ^ (k + 1))
    (h3 : (M : ℚ) * (2 : ℚ) ^ (k - 23) < X) : ((M : ℚ) + 1) * (2 : ℚ) ^ (k - 23) ≤ X := by
  obtain ⟨N, -, -, rfl⟩ := rep_significand hr h1 h2 hk
  have h4 := lt_of_mul_lt_mul_right h3 (pow2_pos _).le
  have h5 : M < N := by exact_mod_cast h4
  have h6 : ((M : ℚ) + 1) ≤ N := by exact_mod_cast h5
  exact mul_le_mul_of_nonneg_right h6 (pow2_pos _).le

theorem dec_srgb_app {x : F32} {X : ℚ} (hx : Is x X) (hg : Good x) (h0 : 0 ≤ X) (h1 : X ≤ 1) :
    App (decodeTransfer ar .SRGB x)
      (if (X : ℝ) ≤ 0.04045 then (X : ℝ) / 12.92 else (((X : ℝ) + 0.055) / 1.055) ^ (2.4 : ℝ)) (21 / 10 ^ 7) := by
  have hX1 : (X : ℝ) ≤ 1 := by exact_mod_cast h1
  have hX0 : (0 : ℝ) ≤ X := by exact_mod_cast h0
  have hhigh : App (ar.pow (ar.div (ar.add x (lit 0.055)) (lit 1.055)) (lit 2.4))
      ((((X : ℝ) + 0.055) / 1.055) ^ (2.4 : ℝ)) (2 / 10 ^ 6) := by
    refine dec_power hf hx hg h0 h1 is_0055 (good_lit _) is_1055 (good_lit _) is_24 (by norm_num) ?_ (by norm_num) ?_ (by norm_num)
      (by norm_num) (by norm_num) (by norm_num) (by norm_num) ?_ (by norm_num) (by norm_num)
    all_goals rw [abs_le]; constructor <;> norm_num
  simp only [decodeTransfer]
  rw [hf.le hx is_srgb_dec h0 (by norm_num)]
  by_cases hb : X ≤ 5429107 / 134217728
  · have hbr : (X : ℝ) ≤ 5429107 / 134217728 := by
      have := (Rat.cast_le (K := ℝ)).mpr hb; push_cast at this; exact this
    rw [if_pos (by simpa using hb), if_pos (by norm_num; linarith), hf.div]
    have := app_div_const (B := 1 / 100) hx.app is_1292 (by norm_num) (by
      rw [abs_of_nonneg hX0]; push_cast; norm_num; linarith) (by norm_num) (by norm_num)
    refine (this.shift (r' := (X : ℝ) / 12.92) (d := 1 / 10 ^ 9) ?_).mono (by norm_num)
    push_cast
    rw [abs_le]
    constructor <;> norm_num <;> linarith
  · rw [if_neg (by simpa using hb)]
    split
    · -- between the rounded and the exact threshold
      rename_i hc
      have hbr : (5429107 / 134217728 : ℝ) ≤ X := by
        have := (Rat.cast_lt (K := ℝ)).mpr (not_le.mp hb); push_cast at this; exact this.le
      refine (hhigh.shift (r' := (X : ℝ) / 12.92) (d := 1 / 10 ^ 7) ?_).mono (by norm_num)
      have b0 : 0 ≤ ((X : ℝ) + 0.055) / 1.055 := by positivity
      have l1 : (0.0031308 : ℝ) ≤ (((X : ℝ) + 0.055) / 1.055) ^ (2.4 : ℝ) := by
        rw [le_rpow_iff (m := 12) (n := 5) (by norm_num) (by norm_num) (by norm_num) b0]
        refine le_trans ?_ (pow_le_pow_left₀ (a := (5429107 / 134217728 + 0.055) / 1.055) (by norm_num) (by gcongr) 12)
        norm_num
      have l2 : (((X : ℝ) + 0.055) / 1.055) ^ (2.4 : ℝ) < (0.00313081 : ℝ) := by
        rw [rpow_lt_iff (m := 12) (n := 5) (by norm_num) (by norm_num) (by norm_num) b0]
        refine lt_of_le_of_lt (pow_le_pow_left₀ (b := (0.04045 + 0.055) / 1.055) b0 (by gcongr) 12) ?_
        norm_num
      rw [abs_le]
      norm_num at *
      constructor <;> linarith
    · exact hhigh.mono (by norm_num)

theorem dec_sdr_app {x : F32} {X : ℚ} (hx : Is x X) (hg : Good x) (h0 : 0 ≤ X) (h1 : X ≤ 1) :
    App (decodeTransfer ar .SDR x)
      (if (X : ℝ) < 0.081490956 then (X : ℝ) / 4.5 else (((X : ℝ) + 0.0993) / 1.099) ^ (1 / 0.45 : ℝ)) (2 / 10 ^ 6) := by
  have hX1 : (X : ℝ) ≤ 1 := by exact_mod_cast h1
  have hX0 : (0 : ℝ) ≤ X := by exact_mod_cast h0
  simp only [decodeTransfer]
  rw [hf.lt hx is_sdr_dec h0 (by norm_num)]
  by_cases hb : X < 10937531 / 134217728
  · -- numbers below the rounded threshold are below the exact one
    have hb2 : X ≤ 10937530 / 134217728 := by
      by_contra hc
      have hr := (hg.is hx).1
      rw [abs_of_nonneg h0] at hr
      have := rep_between (M := 10937530) (k := -4) hr (by norm_num) (by norm_num at *; linarith) (by norm_num at *; linarith)
        (by norm_num at *; linarith)
      norm_num at *; linarith
    have hbr : (X : ℝ) ≤ 10937530 / 134217728 := by
      have := (Rat.cast_le (K := ℝ)).mpr hb2; push_cast at this; exact this
    rw [if_pos (by simpa using hb), if_pos (by norm_num; linarith), hf.div]
    have := app_div_const (B := 1 / 50) hx.app is_45 (by norm_num) (by
      rw [abs_of_nonneg hX0]; push_cast; norm_num; linarith) (by norm_num) (by norm_num)
    refine (this.shift (r' := (X : ℝ) / 4.5) (d := 1 / 10 ^ 9) ?_).mono (by norm_num)
    push_cast
    rw [abs_le]
    constructor <;> norm_num
  · have hbr : (10937531 / 134217728 : ℝ) ≤ X := by
      have := (Rat.cast_le (K := ℝ)).mpr (not_lt.mp hb); push_cast at this; exact this
    rw [if_neg (by simpa using hb), if_neg (by norm_num at *; linarith)]
    refine dec_power hf hx hg h0 h1 is_00993 (good_lit _) is_1099 (good_lit _) is_i045 (by norm_num) ?_ (by norm_num) ?_ (by norm_num)
      (by norm_num) (by norm_num) (by norm_num) (by norm_num) ?_ (by norm_num) (by norm_num)
    all_goals rw [abs_le]; constructor <;> norm_num

/-- `max(x, 0)`. -/
theorem max_is {x : F32} {X : ℚ} (hx : Is x X) (hg : Good x) :
    Is (ar.max x (lit 0.0)) (max X 0) ∧ Good (ar.max x (lit 0.0)) := by
  rcases lt_or_ge 0 X with h | h
  · rw [hf.max_pos hx h, max_eq_left h.le]; exact ⟨hx, hg⟩
  · obtain ⟨s, e⟩ := hf.max_neg hx h
    rw [e, max_eq_right h]
    exact ⟨⟨s, 0, rfl, le_refl _, by cases s <;> simp [signed]⟩, good_zero s⟩

omit hf in
theorem log_e : |Real.log (2850325 / 1048576 : ℝ) - 1| ≤ 4 / 10 ^ 8 := by
  have h1 := Real.exp_one_gt_d9
  have h2 := Real.exp_one_lt_d9
  have hq : (0 : ℝ) < 2850325 / 1048576 := by norm_num
  rw [abs_le]
  constructor
  · have h3 := Real.one_sub_inv_le_log_of_pos (show (0 : ℝ) < 2850325 / 1048576 / Real.exp 1 by positivity)
    rw [Real.log_div hq.ne' (Real.exp_pos 1).ne', Real.log_exp, inv_div] at h3
    have h4 : Real.exp 1 / (2850325 / 1048576) ≤ 1 + 4 / 10 ^ 8 := by
      rw [div_le_iff₀ hq]; norm_num at *; linarith
    linarith
  · have h3 : Real.log (2850325 / 1048576 : ℝ) ≤ Real.log (Real.exp 1) := Real.log_le_log hq (by norm_num at *; linarith)
    rw [Real.log_exp] at h3
    norm_num; linarith

/-- The HLG decoder, for a signal `X` once it is not below 0. -/
theorem dec_hlg_max {x : F32} {X : ℚ} (hm : Is (ar.max x (lit 0.0)) X) (hgm : Good (ar.max x (lit 0.0))) (h0 : 0 ≤ X)
    (h1 : X ≤ 1 + 3 / 10 ^ 6) :
    App (decodeTransfer ar .BT2100HLG x)
      (if (X : ℝ) ≤ 1 / 2 then (X : ℝ) ^ 2 / 3 else (Real.exp (((X : ℝ) - 0.5599107) / 0.17883277) + 0.28466892) / 12)
      (25 / 10 ^ 7) := by
  have hX1 : (X : ℝ) ≤ 1000003 / 1000000 := by
    have := (Rat.cast_le (K := ℝ)).mpr h1; push_cast at this; norm_num at this ⊢; exact this
  have hX0 : (0 : ℝ) ≤ X := by exact_mod_cast h0
  simp only [decodeTransfer, hlgDecode]
  generalize ar.max x (lit 0.0) = m at *
  rw [hf.le hm is_05 h0 (by norm_num)]
  by_cases hb : X ≤ 1 / 2
  · have hbr : (X : ℝ) ≤ 1 / 2 := by
      have := (Rat.cast_le (K := ℝ)).mpr hb; push_cast at this; exact this
    rw [if_pos (by simpa using hb), if_pos hbr, hf.div]
    have hp := pow_exact hf hm hgm h0 is_2 (by norm_num) (Or.inl ⟨by linarith, by norm_num⟩)
    have e : (X : ℝ) ^ ((2 : ℚ) : ℝ) = (X : ℝ) ^ 2 := by push_cast; exact Real.rpow_two _
    rw [e] at hp
    have hs : (X : ℝ) ^ 2 ≤ 1 / 4 := by nlinarith
    have := app_div_const (B := 1) hp is_3 (by norm_num) (by
      rw [abs_of_nonneg (by positivity)]; push_cast; norm_num; linarith) (by norm_num) (by norm_num)
    push_cast at this
    exact this.mono (by norm_num)
  · have hbr : (1 / 2 : ℝ) < X := by
      have := (Rat.cast_lt (K := ℝ)).mpr (not_le.mp hb); push_cast at this; exact this
    rw [if_neg (by simpa using hb), if_neg (not_le.mpr hbr), hf.div, hf.add, hf.sub]
    -- the exponent
    have hC : App (Hlg.C : F32) 0.5599107 (2 / 10 ^ 8) :=
      app_const (q := 0.5599107) (d := 2 / 10 ^ 8) (by decide +kernel) (by norm_num) (by norm_num)
    have hB : App (Hlg.B' : F32) 0.28466892 (1 / 10 ^ 8) :=
      app_const (q := 0.28466892) (d := 1 / 10 ^ 8) (by decide +kernel) (by norm_num) (by norm_num)
    have s1 := app_sub (B := 442 / 1000) hm.app hC (by
      have : |(X : ℝ) - 0.5599107| ≤ 441 / 1000 := by rw [abs_le]; norm_num; constructor <;> linarith
      norm_num at this ⊢; linarith) (by norm_num) (by norm_num)
    have s2 := app_div_const (B := 25 / 10) s1 is_hlgA (by norm_num) (by
      have : |(X : ℝ) - 0.5599107| ≤ 441 / 1000 := by rw [abs_le]; norm_num; constructor <;> linarith
      rw [div_le_iff₀ (by norm_num)]
      norm_num at this ⊢; linarith) (by norm_num) (by norm_num)
    obtain ⟨Y, hY, hYe⟩ := s2.is
    set t := ((X : ℝ) - 0.5599107) / 0.17883277 with ht
    have ht1 : t ≤ 2462 / 1000 := by rw [ht, div_le_iff₀ (by norm_num)]; norm_num; linarith
    have ht0 : -34 / 100 ≤ t := by rw [ht, le_div_iff₀ (by norm_num)]; norm_num; linarith
    have hYt : |(Y : ℝ) - t| ≤ 45 / 10 ^ 8 := by
      have e1 : |((X : ℝ) - 0.5599107) / ((750079 / 4194304 : ℚ) : ℝ) - t| ≤ 1 / 10 ^ 8 := by
        rw [ht]; push_cast; rw [abs_le]; norm_num; constructor <;> linarith
      rw [abs_le] at e1 hYe ⊢
      norm_num at e1 hYe ⊢
      constructor <;> linarith [e1.1, e1.2, hYe.1, hYe.2]
    have hYa : |(Y : ℝ)| ≤ 25 / 10 := by
      rw [abs_le] at hYt ⊢
      norm_num at *
      constructor <;> linarith [hYt.1, hYt.2]
    have hYq : |Y| ≤ 100 := by
      have : |(Y : ℝ)| ≤ 100 := by linarith
      exact_mod_cast this
    have hle := log_e
    -- `e ^ y`
    have hge : Good (FOps.e : F32) := good_ofRat _ _
    have hei : (FOps.e : F32) = fin false (2850325 / 1048576) := is_e.pos (by norm_num)
    have hre : Rep (2850325 / 1048576) := by
      have := (hge.is is_e).1
      rwa [abs_of_pos (by norm_num)] at this
    have hcast : ((2850325 / 1048576 : ℚ) : ℝ) = 2850325 / 1048576 := by push_cast; rfl
    have hYl : |(Y : ℝ) * Real.log (2850325 / 1048576 : ℝ) - t| ≤ 6 / 10 ^ 7 := by
      have e1 : (Y : ℝ) * Real.log (2850325 / 1048576 : ℝ) - t =
          (Y : ℝ) * (Real.log (2850325 / 1048576 : ℝ) - 1) + (Y - t) := by ring
      rw [e1]
      refine (abs_add_le _ _).trans ?_
      rw [abs_mul]
      have := mul_le_mul hYa hle (abs_nonneg _) (by norm_num)
      norm_num at this hYt ⊢
      linarith
    obtain ⟨r, er, r0, hr⟩ := hf.lib.pow.1 (y := F32.div (F32.sub m Hlg.C) Hlg.A) hre (by norm_num) (by norm_num) hY hYq (by
      rw [hcast]
      have := (abs_le.mp hYl).2
      norm_num at this ⊢; linarith)
    rw [hcast] at hr
    have hpe : (2850325 / 1048576 : ℝ) ^ (Y : ℝ) = Real.exp ((Y : ℝ) * Real.log (2850325 / 1048576 : ℝ)) := by
      rw [Real.rpow_def_of_pos (by norm_num), mul_comm]
    rw [hpe] at hr
    have hcl := exp_close hYl (by norm_num)
    have hexp : Real.exp t ≤ 122 / 10 := by
      refine (Real.exp_le_exp.mpr (show t ≤ 5 / 2 by linarith)).trans ?_
      have e1 : Real.exp (5 / 2) ^ 2 = Real.exp 1 ^ 5 := by
        rw [← Real.exp_nat_mul, ← Real.exp_nat_mul]; norm_num
      have e2 : Real.exp 1 ^ 5 ≤ (122 / 10) ^ 2 := by
        refine (pow_le_pow_left₀ (Real.exp_pos 1).le Real.exp_one_lt_d9.le 5).trans (by norm_num)
      exact le_of_sq_le_sq (by rw [e1]; exact e2) (by norm_num)
    have hexp0 := Real.exp_pos t
    have hpow : App (ar.pow FOps.e (F32.div (F32.sub m Hlg.C) Hlg.A)) (Real.exp t) (24 / 10 ^ 6) := by
      refine ⟨false, r, by rw [hei]; exact er, r0, ?_⟩
      have e1 : signed false r = r := rfl
      rw [e1]
      have hlog1 : |Real.log (2850325 / 1048576 : ℝ)| ≤ 1001 / 1000 := by
        rw [abs_le] at hle ⊢; norm_num at hle ⊢; constructor <;> linarith [hle.1, hle.2]
      have hco : 43 / 10 ^ 8 + 17 / 10 ^ 8 * |(Y : ℝ)| * (1 + |Real.log (2850325 / 1048576 : ℝ)|) ≤ 1282 / 10 ^ 9 := by
        have := mul_le_mul hYa (show 1 + |Real.log (2850325 / 1048576 : ℝ)| ≤ 2001 / 1000 by linarith) (by positivity) (by norm_num)
        rw [mul_assoc]
        norm_num at this ⊢
        linarith
      set G := Real.exp ((Y : ℝ) * Real.log (2850325 / 1048576 : ℝ)) with hG
      have hG0 : 0 < G := Real.exp_pos _
      have hGb : G ≤ 12201 / 1000 := by
        have := (abs_le.mp hcl).2
        norm_num at this ⊢; nlinarith
      have h3 := mul_le_mul hco hGb hG0.le (by norm_num)
      have h4 : (101 / 100 * (6 / 10 ^ 7) * Real.exp t : ℝ) ≤ 101 / 100 * (6 / 10 ^ 7) * (122 / 10) :=
        mul_le_mul_of_nonneg_left hexp (by norm_num)
      have h5 := hr.trans (add_le_add_left h3 _)
      have h6 := hcl.trans h4
      rw [abs_le] at h5 h6 ⊢
      norm_num at h5 h6 ⊢
      constructor <;> linarith [h5.1, h5.2, h6.1, h6.2]
    have s3 := app_add (B := 13) hpow hB (by
      rw [abs_of_nonneg (by positivity)]; norm_num; linarith) (by norm_num) (by norm_num)
    have s4 := app_div_const (B := 2) s3 is_12 (by norm_num) (by
      rw [abs_of_nonneg (by positivity), div_le_iff₀ (by norm_num)]; norm_num; linarith) (by norm_num) (by norm_num)
    push_cast at s4
    exact s4.mono (by norm_num)

theorem dec_hlg_app {x : F32} {X : ℚ} (hx : Is x X) (hg : Good x) (h0 : 0 ≤ X) (h1 : X ≤ 1) :
    App (decodeTransfer ar .BT2100HLG x)
      (if (X : ℝ) ≤ 1 / 2 then (X : ℝ) ^ 2 / 3 else (Real.exp (((X : ℝ) - 0.5599107) / 0.17883277) + 0.28466892) / 12)
      (25 / 10 ^ 7) := by
  obtain ⟨hm, hgm⟩ := max_is hf hx hg
  rw [max_eq_left h0] at hm
  exact dec_hlg_max hf hm hgm h0 (h1.trans (by norm_num))

end
end Ezk

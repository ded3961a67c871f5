import Verif.Proofs.TransferApp

/-!
# Encoding as computed, compared with the exact formulas
-/

namespace Ezk
open F32 FOps Spec

section
variable {ar : Arith F32} (hf : Floats ar)
include hf

theorem enc_root {x c : F32} {X C : ℚ} {Z : ℝ} (hx : Is x X) (hg : Good x) (h0 : 0 ≤ X) (h2 : X ≤ 2) (hc : Is c C)
    (hC : 1 / 3 ≤ C) (hC2 : C ≤ 1 / 2) (hZ : 1 / 3 ≤ Z) (hZ2 : Z ≤ 1 / 2) (hd : |Z - C| ≤ 3 / 10 ^ 8) :
    App (ar.pow x c) ((X : ℝ) ^ Z) (125 / 10 ^ 8) := by
  have hX : (X : ℝ) ≤ 2 := by exact_mod_cast h2
  have hCr : (1 / 3 : ℝ) ≤ C := by
    have := (Rat.cast_le (K := ℝ)).mpr hC; push_cast at this; exact this
  have hC2r : (C : ℝ) ≤ 1 / 2 := by
    have := (Rat.cast_le (K := ℝ)).mpr hC2; push_cast at this; exact this
  refine pow_app hf hx hg h0 hc hC hZ ?_ (Or.inr ⟨hX, hC2r⟩) (Or.inr ⟨hX, hZ2⟩)
  have : (1 / 3 : ℝ) ≤ min (C : ℝ) Z := le_min hCr hZ
  norm_num at hd ⊢
  linarith

theorem enc_gamma22_app {x : F32} {X : ℚ} (hx : Is x X) (hg : Good x) (h0 : 0 ≤ X) (h2 : X ≤ 2) :
    App (encodeTransfer ar .Gamma22 x) ((X : ℝ) ^ (1 / 2.2 : ℝ)) (2 / 10 ^ 6) := by
  refine (enc_root hf hx hg h0 h2 is_i22 (by norm_num) (by norm_num) (by norm_num) (by norm_num) ?_).mono (by norm_num)
  rw [abs_le]; constructor <;> norm_num

theorem enc_gamma28_app {x : F32} {X : ℚ} (hx : Is x X) (hg : Good x) (h0 : 0 ≤ X) (h2 : X ≤ 2) :
    App (encodeTransfer ar .Gamma28 x) ((X : ℝ) ^ (1 / 2.8 : ℝ)) (2 / 10 ^ 6) := by
  refine (enc_root hf hx hg h0 h2 is_i28 (by norm_num) (by norm_num) (by norm_num) (by norm_num) ?_).mono (by norm_num)
  rw [abs_le]; constructor <;> norm_num

omit hf in
theorem rpow_le_two {X Z : ℝ} (h0 : 0 ≤ X) (h2 : X ≤ 2) (hZ0 : 0 ≤ Z) (hZ1 : Z ≤ 1) : X ^ Z ≤ 2 := by
  calc X ^ Z ≤ (2 : ℝ) ^ Z := Real.rpow_le_rpow h0 h2 hZ0
    _ ≤ (2 : ℝ) ^ (1 : ℝ) := Real.rpow_le_rpow_of_exponent_le (by norm_num) hZ1
    _ = 2 := Real.rpow_one 2

/-- `a·x^c − b`. -/
theorem enc_power {x a b c : F32} {X C A B : ℚ} {A' B' Z : ℝ} (hx : Is x X) (hg : Good x) (h0 : 0 ≤ X) (h2 : X ≤ 2) (hc : Is c C)
    (hC : 1 / 3 ≤ C) (hC2 : C ≤ 1 / 2) (hZ : 1 / 3 ≤ Z) (hZ2 : Z ≤ 1 / 2) (hd : |Z - C| ≤ 3 / 10 ^ 8)
    (ha : Is a A) (hA : |(A : ℝ) - A'| ≤ 6 / 10 ^ 8) (hA' : |A'| ≤ 11 / 10) (hb : Is b B) (hB : |(B : ℝ) - B'| ≤ 1 / 10 ^ 8)
    (hB' : |B'| ≤ 1 / 10) : App (ar.sub (ar.mul a (ar.pow x c)) b) (A' * (X : ℝ) ^ Z - B') (19 / 10 ^ 7) := by
  have hp := enc_root hf hx hg h0 h2 hc hC hC2 hZ hZ2 hd
  have hX0 : (0 : ℝ) ≤ X := by exact_mod_cast h0
  have hX2 : (X : ℝ) ≤ 2 := by exact_mod_cast h2
  have hP : |(X : ℝ) ^ Z| ≤ 2 := by
    rw [abs_of_nonneg (Real.rpow_nonneg hX0 _)]; exact rpow_le_two hX0 hX2 (by linarith) (by linarith)
  rw [hf.sub, hf.mul]
  have s1 := app_mul (B := 23 / 10) (ha.app.shift hA) hp hA' hP (by norm_num) (by norm_num) (by norm_num)
  have s2 := app_sub (B := 24 / 10) s1 (hb.app.shift hB) (by
    have h1 : |A' * (X : ℝ) ^ Z - B'| ≤ 11 / 10 * 2 + 1 / 10 := by
      refine (abs_sub _ _).trans (add_le_add ?_ hB')
      rw [abs_mul]; exact mul_le_mul hA' hP (abs_nonneg _) (by norm_num)
    norm_num at h1 ⊢; linarith) (by norm_num) (by norm_num)
  exact s2.mono (by norm_num)

theorem enc_srgb_app {x : F32} {X : ℚ} (hx : Is x X) (hg : Good x) (h0 : 0 ≤ X) (h2 : X ≤ 2) :
    App (encodeTransfer ar .SRGB x)
      (if (X : ℝ) ≤ 0.0031308 then (X : ℝ) * 12.92 else 1.055 * (X : ℝ) ^ (1 / 2.4 : ℝ) - 0.055) (2 / 10 ^ 6) := by
  have hX0 : (0 : ℝ) ≤ X := by exact_mod_cast h0
  have hX2 : (X : ℝ) ≤ 2 := by exact_mod_cast h2
  simp only [encodeTransfer]
  rw [hf.le hx is_srgb_enc h0 (by norm_num)]
  by_cases hb : X ≤ 3361671 / 1073741824
  · have hbr : (X : ℝ) ≤ 3361671 / 1073741824 := by
      have := (Rat.cast_le (K := ℝ)).mpr hb; push_cast at this; exact this
    have low : App (ar.mul x (lit 12.92)) ((X : ℝ) * 12.92) (1 / 10 ^ 8) := by
      rw [hf.mul]
      have hs : App (lit 12.92 : F32) 12.92 (1 / 10 ^ 7 * 4) := by
        refine (is_1292.app.shift (d := 1 / 10 ^ 7 * 4) ?_).mono (by norm_num)
        rw [abs_le]; constructor <;> norm_num
      have := app_mul (B := 5 / 100) hx.app hs (A := 32 / 10000) (C := 13) (by rw [abs_of_nonneg hX0]; norm_num; linarith)
        (by rw [abs_of_nonneg] <;> norm_num) (by norm_num) (by norm_num) (by norm_num)
      exact this.mono (by norm_num)
    rw [if_pos (by simpa using hb)]
    split
    · exact low.mono (by norm_num)
    · rename_i hc
      rw [not_le] at hc
      refine (low.shift (d := 1 / 10 ^ 7) ?_).mono (by norm_num)
      have l1 : (0.09047384 : ℝ) ≤ (X : ℝ) ^ (1 / 2.4 : ℝ) := by
        rw [le_rpow_iff (m := 5) (n := 12) (by norm_num) (by norm_num) (by norm_num) hX0]
        refine le_trans ?_ (pow_le_pow_left₀ (a := 0.0031308) (by norm_num) hc.le 5)
        norm_num
      have l2 : (X : ℝ) ^ (1 / 2.4 : ℝ) < (0.09047385 : ℝ) := by
        rw [rpow_lt_iff (m := 5) (n := 12) (by norm_num) (by norm_num) (by norm_num) hX0]
        refine lt_of_le_of_lt (pow_le_pow_left₀ (b := 3361671 / 1073741824) hX0 hbr 5) ?_
        norm_num
      rw [abs_le]
      norm_num at l1 l2 hc ⊢
      constructor <;> linarith
  · have hbr : (3361671 / 1073741824 : ℝ) < X := by
      have := (Rat.cast_lt (K := ℝ)).mpr (not_le.mp hb); push_cast at this; exact this
    rw [if_neg (by simpa using hb), if_neg (by norm_num; linarith)]
    refine (enc_power hf hx hg h0 h2 is_i24 (by norm_num) (by norm_num) (by norm_num) (by norm_num) ?_ is_1055 ?_ ?_ is_0055 ?_ ?_).mono
      (by norm_num)
    all_goals rw [abs_le]; constructor <;> norm_num

/-- The two branches of the encoder `SDR`, with the comparison as computed. -/
theorem enc_sdr_branch {x : F32} {X : ℚ} (hx : Is x X) (hg : Good x) (h0 : 0 ≤ X) (h2 : X ≤ 2) :
    App (encodeTransfer ar .SDR x)
      (if X < 9692651 / 536870912 then 4.5 * (X : ℝ) else 1.099 * (X : ℝ) ^ (0.45 : ℝ) - 0.099) (2 / 10 ^ 6) := by
  have hX0 : (0 : ℝ) ≤ X := by exact_mod_cast h0
  simp only [encodeTransfer]
  rw [hf.lt hx is_sdr_enc h0 (by norm_num)]
  by_cases hb : X < 9692651 / 536870912
  · have hbr : (X : ℝ) < 9692651 / 536870912 := by
      have := (Rat.cast_lt (K := ℝ)).mpr hb; push_cast at this; exact this
    rw [if_pos (by simpa using hb), if_pos hb, hf.mul]
    have := app_mul (B := 1 / 10) is_45.app hx.app (A := 45 / 10) (C := 2 / 100) (by
      push_cast; rw [abs_of_nonneg] <;> norm_num) (by rw [abs_of_nonneg hX0]; norm_num; linarith)
      (by norm_num) (by norm_num) (by norm_num)
    refine (this.shift (d := 0) ?_).mono (by norm_num)
    push_cast
    rw [abs_le]; constructor <;> norm_num
  · rw [if_neg (by simpa using hb), if_neg hb]
    refine (enc_power hf hx hg h0 h2 is_045 (by norm_num) (by norm_num) (by norm_num) (by norm_num) ?_ is_1099 ?_ ?_ is_0099 ?_ ?_).mono
      (by norm_num)
    all_goals rw [abs_le]; constructor <;> norm_num

theorem enc_sdr_app {x : F32} {X : ℚ} (hx : Is x X) (hg : Good x) (h0 : 0 ≤ X) (h2 : X ≤ 2) (hne : X ≠ 9692651 / 536870912) :
    App (encodeTransfer ar .SDR x)
      (if (X : ℝ) < 0.01805397 then 4.5 * (X : ℝ) else 1.099 * (X : ℝ) ^ (0.45 : ℝ) - 0.099) (2 / 10 ^ 6) := by
  have := enc_sdr_branch hf hx hg h0 h2
  by_cases hb : X < 9692651 / 536870912
  · have hbr : (X : ℝ) < 9692651 / 536870912 := by
      have := (Rat.cast_lt (K := ℝ)).mpr hb; push_cast at this; exact this
    rw [if_pos hb] at this
    rw [if_pos (by norm_num; linarith)]
    exact this
  · have hb2 : 9692652 / 536870912 ≤ X := by
      have h3 : 9692651 / 536870912 < X := lt_of_le_of_ne (not_lt.mp hb) (Ne.symm hne)
      rcases lt_or_ge X (1 / 32) with h4 | h4
      · have hr := (hg.is hx).1
        rw [abs_of_nonneg h0] at hr
        have := rep_between (M := 9692651) (k := -6) hr (by norm_num) (by norm_num at *; linarith) (by norm_num at *; linarith)
          (by norm_num at *; linarith)
        norm_num at *; linarith
      · norm_num at *; linarith
    have hbr : (9692652 / 536870912 : ℝ) ≤ X := by
      have := (Rat.cast_le (K := ℝ)).mpr hb2; push_cast at this; exact this
    rw [if_neg hb] at this
    rw [if_neg (by norm_num; linarith)]
    exact this

/-- At the one number left out the two branches differ by 2.5·10⁻⁴. -/
theorem enc_sdr_app' {x : F32} {X : ℚ} (hx : Is x X) (hg : Good x) (h0 : 0 ≤ X) (h2 : X ≤ 2) :
    App (encodeTransfer ar .SDR x)
      (if (X : ℝ) < 0.01805397 then 4.5 * (X : ℝ) else 1.099 * (X : ℝ) ^ (0.45 : ℝ) - 0.099) (3 / 10 ^ 4) := by
  by_cases hne : X = 9692651 / 536870912
  · have := enc_sdr_branch hf hx hg h0 h2
    rw [if_neg (by rw [hne]; exact lt_irrefl _)] at this
    have hX : (X : ℝ) = 9692651 / 536870912 := by rw [hne]; push_cast; rfl
    rw [if_pos (by rw [hX]; norm_num)]
    refine (this.shift (d := 27 / 10 ^ 5) ?_).mono (by norm_num)
    have l1 : (0.1642 : ℝ) ≤ (X : ℝ) ^ (0.45 : ℝ) := by
      rw [le_rpow_iff (m := 9) (n := 20) (by norm_num) (by norm_num) (by norm_num) (by rw [hX]; norm_num), hX]
      norm_num
    have l2 : (X : ℝ) ^ (0.45 : ℝ) < (0.16425 : ℝ) := by
      rw [rpow_lt_iff (m := 9) (n := 20) (by norm_num) (by norm_num) (by norm_num) (by rw [hX]; norm_num), hX]
      norm_num
    rw [abs_le, hX]
    rw [hX] at l1 l2
    norm_num at l1 l2 ⊢
    constructor <;> linarith
  · exact (enc_sdr_app hf hx hg h0 h2 hne).mono (by norm_num)

/-- Square roots of products with 3. -/
theorem sqrt3_app {x : F32} {X : ℚ} (hx : Is x X) (hg : Good x) (h0 : 0 ≤ X) (h1 : X ≤ 1 / 10) :
    App (ar.sqrt (F32.mul x (lit 3.0))) (Real.sqrt ((X : ℝ) * 3)) (3 / 10 ^ 7) := by
  have h3 : (lit 3.0 : F32) = fin false 3 := is_3.pos (by norm_num)
  have hX1 : (X : ℝ) ≤ 1 / 10 := by
    have := (Rat.cast_le (K := ℝ)).mpr h1; push_cast at this; exact this
  rcases hx.nonneg h0 with rfl | ⟨rfl, rfl⟩
  · rcases h0.eq_or_lt with rfl | hp
    · rw [h3]
      have e : F32.mul (fin false 0) (fin false 3) = fin false 0 := by decide +kernel
      rw [e]
      obtain ⟨r, hr, r0, hb⟩ := hf.lib.sqrt (p := 0) ⟨0, 0, by norm_num, by norm_num, by norm_num⟩ le_rfl (by norm_num)
      refine ⟨false, r, hr, r0, ?_⟩
      simp at hb
      simp [signed, hb]; norm_num
    · have hg3 := good_mul hg (good_lit 3.0)
      rw [h3] at hg3 ⊢
      have e : F32.mul (fin false X) (fin false 3) = F32.round false (X * 3) := rfl
      rw [e] at hg3 ⊢
      obtain ⟨q, hq, q0, hqe⟩ := round_rel false (q := X * 3) (by positivity) (by norm_num; linarith)
      rw [hq] at hg3 ⊢
      obtain ⟨r, hr, r0, hb⟩ := hf.lib.sqrt (p := q) hg3.2.1 hg3.1 hg3.2.2
      refine ⟨false, r, hr, r0, ?_⟩
      have hmin : (2 : ℚ) ^ (-149 : Int) ≤ X := rep_pos_ge hg.2.1 hp
      have hqr : |(q : ℝ) - X * 3| ≤ X * 3 * (1 / 10 ^ 7) + 1 / 2 ^ 150 := by
        have := (Rat.cast_le (K := ℝ)).mpr hqe
        push_cast at this
        have hpr : (0 : ℝ) < X := by exact_mod_cast hp
        refine this.trans ?_
        have : (X : ℝ) * 3 / 2 ^ 24 ≤ X * 3 * (1 / 10 ^ 7) := by
          rw [div_eq_mul_inv]; gcongr; norm_num
        linarith
      have hminr : (1 / 2 ^ 149 : ℝ) ≤ X := by
        have := (Rat.cast_le (K := ℝ)).mpr hmin; push_cast at this
        refine le_trans (le_of_eq ?_) this
        rw [zpow_neg]; norm_num
      set s := Real.sqrt ((X : ℝ) * 3) with hs
      have hss : s * s = X * 3 := Real.mul_self_sqrt (by positivity)
      have s0 : 1 / 2 ^ 74 ≤ s := by
        apply Real.le_sqrt_of_sq_le
        refine le_trans ?_ (mul_le_mul_of_nonneg_right hminr (by norm_num))
        norm_num
      have s1 : s ≤ 55 / 100 := by
        apply Real.sqrt_le_iff.mpr
        constructor
        · norm_num
        · norm_num; linarith
      have sp : 0 < s := lt_of_lt_of_le (by positivity) s0
      set u := Real.sqrt (q : ℝ) with hu
      have huu : u * u = q := Real.mul_self_sqrt (by exact_mod_cast q0)
      have u0 : 0 ≤ u := Real.sqrt_nonneg _
      have hus : |u - s| ≤ s * (1 / 10 ^ 7) + 1 / 2 ^ 76 := by
        have h5 : |u - s| * (u + s) = |(q : ℝ) - X * 3| := by
          have e2 : u * u - s * s = (u - s) * (u + s) := by ring
          rw [← huu, ← hss, e2, abs_mul, abs_of_nonneg (show 0 ≤ u + s by linarith)]
        have h6 : |u - s| * s ≤ (s * (1 / 10 ^ 7) + 1 / 2 ^ 76) * s := by
          calc |u - s| * s ≤ |u - s| * (u + s) := mul_le_mul_of_nonneg_left (by linarith) (abs_nonneg _)
            _ ≤ X * 3 * (1 / 10 ^ 7) + 1 / 2 ^ 150 := by rw [h5]; exact hqr
            _ ≤ _ := by
              rw [← hss]
              have : (1 / 2 ^ 150 : ℝ) ≤ 1 / 2 ^ 76 * s := by
                refine le_trans ?_ (mul_le_mul_of_nonneg_left s0 (by positivity)); norm_num
              nlinarith
        exact le_of_mul_le_mul_right h6 sp
      have h7 : |(r : ℝ) - u| ≤ 7 / 10 ^ 8 * u := hb
      have e1 : signed false r = r := rfl
      rw [e1]
      have h8 : (s * (1 / 10 ^ 7) + 1 / 2 ^ 76 : ℝ) ≤ 6 / 10 ^ 8 := by norm_num; linarith
      rw [abs_le] at h7 hus ⊢
      norm_num at h7 hus h8 ⊢
      constructor <;> linarith [h7.1, h7.2, hus.1, hus.2]
  · rw [h3]
    have e : F32.mul (fin true 0) (fin false 3) = fin true 0 := by decide +kernel
    rw [e]
    refine ⟨true, 0, hf.lib.sqrt_negzero, le_rfl, ?_⟩
    simp [signed]; norm_num

theorem enc_hlg_max {x : F32} {X : ℚ} (hm : Is (ar.max x (lit 0.0)) X) (hgm : Good (ar.max x (lit 0.0))) (h0 : 0 ≤ X) (h2 : X ≤ 2) :
    App (encodeTransfer ar .BT2100HLG x)
      (if (X : ℝ) ≤ 1 / 12 then Real.sqrt ((X : ℝ) * 3) else 0.17883277 * Real.log (12 * (X : ℝ) - 0.28466892) + 0.5599107)
      (1 / 10 ^ 6) := by
  have hX0 : (0 : ℝ) ≤ X := by exact_mod_cast h0
  have hX2 : (X : ℝ) ≤ 2 := by exact_mod_cast h2
  simp only [encodeTransfer, hlgEncode]
  generalize ar.max x (lit 0.0) = m at *
  rw [hf.le hm is_112 h0 (by norm_num)]
  by_cases hb : X ≤ 11184811 / 134217728
  · have hbr : (X : ℝ) ≤ 11184811 / 134217728 := by
      have := (Rat.cast_le (K := ℝ)).mpr hb; push_cast at this; exact this
    rw [if_pos (by simpa using hb), hf.mul]
    have low := sqrt3_app hf hm hgm h0 (by norm_num at hb ⊢; linarith)
    split
    · exact low.mono (by norm_num)
    · rename_i hc
      rw [not_le] at hc
      refine (low.shift (d := 3 / 10 ^ 7) ?_).mono (by norm_num)
      have a1 : (1 / 2 : ℝ) ≤ Real.sqrt ((X : ℝ) * 3) := Real.le_sqrt_of_sq_le (by norm_num; linarith)
      have a2 : Real.sqrt ((X : ℝ) * 3) ≤ 1 / 2 + 1 / 10 ^ 7 := by
        apply Real.sqrt_le_iff.mpr
        constructor
        · norm_num
        · norm_num at hbr ⊢; linarith
      have hp : 0 < 12 * (X : ℝ) - 0.28466892 := by norm_num; linarith
      have hlo : 0.4999999 ≤ 0.17883277 * Real.log (12 * (X : ℝ) - 0.28466892) + 0.5599107 := by
        have h3 : (-0.05991080 / 0.17883277 : ℝ) ≤ Real.log (12 * (X : ℝ) - 0.28466892) := by
          rw [Real.le_log_iff_exp_le hp]
          refine exp_le (by rw [abs_le]; norm_num) ?_
          rw [abs_of_neg (by norm_num)]
          norm_num
          linarith
        norm_num at h3 ⊢
        linarith
      have hhi : 0.17883277 * Real.log (12 * (X : ℝ) - 0.28466892) + 0.5599107 ≤ 0.5000001 := by
        have h3 : Real.log (12 * (X : ℝ) - 0.28466892) ≤ (-0.05991060 / 0.17883277 : ℝ) := by
          rw [Real.log_le_iff_le_exp hp]
          refine le_exp (by rw [abs_le]; norm_num) ?_
          rw [abs_of_neg (by norm_num)]
          norm_num
          linarith
        norm_num at h3 ⊢
        linarith
      rw [abs_le]
      norm_num at a1 a2 hlo hhi ⊢
      constructor <;> linarith
  · have hbr : (11184811 / 134217728 : ℝ) < X := by
      have := (Rat.cast_lt (K := ℝ)).mpr (not_le.mp hb); push_cast at this; exact this
    rw [if_neg (by simpa using hb), if_neg (by norm_num; linarith), hf.add, hf.mul, hf.sub]
    have hA : App (Hlg.A : F32) 0.17883277 (1 / 10 ^ 8) :=
      app_const (q := 0.17883277) (d := 1 / 10 ^ 8) (by decide +kernel) (by norm_num) (by norm_num)
    have hC : App (Hlg.C : F32) 0.5599107 (2 / 10 ^ 8) :=
      app_const (q := 0.5599107) (d := 2 / 10 ^ 8) (by decide +kernel) (by norm_num) (by norm_num)
    have hB : App (Hlg.B' : F32) 0.28466892 (1 / 10 ^ 8) :=
      app_const (q := 0.28466892) (d := 1 / 10 ^ 8) (by decide +kernel) (by norm_num) (by norm_num)
    have s1 := app_mul (B := 12 * (X : ℝ)) is_12.app hm.app (A := 12) (C := X) (by norm_num) (by rw [abs_of_nonneg hX0])
      (by simp) (by norm_num; linarith) (by norm_num; linarith)
    have s1' : App (F32.mul (lit 12.0) m) (12 * (X : ℝ)) ((12 * (X : ℝ) + 1 / 10 ^ 9) * (6 / 10 ^ 8)) := by
      have e : ((12 : ℚ) : ℝ) = 12 := by norm_num
      rw [e] at s1
      exact s1.mono (le_of_eq (by ring))
    have s2 := app_sub (B := 12 * (X : ℝ)) s1' hB (by
      rw [abs_of_nonneg (by norm_num; linarith)]; norm_num; linarith) (by norm_num; linarith) (by norm_num; linarith)
    have hgq : Good (F32.sub (F32.mul (lit 12.0) m) Hlg.B') := good_sub (good_mul (good_lit _) hgm) (good_lit _)
    obtain ⟨q, hq, hqe⟩ := s2.is
    set w := 12 * (X : ℝ) - 0.28466892 with hw
    have hw0 : 71 / 100 ≤ w := by rw [hw]; norm_num; linarith
    have hw1 : w ≤ 24 := by rw [hw]; norm_num; linarith
    have hqw : |(q : ℝ) - w| ≤ 2 / 10 ^ 7 * w := by
      refine hqe.trans ?_
      rw [hw]
      norm_num; linarith
    have hqb := abs_le.mp hqw
    have hqp : (1 / 2 : ℝ) ≤ q := by
      have := hqb.1
      norm_num at this ⊢; linarith
    have hqq : (1 / 2 : ℚ) ≤ q := by
      have : ((1 / 2 : ℚ) : ℝ) ≤ q := by push_cast; exact hqp
      exact_mod_cast this
    have hq25 : (q : ℝ) ≤ 25 := by
      have := hqb.2
      norm_num at this ⊢; linarith
    have hq25q : q ≤ 25 := by exact_mod_cast hq25
    have hrep := (hgq.is hq).1
    rw [abs_of_pos (by linarith)] at hrep
    have hln := hf.lib.ln hrep (by norm_num; linarith) (by norm_num; linarith)
    rw [← hq.pos (by linarith)] at hln
    have hll : |Real.log q - Real.log w| ≤ 3 / 10 ^ 7 := by
      have q0 : (0 : ℝ) < q := by linarith
      have w0 : (0 : ℝ) < w := by linarith
      have l1 := Real.log_le_sub_one_of_pos (div_pos q0 w0)
      have l2 := Real.log_le_sub_one_of_pos (div_pos w0 q0)
      rw [Real.log_div q0.ne' w0.ne'] at l1
      rw [Real.log_div w0.ne' q0.ne'] at l2
      have m1 : (q : ℝ) / w ≤ 1 + 2 / 10 ^ 7 := by
        rw [div_le_iff₀ w0]; linarith [hqb.2]
      have m2 : w / (q : ℝ) ≤ 1 + 3 / 10 ^ 7 := by
        rw [div_le_iff₀ q0]
        have := hqb.1
        norm_num at this ⊢; linarith
      rw [abs_le]
      norm_num at m1 m2 ⊢
      constructor <;> linarith
    have hlq : |Real.log (q : ℝ)| ≤ 5 := by
      have l1 := Real.log_le_sub_one_of_pos (show (0 : ℝ) < q / 5 / 5 by linarith)
      have l2 := Real.one_sub_inv_le_log_of_pos (show (0 : ℝ) < q by linarith)
      have l3 : (q : ℝ)⁻¹ ≤ 2 := by
        rw [inv_le_comm₀ (by linarith) (by norm_num)]; norm_num; linarith
      have l5 := Real.log_le_sub_one_of_pos (show (0 : ℝ) < 5 / 2 by norm_num)
      have l6 := Real.log_le_sub_one_of_pos (show (0 : ℝ) < 2 by norm_num)
      have l7 : Real.log (5 : ℝ) = Real.log (5 / 2) + Real.log 2 := by
        rw [← Real.log_mul (by norm_num) (by norm_num)]; norm_num
      rw [Real.log_div (by linarith) (by norm_num), Real.log_div (by linarith) (by norm_num)] at l1
      rw [abs_le]
      constructor
      · linarith
      · linarith
    have hlog : App (ar.ln (F32.sub (F32.mul (lit 12.0) m) Hlg.B')) (Real.log w) (9 / 10 ^ 7) := by
      refine (hln.shift hll).mono ?_
      norm_num at hlq ⊢; linarith
    have hlw : |Real.log w| ≤ 51 / 10 := by
      have := abs_le.mp hll
      rw [abs_le] at hlq ⊢
      have h3 := this.1
      have h4 := this.2
      norm_num at h3 h4 ⊢
      constructor <;> linarith [hlq.1, hlq.2]
    have s3 := app_mul (B := 1) hA hlog (A := 18 / 100) (C := 51 / 10) (by rw [abs_of_nonneg] <;> norm_num) hlw
      (by norm_num) (by norm_num) (by norm_num)
    have s4 := app_add (B := 2) s3 hC (by
      have h3 : |0.17883277 * Real.log w| ≤ 18 / 100 * (51 / 10) := by
        rw [abs_mul]; exact mul_le_mul (by rw [abs_of_nonneg] <;> norm_num) hlw (abs_nonneg _) (by norm_num)
      have h4 := abs_add_le (0.17883277 * Real.log w) 0.5599107
      have h5 : |(0.5599107 : ℝ)| = 0.5599107 := abs_of_nonneg (by norm_num)
      rw [h5] at h4
      norm_num at h3 h4 ⊢; linarith) (by norm_num) (by norm_num)
    exact s4.mono (by norm_num)

theorem enc_hlg_app {x : F32} {X : ℚ} (hx : Is x X) (hg : Good x) (h0 : 0 ≤ X) (h2 : X ≤ 2) :
    App (encodeTransfer ar .BT2100HLG x)
      (if (X : ℝ) ≤ 1 / 12 then Real.sqrt ((X : ℝ) * 3) else 0.17883277 * Real.log (12 * (X : ℝ) - 0.28466892) + 0.5599107)
      (1 / 10 ^ 6) := by
  obtain ⟨hm, hgm⟩ := max_is hf hx hg
  rw [max_eq_left h0] at hm
  exact enc_hlg_max hf hm hgm h0 h2

end
end Ezk

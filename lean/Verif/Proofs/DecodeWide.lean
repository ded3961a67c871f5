import Verif.Proofs.ChangePq

/-!
# Decoding signals outside of `[0, 1]`

YUV images may hold colours outside of the RGB cube.
-/

namespace Ezk
open F32 FOps Spec

/-- Comparisons of `a` with `b` are right. -/
def Compares (ar : Arith F32) (a b : ℚ) : Prop :=
  ∀ {x y : F32}, Is x a → Is y b → ar.lt x y = decide (a < b) ∧ ar.le x y = decide (a ≤ b)

theorem Floats.compares {ar : Arith F32} (hf : Floats ar) {a b : ℚ} (ha : 0 ≤ a) (hb : 0 ≤ b) : Compares ar a b :=
  fun hx hy => ⟨hf.lt hx hy ha hb, hf.le hx hy ha hb⟩

section
variable {ar : Arith F32} (hf : Floats ar)
include hf

/-- Powers of numbers above 1. -/
theorem pow_wide {x y : F32} {p Y : ℚ} {Z : ℝ} (hx : Is x p) (hg : Good x) (hp : 1 ≤ p) (hp2 : p ≤ 214 / 100) (hy : Is y Y)
    (hY : 2 ≤ Y) (hY2 : Y ≤ 241 / 100) (hZ : 2 ≤ Z) (hZ2 : Z ≤ 241 / 100) (hd : |Z - Y| ≤ 2 / 10 ^ 7) :
    App (ar.pow x y) ((p : ℝ) ^ Z) (9 / 10 ^ 6) := by
  have hp0 : 0 < p := by linarith
  have hpr : (1 : ℝ) ≤ p := by exact_mod_cast hp
  have hp2r : (p : ℝ) ≤ 214 / 100 := by
    have := (Rat.cast_le (K := ℝ)).mpr hp2; push_cast at this; exact this
  have hYr : (2 : ℝ) ≤ Y := by exact_mod_cast hY
  have hY2r : (Y : ℝ) ≤ 241 / 100 := by
    have := (Rat.cast_le (K := ℝ)).mpr hY2; push_cast at this; exact this
  have hl : Real.log p ≤ 77 / 100 := by
    refine (Real.log_le_log (by linarith) hp2r).trans ?_
    have e : (214 / 100 : ℝ) = 2 * (107 / 100) := by norm_num
    rw [e, Real.log_mul (by norm_num) (by norm_num)]
    have := Real.log_le_sub_one_of_pos (show (0 : ℝ) < 107 / 100 by norm_num)
    linarith [log_two_le]
  have hl0 : 0 ≤ Real.log p := Real.log_nonneg hpr
  have pw : ∀ W : ℝ, W ≤ 241 / 100 → (p : ℝ) ^ W ≤ 67 / 10 := by
    intro W hW
    calc (p : ℝ) ^ W ≤ (p : ℝ) ^ (5 / 2 : ℝ) := Real.rpow_le_rpow_of_exponent_le hpr (by linarith)
      _ ≤ (214 / 100 : ℝ) ^ (5 / 2 : ℝ) := Real.rpow_le_rpow (by linarith) hp2r (by norm_num)
      _ ≤ 67 / 10 := by
        apply le_of_lt
        rw [rpow_lt_iff (m := 5) (n := 2) (by norm_num) (by norm_num) (by norm_num) (by norm_num)]
        norm_num
  obtain rfl := hx.pos hp0
  obtain ⟨_, hr, _⟩ := hg
  obtain ⟨r, e, r0, h⟩ := hf.lib.pow.1 hr (le_trans (by norm_num) hp) (lt_of_le_of_lt hp2 (by norm_num)) hy
    (by rw [abs_of_nonneg (by linarith)]; linarith) (by nlinarith)
  refine ⟨false, r, e, r0, ?_⟩
  rw [show signed false r = r from rfl]
  have q0 : 0 ≤ (p : ℝ) ^ (Y : ℝ) := Real.rpow_nonneg (by linarith) _
  rw [abs_of_nonneg hl0, abs_of_nonneg (show (0 : ℝ) ≤ Y by linarith)] at h
  have h1 : (Y : ℝ) * (1 + Real.log p) ≤ 241 / 100 * (177 / 100) := mul_le_mul hY2r (by linarith) (by linarith) (by norm_num)
  have h2 : |(r : ℝ) - (p : ℝ) ^ (Y : ℝ)| ≤ 78 / 10 ^ 7 := by
    refine h.trans ?_
    have h3 : (43 / 10 ^ 8 + 17 / 10 ^ 8 * (Y : ℝ) * (1 + Real.log p)) * (p : ℝ) ^ (Y : ℝ) ≤ (116 / 10 ^ 8) * (67 / 10) := by
      refine mul_le_mul ?_ (pw _ hY2r) q0 (by norm_num)
      rw [mul_assoc]; norm_num at h1 ⊢; linarith
    norm_num at h3 ⊢
    linarith
  have h3 : |(p : ℝ) ^ (Y : ℝ) - (p : ℝ) ^ Z| ≤ 12 / 10 ^ 7 := by
    have key : ∀ U V : ℝ, U ≤ V → V ≤ 241 / 100 → V - U ≤ 2 / 10 ^ 7 → (p : ℝ) ^ V - (p : ℝ) ^ U ≤ 12 / 10 ^ 7 := by
      intro U V h1 h2 h3
      have e : (p : ℝ) ^ U = (p : ℝ) ^ V * (p : ℝ) ^ (U - V) := by rw [← Real.rpow_add (by linarith)]; congr 1; ring
      have h4 := Real.add_one_le_exp (Real.log p * (U - V))
      rw [← Real.rpow_def_of_pos (by linarith)] at h4
      have v0 : 0 ≤ (p : ℝ) ^ V := Real.rpow_nonneg (by linarith) _
      have h5 := mul_le_mul_of_nonneg_left h4 v0
      have h6 : Real.log p * (V - U) ≤ 77 / 100 * (2 / 10 ^ 7) := mul_le_mul hl h3 (by linarith) (by norm_num)
      have h7 : (p : ℝ) ^ V * (Real.log p * (V - U)) ≤ 67 / 10 * (77 / 100 * (2 / 10 ^ 7)) :=
        mul_le_mul (pw _ h2) h6 (mul_nonneg hl0 (by linarith)) (by norm_num)
      norm_num at h7 ⊢
      rw [e]
      linarith
    rw [abs_le] at hd
    rcases le_total (Y : ℝ) Z with h | h
    · rw [abs_sub_comm, abs_of_nonneg (by linarith [Real.rpow_le_rpow_of_exponent_le hpr h])]
      exact key _ _ h hZ2 (by linarith [hd.2])
    · rw [abs_of_nonneg (by linarith [Real.rpow_le_rpow_of_exponent_le hpr h])]
      exact key _ _ h hY2r (by linarith [hd.1])
  have := abs_sub_le (r : ℝ) ((p : ℝ) ^ (Y : ℝ)) ((p : ℝ) ^ Z)
  norm_num at *
  linarith

omit hf in
/-- The slope of the powers of the decoders. -/
theorem power_slope {c C : ℝ} (c0 : 0 ≤ c) (c1 : c ≤ 214 / 100) (hC : 2 ≤ C) (hC2 : C ≤ 24 / 10) : C * c ^ (C - 1) ≤ 7 := by
  have h5 : c ^ (C - 1) ≤ 291 / 100 := by
    calc c ^ (C - 1) ≤ (214 / 100 : ℝ) ^ (C - 1) := Real.rpow_le_rpow c0 c1 (by linarith)
      _ ≤ (214 / 100 : ℝ) ^ (14 / 10 : ℝ) := Real.rpow_le_rpow_of_exponent_le (by norm_num) (by linarith)
      _ ≤ 291 / 100 := by
        apply le_of_lt
        rw [rpow_lt_iff (m := 7) (n := 5) (by norm_num) (by norm_num) (by norm_num) (by norm_num)]
        norm_num
  refine (mul_le_mul hC2 h5 (Real.rpow_nonneg c0 _) (by norm_num)).trans (by norm_num)

/-- `((x + a) / b) ^ c` for numbers above 1. -/
theorem dec_power_wide {x a b c : F32} {X A B C : ℚ} {A' B' C' : ℝ} (hx : Is x X) (hg : Good x) (h0 : 1 ≤ X) (h1 : X ≤ 22 / 10)
    (ha : Is a A) (hga : Good a) (hb : Is b B) (hgb : Good b) (hc : Is c C) (hA : 5 / 100 ≤ A) (hA2 : A ≤ 1 / 10)
    (hA' : |(A : ℝ) - A'| ≤ 4 / 10 ^ 9) (hB : 105 / 100 ≤ B) (hB2 : B ≤ 11 / 10)
    (hB' : |(B : ℝ) - B'| ≤ 6 / 10 ^ 8) (hBA : 22 / 10 + A ≤ 2139 / 1000 * B)
    (hC : 2 ≤ C) (hC2 : C ≤ 241 / 100) (hC' : 2 ≤ C') (hC2' : C' ≤ 24 / 10)
    (hCC : |C' - C| ≤ 2 / 10 ^ 7) :
    App (ar.pow (ar.div (ar.add x a) b) c) ((((X : ℝ) + A') / B') ^ C') (13 / 10 ^ 6) := by
  have hX1 : (X : ℝ) ≤ 22 / 10 := by
    have := (Rat.cast_le (K := ℝ)).mpr h1; push_cast at this; exact this
  have hX0 : (1 : ℝ) ≤ X := by exact_mod_cast h0
  have hBr : (105 / 100 : ℝ) ≤ B := by
    have := (Rat.cast_le (K := ℝ)).mpr hB; push_cast at this; exact this
  have hB2r : (B : ℝ) ≤ 11 / 10 := by
    have := (Rat.cast_le (K := ℝ)).mpr hB2; push_cast at this; exact this
  have hAr : (5 / 100 : ℝ) ≤ A := by
    have := (Rat.cast_le (K := ℝ)).mpr hA; push_cast at this; exact this
  have hA2r : (A : ℝ) ≤ 1 / 10 := by
    have := (Rat.cast_le (K := ℝ)).mpr hA2; push_cast at this; exact this
  have hBAr : 22 / 10 + (A : ℝ) ≤ 2139 / 1000 * B := by
    have := (Rat.cast_le (K := ℝ)).mpr hBA; push_cast at this; exact this
  have hAb := abs_le.mp hA'
  have hBb := abs_le.mp hB'
  rw [hf.div, hf.add]
  have s1 := app_add (B := 23 / 10) hx.app ha.app (by rw [abs_of_nonneg (by linarith)]; linarith) (by norm_num) (by norm_num)
  have s2 := app_div_const (B := 2140 / 1000) s1 hb (by linarith) (by
      rw [abs_of_nonneg (by linarith), div_le_iff₀ (by linarith)]
      norm_num at *; linarith) (by norm_num) (by norm_num)
  have hgq : Good (F32.div (F32.add x a) b) := good_div (good_add hg hga) hgb
  obtain ⟨q, hq, hqe⟩ := s2.is
  have hB0 : (0 : ℝ) < B := by linarith
  have hB0' : (0 : ℝ) < B' := by norm_num at *; linarith [hBb.1, hBb.2]
  have hbu : ((X : ℝ) + A') / B' ≤ 21395 / 10000 := by
    rw [div_le_iff₀ hB0']; norm_num at *; linarith [hBb.1, hBb.2, hAb.1, hAb.2]
  have hbl : 9 / 10 ≤ ((X : ℝ) + A') / B' := by
    rw [le_div_iff₀ hB0']; norm_num at *; linarith [hBb.1, hBb.2, hAb.1, hAb.2]
  have hbase : |((X : ℝ) + A) / B - ((X : ℝ) + A') / B'| ≤ 13 / 10 ^ 8 := by
    have e : ((X : ℝ) + A) / B - ((X : ℝ) + A') / B' = ((A - A') - ((X : ℝ) + A') / B' * (B - B')) / B := by
      field_simp; ring
    rw [e, abs_div, abs_of_pos hB0, div_le_iff₀ hB0]
    have h3 : |((X : ℝ) + A') / B' * (B - B')| ≤ 21395 / 10000 * (6 / 10 ^ 8) := by
      rw [abs_mul, abs_of_nonneg (by linarith)]; exact mul_le_mul hbu hB' (abs_nonneg _) (by norm_num)
    refine (abs_sub _ _).trans ?_
    norm_num at *; linarith
  have hdB : (0 + 0 + (23 / 10 + 1 / 10 ^ 9) * (6 / 10 ^ 8) : ℝ) / B ≤ 132 / 10 ^ 9 := by
    rw [div_le_iff₀ hB0]; norm_num at *; linarith
  have hq' : |(q : ℝ) - ((X : ℝ) + A) / B| ≤ 27 / 10 ^ 8 := by
    refine hqe.trans ?_
    norm_num at *; linarith
  have hdq : |(q : ℝ) - ((X : ℝ) + A') / B'| ≤ 4 / 10 ^ 7 := by
    have := abs_sub_le (q : ℝ) (((X : ℝ) + A) / B) (((X : ℝ) + A') / B')
    norm_num at *; linarith
  have hq1 : (q : ℝ) ≤ ((214 / 100 : ℚ) : ℝ) := by have := (abs_le.mp hdq).2; push_cast; norm_num at *; linarith
  have hq0r : (0 : ℝ) ≤ q := by have := (abs_le.mp hdq).1; norm_num at this hbl; linarith
  have hq0 : 0 ≤ q := by exact_mod_cast hq0r
  have hpw : App (ar.pow (F32.div (F32.add x a) b) c) ((q : ℝ) ^ C') (9 / 10 ^ 6) := by
    rcases le_total q 1 with h | h
    · have hr : (q : ℝ) ≤ 1 := by exact_mod_cast h
      have hCr : (2 : ℝ) ≤ C := by exact_mod_cast hC
      have hC2r : (C : ℝ) ≤ 241 / 100 := by
        have := (Rat.cast_le (K := ℝ)).mpr hC2; push_cast at this; exact this
      refine (pow_app hf hq hgq hq0 hc (Z := C') (by linarith) (by linarith) ?_ (Or.inl ⟨by linarith, by linarith⟩)
        (Or.inl ⟨by linarith, by linarith⟩)).mono (by norm_num)
      have h2 : (2 : ℝ) ≤ min (C : ℝ) C' := le_min hCr hC'
      refine hCC.trans ?_
      norm_num; linarith
    · exact pow_wide hf hq hgq h (by exact_mod_cast hq1) hc (Z := C') hC hC2 hC' (by linarith) hCC
  push_cast at hq1
  have hl := rpow_lip (K := 7) hq0r (show 0 ≤ ((X : ℝ) + A') / B' by linarith) (show 1 ≤ C' by linarith) (by
    rintro c (rfl | rfl)
    · exact power_slope hq0r hq1 hC' hC2'
    · exact power_slope (by linarith) (by linarith) hC' hC2')
  refine (hpw.shift hl).mono ?_
  norm_num at *; linarith

/-- The sRGB decoder. -/
theorem dec_srgb_wide {x : F32} {X : ℚ} (hx : Is x X) (hg : Good x) (h0 : -12 / 10 ≤ X) (h1 : X ≤ 22 / 10)
    (hc : X < 0 → Compares ar X (5429107 / 134217728)) :
    App (decodeTransfer ar .SRGB x)
      (if (X : ℝ) ≤ 0.04045 then (X : ℝ) / 12.92 else (((X : ℝ) + 0.055) / 1.055) ^ (2.4 : ℝ)) (13 / 10 ^ 6) := by
  rcases lt_or_ge X 0 with h | h
  · have hr : (X : ℝ) < 0 := by exact_mod_cast h
    have h0r : (-12 / 10 : ℝ) ≤ X := by
      have := (Rat.cast_le (K := ℝ)).mpr h0; push_cast at this; exact this
    simp only [decodeTransfer]
    rw [((hc h) hx is_srgb_dec).2, if_pos (decide_eq_true (by linarith)), if_pos (by norm_num; linarith), hf.div]
    have := app_div_const (B := 1 / 10) hx.app is_1292 (by norm_num) (by
      rw [abs_of_nonpos hr.le]; push_cast; norm_num; linarith) (by norm_num) (by norm_num)
    refine (this.shift (r' := (X : ℝ) / 12.92) (d := 1 / 10 ^ 7) ?_).mono (by norm_num)
    push_cast
    rw [abs_le]
    constructor <;> norm_num <;> linarith
  · rcases le_or_gt X 1 with h2 | h2
    · exact (dec_srgb_app hf hx hg h h2).mono (by norm_num)
    · have hr : (1 : ℝ) < X := by exact_mod_cast h2
      simp only [decodeTransfer]
      rw [hf.le hx is_srgb_dec h (by norm_num), if_neg (by rw [decide_eq_true_eq]; linarith), if_neg (by rw [not_le]; norm_num; linarith)]
      refine dec_power_wide hf hx hg h2.le h1 is_0055 (good_lit _) is_1055 (good_lit _) is_24 (by norm_num) (by norm_num) ?_ (by norm_num)
        (by norm_num) ?_ (by norm_num) (by norm_num) (by norm_num) (by norm_num) (by norm_num) ?_
      all_goals rw [abs_le]; constructor <;> norm_num

/-- The SDR decoder. -/
theorem dec_sdr_wide {x : F32} {X : ℚ} (hx : Is x X) (hg : Good x) (h0 : -12 / 10 ≤ X) (h1 : X ≤ 22 / 10)
    (hc : X < 0 → Compares ar X (10937531 / 134217728)) :
    App (decodeTransfer ar .SDR x)
      (if (X : ℝ) < 0.081490956 then (X : ℝ) / 4.5 else (((X : ℝ) + 0.0993) / 1.099) ^ (1 / 0.45 : ℝ)) (13 / 10 ^ 6) := by
  rcases lt_or_ge X 0 with h | h
  · have hr : (X : ℝ) < 0 := by exact_mod_cast h
    have h0r : (-12 / 10 : ℝ) ≤ X := by
      have := (Rat.cast_le (K := ℝ)).mpr h0; push_cast at this; exact this
    simp only [decodeTransfer]
    rw [((hc h) hx is_sdr_dec).1, if_pos (decide_eq_true (by linarith)), if_pos (by norm_num; linarith), hf.div]
    have := app_div_const (B := 3 / 10) hx.app is_45 (by norm_num) (by
      rw [abs_of_nonpos hr.le]; push_cast; norm_num; linarith) (by norm_num) (by norm_num)
    refine (this.shift (r' := (X : ℝ) / 4.5) (d := 1 / 10 ^ 7) ?_).mono (by norm_num)
    push_cast
    rw [abs_le]
    constructor <;> norm_num
  · rcases le_or_gt X 1 with h2 | h2
    · exact (dec_sdr_app hf hx hg h h2).mono (by norm_num)
    · have hr : (1 : ℝ) < X := by exact_mod_cast h2
      simp only [decodeTransfer]
      rw [hf.lt hx is_sdr_dec h (by norm_num), if_neg (by rw [decide_eq_true_eq]; linarith), if_neg (by rw [not_lt]; norm_num; linarith)]
      refine dec_power_wide hf hx hg h2.le h1 is_00993 (good_lit _) is_1099 (good_lit _) is_i045 (by norm_num) (by norm_num) ?_ (by norm_num)
        (by norm_num) ?_ (by norm_num) (by norm_num) (by norm_num) (by norm_num) (by norm_num) ?_
      all_goals rw [abs_le]; constructor <;> norm_num

end

end Ezk

import Verif.Proofs.BlackWhite
import Verif.Proofs.Monotone

/-!
# Brighter greys
-/

namespace Ezk
open F32 FOps Spec

attribute [local instance] ratOps

/-! ## Two lights, the second clearly brighter -/

/-- What is known of the lights of two greys: `b` is the brighter one. -/
def Brighter (a b : ℝ) : Prop :=
  167 / 10 ^ 9 ≤ a ∧ 10036 / 10 ^ 4 * a ≤ b ∧ b ≤ 10016 ∧ (a < 1001 / 10 ^ 7 → 115 / 100 * a ≤ b)

/-- The same after the change of primaries. -/
def Brighter' (a b : ℝ) : Prop :=
  16 / 10 ^ 8 ≤ a ∧ 1003 / 1000 * a ≤ b ∧ b ≤ 10020 ∧ (a < 1 / 10 ^ 4 → 11 / 10 * a ≤ b)

theorem Brighter.mix {a b x y : ℝ} (h : Brighter a b) (hx : |x - a| ≤ 35 / 10 ^ 7 * max (1 / 10 ^ 4) a)
    (hy : |y - b| ≤ 35 / 10 ^ 7 * max (1 / 10 ^ 4) b) : Brighter' x y := by
  obtain ⟨h1, h2, h3, h4⟩ := h
  have hb : max (1 / 10 ^ 4) b ≤ 1 / 10 ^ 4 + b := max_le (by norm_num at *; linarith) (by norm_num)
  obtain ⟨x1, x2⟩ := abs_le.mp hx
  obtain ⟨y1, y2⟩ := abs_le.mp hy
  rcases lt_or_ge a (1001 / 10 ^ 7) with ha | ha
  · have h5 := h4 ha
    have hm : max (1 / 10 ^ 4) a ≤ 1002 / 10 ^ 7 := max_le (by norm_num) (by norm_num at *; linarith)
    generalize max (1 / 10 ^ 4) a = s at *
    generalize max (1 / 10 ^ 4) b = t at *
    norm_num at h1 h2 h3 h5 ha hb hm x1 x2 y1 y2
    refine ⟨?_, ?_, ?_, fun _ => ?_⟩ <;> norm_num <;> linarith
  · have hm : max (1 / 10 ^ 4) a = a := max_eq_right (by norm_num at *; linarith)
    have hm' : max (1 / 10 ^ 4) b = b := max_eq_right (by norm_num at *; linarith)
    rw [hm] at x1 x2
    rw [hm'] at y1 y2
    norm_num at *
    refine ⟨?_, ?_, ?_, fun h => ?_⟩
    · norm_num; linarith
    · norm_num; linarith
    · norm_num; linarith
    · norm_num at h; linarith

/-- Lights known to a small part of themselves. -/
theorem brighter_rel {n n' : Nat} (h1 : 1 ≤ n) (hlt : n < n') (h255 : n' ≤ 255) {L L' q q' : ℝ} (hq : |q - L| ≤ 4 / 10 ^ 5 * L)
    (hq' : |q' - L'| ≤ 4 / 10 ^ 5 * L') (hL : 168 / 10 ^ 9 ≤ L) (hL' : L' ≤ 10010) (star : L * n' ≤ L' * n)
    (low : L < 1002 / 10 ^ 7 → 116 / 100 * L ≤ L') : Brighter q q' := by
  have hn1 : (1 : ℝ) ≤ n := by exact_mod_cast h1
  have hn2 : (n : ℝ) + 1 ≤ n' := by exact_mod_cast hlt
  have hn3 : (n : ℝ) ≤ 254 := by
    have : n ≤ 254 := by omega
    exact_mod_cast this
  obtain ⟨a1, a2⟩ := abs_le.mp hq
  obtain ⟨b1, b2⟩ := abs_le.mp hq'
  have hL0 : 0 < L := by norm_num at hL; linarith
  have key : L * (1 + 1 / 254) ≤ L' := by
    have h2 : L * (n * (1 + 1 / 254)) ≤ L' * n := by
      refine le_trans (mul_le_mul_of_nonneg_left ?_ hL0.le) star
      linarith
    have h3 : L * (1 + 1 / 254) * n ≤ L' * n := by linarith
    exact le_of_mul_le_mul_right h3 (by linarith)
  norm_num at *
  refine ⟨?_, ?_, ?_, fun h => ?_⟩
  · norm_num; linarith
  · norm_num; linarith
  · norm_num; linarith
  · norm_num at h
    have := low (by linarith)
    linarith

/-- Lights known up to 3·10⁻⁶. -/
theorem brighter_abs {n n' : Nat} (h1 : 1 ≤ n) (hlt : n < n') (h255 : n' ≤ 255) {L L' q q' : ℝ} (hq : |q - L| ≤ 3 / 10 ^ 6)
    (hq' : |q' - L'| ≤ 3 / 10 ^ 6) (hL : 303 / 10 ^ 6 * n ≤ L) (hL' : L' ≤ 10010) (star : L * n' ≤ L' * n) : Brighter q q' := by
  have hn1 : (1 : ℝ) ≤ n := by exact_mod_cast h1
  have hn2 : (n : ℝ) + 1 ≤ n' := by exact_mod_cast hlt
  have hn3 : (n : ℝ) ≤ 254 := by
    have : n ≤ 254 := by omega
    exact_mod_cast this
  obtain ⟨a1, a2⟩ := abs_le.mp hq
  obtain ⟨b1, b2⟩ := abs_le.mp hq'
  have hL0 : 0 < L := by norm_num at hL; linarith
  have hn0 : (0 : ℝ) < n := by linarith
  obtain ⟨g, hg⟩ : ∃ g, g = L / n := ⟨_, rfl⟩
  have e : L = g * n := by rw [hg]; field_simp
  have g1 : 303 / 10 ^ 6 ≤ g := by rw [hg, le_div_iff₀ hn0]; exact hL
  have g0 : 0 < g := by norm_num at g1; linarith
  have g2 : L ≤ 254 * g := by rw [e]; nlinarith
  have key : L + g ≤ L' := by
    have h3 : (L + g) * n ≤ L' * n := by
      refine le_trans ?_ star
      have : (L + g) * n = L * (n + 1) := by rw [e]; ring
      rw [this]
      exact mul_le_mul_of_nonneg_left hn2 hL0.le
    exact le_of_mul_le_mul_right h3 hn0
  have g3 : g ≤ L := by rw [e]; nlinarith
  norm_num at *
  refine ⟨?_, ?_, ?_, fun h => ?_⟩
  · norm_num; linarith
  · norm_num; linarith
  · norm_num; linarith
  · norm_num at h; linarith

/-! ## Decoding -/

/-- Powers with an offset grow faster than the signal. -/
theorem star_power {a b C v w : ℝ} (ha : 0 ≤ a) (hb : 0 < b) (hC : 1 ≤ C) (hv : 0 < v) (hvw : v ≤ w) (h : a ≤ (C - 1) * v) :
    ((v + a) / b) ^ C * w ≤ ((w + a) / b) ^ C * v := by
  have hva : 0 < v + a := by linarith
  have e : ((w + a) / b) ^ C = ((v + a) / b) ^ C * (1 + (w - v) / (v + a)) ^ C := by
    rw [← Real.mul_rpow (by positivity) (by have := div_nonneg (sub_nonneg.mpr hvw) hva.le; linarith)]
    congr 1
    field_simp
    ring
  have hB := one_add_mul_self_le_rpow_one_add (s := (w - v) / (v + a))
    (by have := div_nonneg (sub_nonneg.mpr hvw) hva.le; linarith) hC
  have h2 : w ≤ (1 + (w - v) / (v + a)) ^ C * v := by
    refine le_trans ?_ (mul_le_mul_of_nonneg_right hB hv.le)
    have : (w - v) * (v + a) ≤ (w - v) * (C * v) := mul_le_mul_of_nonneg_left (by linarith) (by linarith)
    have h3 : w - v ≤ C * ((w - v) / (v + a)) * v := by
      have e3 : C * ((w - v) / (v + a)) * v = (w - v) * (C * v) / (v + a) := by field_simp
      rw [e3, le_div_iff₀ hva]
      exact this
    linarith
  rw [e, mul_assoc]
  exact mul_le_mul_of_nonneg_left h2 (Real.rpow_nonneg (by positivity) _)

section
variable {rr : Arith ℝ} (he : Exact rr)
include he

theorem srgb_high {n : Nat} (h : 11 ≤ n) : decodeTransfer rr .SRGB ((n : ℝ) / 255) = (((n : ℝ) / 255 + 0.055) / 1.055) ^ (2.4 : ℝ) := by
  have : (11 : ℝ) ≤ n := by exact_mod_cast h
  rw [dec_srgb he, if_neg]
  norm_num; linarith

theorem srgb_low {n : Nat} (h : n ≤ 10) : decodeTransfer rr .SRGB ((n : ℝ) / 255) = (n : ℝ) / 255 / 12.92 := by
  have : (n : ℝ) ≤ 10 := by exact_mod_cast h
  rw [dec_srgb he, if_pos]
  norm_num; linarith

theorem sdr_high {n : Nat} (h : 21 ≤ n) : decodeTransfer rr .SDR ((n : ℝ) / 255) = (((n : ℝ) / 255 + 0.0993) / 1.099) ^ (1 / 0.45 : ℝ) := by
  have : (21 : ℝ) ≤ n := by exact_mod_cast h
  rw [dec_sdr he, if_neg]
  norm_num; linarith

theorem sdr_low {n : Nat} (h : n ≤ 20) : decodeTransfer rr .SDR ((n : ℝ) / 255) = (n : ℝ) / 255 / 4.5 := by
  have : (n : ℝ) ≤ 20 := by exact_mod_cast h
  rw [dec_sdr he, if_pos]
  norm_num; linarith

theorem srgb_star_high {n n' : Nat} (h : 11 ≤ n) (hlt : n ≤ n') :
    decodeTransfer rr .SRGB ((n : ℝ) / 255) * n' ≤ decodeTransfer rr .SRGB ((n' : ℝ) / 255) * n := by
  rw [srgb_high he h, srgb_high he (h.trans hlt)]
  have h1 : (11 : ℝ) ≤ n := by exact_mod_cast h
  have h2 : (n : ℝ) ≤ n' := by exact_mod_cast hlt
  have := star_power (a := 0.055) (b := 1.055) (C := 2.4) (v := (n : ℝ) / 255) (w := (n' : ℝ) / 255) (by norm_num) (by norm_num) (by norm_num)
    (by linarith) (by linarith) (by norm_num; linarith)
  linarith

theorem srgb_slope {n : Nat} (h : 11 ≤ n) : 1 / (255 * 12.92) * (n : ℝ) ≤ decodeTransfer rr .SRGB ((n : ℝ) / 255) := by
  have h0 := srgb_star_high he (le_refl 11) h
  have h1 : ((11 : ℕ) : ℝ) / 255 / 12.92 ≤ decodeTransfer rr .SRGB (((11 : ℕ) : ℝ) / 255) := by
    rw [srgb_high he (le_refl 11), le_rpow_iff (m := 12) (n := 5) (by norm_num) (by norm_num) (by norm_num) (by norm_num)]
    norm_num
  have hn : (0 : ℝ) ≤ n := by positivity
  have := mul_le_mul_of_nonneg_right h1 hn
  norm_num at this h0 ⊢
  linarith

theorem sdr_star_high {n n' : Nat} (h : 21 ≤ n) (hlt : n ≤ n') :
    decodeTransfer rr .SDR ((n : ℝ) / 255) * n' ≤ decodeTransfer rr .SDR ((n' : ℝ) / 255) * n := by
  rw [sdr_high he h, sdr_high he (h.trans hlt)]
  have h1 : (21 : ℝ) ≤ n := by exact_mod_cast h
  have h2 : (n : ℝ) ≤ n' := by exact_mod_cast hlt
  have := star_power (a := 0.0993) (b := 1.099) (C := 1 / 0.45) (v := (n : ℝ) / 255) (w := (n' : ℝ) / 255) (by norm_num) (by norm_num) (by norm_num)
    (by linarith) (by linarith) (by norm_num; linarith)
  linarith

theorem sdr_slope {n : Nat} (h : 21 ≤ n) : 1 / (255 * 4.5) * (n : ℝ) ≤ decodeTransfer rr .SDR ((n : ℝ) / 255) := by
  have h0 := sdr_star_high he (le_refl 21) h
  have h1 : ((21 : ℕ) : ℝ) / 255 / 4.5 ≤ decodeTransfer rr .SDR (((21 : ℕ) : ℝ) / 255) := by
    rw [sdr_high he (le_refl 21), le_rpow_iff (m := 20) (n := 9) (by norm_num) (by norm_num) (by norm_num) (by norm_num)]
    norm_num
  have hn : (0 : ℝ) ≤ n := by positivity
  have := mul_le_mul_of_nonneg_right h1 hn
  norm_num at this h0 ⊢
  linarith

theorem star_linear {n n' : Nat} :
    303 / 10 ^ 6 * (n : ℝ) ≤ decodeTransfer rr .Linear ((n : ℝ) / 255) ∧
    decodeTransfer rr .Linear ((n : ℝ) / 255) * n' ≤ decodeTransfer rr .Linear ((n' : ℝ) / 255) * n := by
  simp only [decodeTransfer]
  have : (0 : ℝ) ≤ n := by positivity
  constructor
  · norm_num; linarith
  · apply le_of_eq; ring

theorem star_srgb {n n' : Nat} (hlt : n ≤ n') :
    303 / 10 ^ 6 * (n : ℝ) ≤ decodeTransfer rr .SRGB ((n : ℝ) / 255) ∧
    decodeTransfer rr .SRGB ((n : ℝ) / 255) * n' ≤ decodeTransfer rr .SRGB ((n' : ℝ) / 255) * n := by
  have hn : (0 : ℝ) ≤ n := by positivity
  rcases le_or_gt n 10 with h | h
  · constructor
    · rw [srgb_low he h]; norm_num; linarith
    · rcases le_or_gt n' 10 with h' | h'
      · rw [srgb_low he h, srgb_low he h']; apply le_of_eq; ring
      · rw [srgb_low he h]
        have := mul_le_mul_of_nonneg_right (srgb_slope he (n := n') (by omega)) hn
        norm_num at this ⊢; linarith
  · constructor
    · have := srgb_slope he (n := n) (by omega)
      norm_num at this ⊢; linarith
    · exact srgb_star_high he (by omega) hlt

theorem star_sdr {n n' : Nat} (hlt : n ≤ n') :
    303 / 10 ^ 6 * (n : ℝ) ≤ decodeTransfer rr .SDR ((n : ℝ) / 255) ∧
    decodeTransfer rr .SDR ((n : ℝ) / 255) * n' ≤ decodeTransfer rr .SDR ((n' : ℝ) / 255) * n := by
  have hn : (0 : ℝ) ≤ n := by positivity
  rcases le_or_gt n 20 with h | h
  · constructor
    · rw [sdr_low he h]; norm_num; linarith
    · rcases le_or_gt n' 20 with h' | h'
      · rw [sdr_low he h, sdr_low he h']; apply le_of_eq; ring
      · rw [sdr_low he h]
        have := mul_le_mul_of_nonneg_right (sdr_slope he (n := n') (by omega)) hn
        norm_num at this ⊢; linarith
  · constructor
    · have := sdr_slope he (n := n) (by omega)
      norm_num at this ⊢; linarith
    · exact sdr_star_high he (by omega) hlt

end

/-! ## Pure powers -/

theorem log_256 {V : ℝ} (h : 1 / 256 ≤ V) (h1 : V ≤ 1) : |Real.log V| ≤ 56 / 10 := by
  have hV : 0 < V := by linarith
  rw [abs_of_nonpos (Real.log_nonpos hV.le h1)]
  have h2 : Real.log (1 / 256) ≤ Real.log V := Real.log_le_log (by norm_num) h
  have h3 : Real.log (1 / 256) = -(8 * Real.log 2) := by
    rw [show (1 / 256 : ℝ) = (2 ^ 8)⁻¹ by norm_num, Real.log_inv, Real.log_pow]; norm_num
  have := log_two_le
  norm_num at this ⊢
  linarith

theorem pow_256 {V Y : ℝ} (h : 1 / 256 ≤ V) (h1 : V ≤ 1) (hY : Y ≤ 45 / 16) : V ^ (45 / 16 : ℝ) ≤ V ^ Y ∧ 168 / 10 ^ 9 ≤ V ^ Y := by
  have hV : 0 < V := by linarith
  have a : V ^ (45 / 16 : ℝ) ≤ V ^ Y := Real.rpow_le_rpow_of_exponent_ge hV h1 hY
  refine ⟨a, le_trans ?_ a⟩
  rw [le_rpow_iff (m := 45) (n := 16) (by norm_num) (by norm_num) (by norm_num) hV.le]
  exact le_trans (by norm_num) (pow_le_pow_left₀ (by norm_num) h 45)

/-- `pow` is known to a small part of itself. -/
theorem pow_part {ar : Arith F32} (hf : Floats ar) {x y : F32} {V Y : ℚ} (hx : Is x V) (hg : Good x) (h0 : 1 / 256 ≤ V) (h1 : V ≤ 1)
    (hy : Is y Y) (hY : 2 ≤ Y) (hY2 : Y ≤ 45 / 16) :
    ∃ r : ℚ, ar.pow x y = fin false r ∧ 0 ≤ r ∧ |(r : ℝ) - (V : ℝ) ^ (Y : ℝ)| ≤ 1 / 10 ^ 5 * (V : ℝ) ^ (Y : ℝ) := by
  have hV0 : 0 < V := by linarith
  have hr := (hg.is hx).1
  rw [abs_of_pos hV0] at hr
  have V0 : (1 / 256 : ℝ) ≤ V := by
    have := (Rat.cast_le (K := ℝ)).mpr h0; push_cast at this; exact this
  have V1 : (V : ℝ) ≤ 1 := by exact_mod_cast h1
  have Y1 : (2 : ℝ) ≤ Y := by exact_mod_cast hY
  have Y2 : (Y : ℝ) ≤ 45 / 16 := by
    have := (Rat.cast_le (K := ℝ)).mpr hY2; push_cast at this; exact this
  have hl := log_256 V0 V1
  have hln : Real.log V ≤ 0 := Real.log_nonpos (by linarith) V1
  have hp := (pow_256 V0 V1 Y2).2
  rw [hx.pos hV0]
  obtain ⟨r, e, r0, hr⟩ := hf.lib.pow.1 hr (le_trans (by norm_num) h0) (lt_of_le_of_lt h1 (by norm_num)) hy
    (by rw [abs_of_nonneg (by linarith)]; linarith) (by nlinarith)
  refine ⟨r, e, r0, hr.trans ?_⟩
  rw [abs_of_nonneg (by linarith : (0 : ℝ) ≤ Y)]
  have h2 : (Y : ℝ) * (1 + |Real.log V|) ≤ 45 / 16 * (66 / 10) := mul_le_mul Y2 (by linarith) (by positivity) (by norm_num)
  have h3 : 43 / 10 ^ 8 + 17 / 10 ^ 8 * (Y : ℝ) * (1 + |Real.log V|) ≤ 9 / 10 ^ 6 := by
    rw [mul_assoc]; norm_num at h2 ⊢; linarith
  have h4 := mul_le_mul_of_nonneg_right h3 (show 0 ≤ (V : ℝ) ^ (Y : ℝ) by norm_num at hp; linarith)
  generalize (V : ℝ) ^ (Y : ℝ) = z at *
  norm_num at hp h4 ⊢
  linarith

/-- Samples are apart. -/
theorem sample_apart {n n' : Nat} (h1 : 1 ≤ n) (hlt : n < n') {V W : ℝ} (hV : |V - (n : ℝ) / 255| ≤ 6 / 10 ^ 8 * ((n : ℝ) / 255))
    (hW : |W - (n' : ℝ) / 255| ≤ 6 / 10 ^ 8 * ((n' : ℝ) / 255)) : 1 / 256 ≤ V ∧ V * n' ≤ W * n * (1 + 13 / 10 ^ 8) := by
  have hn1 : (1 : ℝ) ≤ n := by exact_mod_cast h1
  have hn2 : (n : ℝ) + 1 ≤ n' := by exact_mod_cast hlt
  obtain ⟨a1, a2⟩ := abs_le.mp hV
  obtain ⟨b1, b2⟩ := abs_le.mp hW
  constructor
  · norm_num at a1; linarith
  · have c1 : V * n' ≤ (1 + 6 / 10 ^ 8) * (n / 255) * n' := mul_le_mul_of_nonneg_right (by linarith) (by linarith)
    have c2 : (1 - 6 / 10 ^ 8) * (n' / 255) * n ≤ W * n := mul_le_mul_of_nonneg_right (by linarith) (by linarith)
    have c3 : (0 : ℝ) ≤ n * n' := by positivity
    norm_num at *
    linarith

/-- The ratio of the powers of two samples. -/
theorem power_apart {n n' : Nat} (h1 : 1 ≤ n) (hlt : n < n') (h255 : n' ≤ 255) {V W Y : ℝ} (hV0 : 1 / 256 ≤ V)
    (hVW : V * n' ≤ W * n * (1 + 13 / 10 ^ 8)) (hY : 2 ≤ Y) :
    V ^ Y * n' ≤ W ^ Y * n ∧ (n ≤ 10 → 118 / 100 * V ^ Y ≤ W ^ Y) := by
  have hn1 : (1 : ℝ) ≤ n := by exact_mod_cast h1
  have hn2 : (n : ℝ) + 1 ≤ n' := by exact_mod_cast hlt
  have hn3 : (n : ℝ) ≤ 254 := by
    have : n ≤ 254 := by omega
    exact_mod_cast this
  have V0 : 0 < V := by linarith
  obtain ⟨s, hs⟩ : ∃ s : ℝ, s = n' / n := ⟨_, rfl⟩
  obtain ⟨t, ht⟩ : ∃ t : ℝ, t = W / V := ⟨_, rfl⟩
  have hW : W = t * V := by rw [ht]; field_simp
  have hn' : (n' : ℝ) = s * n := by rw [hs]; field_simp
  have hst : s ≤ t * (1 + 13 / 10 ^ 8) := by
    rw [hW, hn'] at hVW
    have : s * (V * n) ≤ t * (1 + 13 / 10 ^ 8) * (V * n) := by linarith
    exact le_of_mul_le_mul_right this (by positivity)
  have s1 : 1 + 1 / 254 ≤ s := by
    rw [hs, le_div_iff₀ (by linarith)]; linarith
  have t1 : 1 + 1 / 255 ≤ t := by norm_num at *; linarith
  have ht2 : t ^ 2 ≤ t ^ Y := by
    rw [← Real.rpow_natCast]
    exact Real.rpow_le_rpow_of_exponent_le (by linarith) (by exact_mod_cast hY)
  have e : W ^ Y = t ^ Y * V ^ Y := by rw [hW, Real.mul_rpow (by linarith) V0.le]
  have vp : 0 < V ^ Y := Real.rpow_pos_of_pos V0 _
  rw [e]
  constructor
  · rw [hn']
    have : s ≤ t ^ Y := by
      refine le_trans ?_ ht2
      nlinarith
    have := mul_le_mul_of_nonneg_right this (show 0 ≤ V ^ Y * n by positivity)
    linarith
  · intro h10
    have h10r : (n : ℝ) ≤ 10 := by exact_mod_cast h10
    have s2 : 1 + 1 / 10 ≤ s := by
      rw [hs, le_div_iff₀ (by linarith)]; linarith
    have t2 : 1 + 99 / 1000 ≤ t := by norm_num at *; linarith
    refine mul_le_mul_of_nonneg_right (le_trans ?_ ht2) vp.le
    nlinarith

/-- A small power is that of a small sample. -/
theorem power_small {n : Nat} {V Y : ℝ} (hV0 : 1 / 256 ≤ V) (hV1 : V ≤ 1) (hV : |V - (n : ℝ) / 255| ≤ 6 / 10 ^ 8 * ((n : ℝ) / 255))
    (hY2 : Y ≤ 45 / 16) (h : V ^ Y < 1002 / 10 ^ 7) : n ≤ 10 := by
  have h2 := lt_of_le_of_lt (pow_256 hV0 hV1 hY2).1 h
  rw [rpow_lt_iff (m := 45) (n := 16) (by norm_num) (by norm_num) (by norm_num) (by linarith)] at h2
  by_contra hc
  have hn : (11 : ℝ) ≤ n := by
    have : 11 ≤ n := by omega
    exact_mod_cast this
  have h3 : 43 / 1000 ≤ V := by
    have := (abs_le.mp hV).1
    norm_num at this; linarith
  have := pow_le_pow_left₀ (by norm_num) h3 45
  have h4 : (1002 / 10 ^ 7 : ℝ) ^ 16 ≤ (43 / 1000) ^ 45 := by norm_num
  linarith

end Ezk

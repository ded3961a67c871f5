import Verif.Proofs.GreyOrder2
import Verif.Proofs.LumaFloats
import Verif.Proofs.BlackWhite

/-!
# Brighter greys: signals that are not multiples of 1/255
-/

namespace Ezk
open F32 FOps Spec

attribute [local instance] ratOps

/-- Two signals at least a code of 8 bits apart, the second one clear of the places where the decoding functions change. -/
structure CodeApart (v w : ℝ) : Prop where
  lo : 1 / 255 ≤ v
  gap : v + 1 / 255 ≤ w
  hi : w ≤ 1
  srgb : w ≤ 0.04045 ∨ 104 / 2550 ≤ w
  sdr : w < 0.081490956 ∨ 209 / 2550 ≤ w
  hlg : w ≤ 1 / 2 ∨ 128 / 255 ≤ w
  hlgv : v ≤ 499 / 1000 ∨ 1 / 2 < v

/-! ## Lights from signals -/

theorem CodeApart.rel {v w : ℝ} (h : CodeApart v w) {L L' q q' : ℝ} (hq : |q - L| ≤ 4 / 10 ^ 5 * L)
    (hq' : |q' - L'| ≤ 4 / 10 ^ 5 * L') (hL : 168 / 10 ^ 9 ≤ L) (hL' : L' ≤ 10010) (star : L * w ≤ L' * v)
    (low : L < 1002 / 10 ^ 7 → 116 / 100 * L ≤ L') : Brighter q q' := by
  obtain ⟨h1, h2, h3, -, -, -, -⟩ := h
  obtain ⟨a1, a2⟩ := abs_le.mp hq
  obtain ⟨b1, b2⟩ := abs_le.mp hq'
  have hL0 : 0 < L := by norm_num at hL; linarith
  have key : L * (1 + 1 / 254) ≤ L' := by
    have h2 : L * (v * (1 + 1 / 254)) ≤ L' * v := by
      refine le_trans (mul_le_mul_of_nonneg_left ?_ hL0.le) star
      linarith
    have h3 : L * (1 + 1 / 254) * v ≤ L' * v := by linarith
    exact le_of_mul_le_mul_right h3 (by linarith)
  clear h1 h2 h3 star hq hq'
  norm_num at *
  refine ⟨?_, ?_, ?_, fun h => ?_⟩
  · norm_num; linarith
  · norm_num; linarith
  · norm_num; linarith
  · norm_num at h
    have := low (by linarith)
    linarith

theorem CodeApart.abs {v w : ℝ} (h : CodeApart v w) {L L' q q' : ℝ} (hq : |q - L| ≤ 3 / 10 ^ 6) (hq' : |q' - L'| ≤ 3 / 10 ^ 6)
    (hL : 7727 / 10 ^ 5 * v ≤ L) (hL' : L' ≤ 10010) (star : L * w ≤ L' * v) : Brighter q q' := by
  obtain ⟨h1, h2, h3, -, -, -, -⟩ := h
  obtain ⟨a1, a2⟩ := abs_le.mp hq
  obtain ⟨b1, b2⟩ := abs_le.mp hq'
  have hv0 : 0 < v := by linarith
  have hL0 : 0 < L := by norm_num at hL; linarith
  obtain ⟨g, hg⟩ : ∃ g, g = L / v := ⟨_, rfl⟩
  have e : L = g * v := by rw [hg]; field_simp
  have g1 : 7727 / 10 ^ 5 ≤ g := by rw [hg, le_div_iff₀ hv0]; exact hL
  have g0 : 0 < g := by norm_num at g1; linarith
  have g2 : L ≤ 254 / 255 * g := by rw [e]; nlinarith
  have key : L + g / 255 ≤ L' := by
    have h3 : (L + g / 255) * v ≤ L' * v := by
      refine le_trans ?_ star
      have : (L + g / 255) * v = L * (v + 1 / 255) := by rw [e]; ring
      rw [this]
      exact mul_le_mul_of_nonneg_left h2 hL0.le
    exact le_of_mul_le_mul_right h3 hv0
  have g3 : g / 255 ≤ L := by rw [e]; nlinarith
  clear hq hq' star hg e hL
  norm_num at *
  refine ⟨?_, ?_, ?_, fun h => ?_⟩
  · norm_num; linarith
  · norm_num; linarith
  · norm_num; linarith
  · norm_num at h; linarith

/-! ## The decoding functions grow faster than the signal -/

theorem srgb_branches {v w : ℝ} (h : CodeApart v w) (f : ℝ → ℝ)
    (hf : ∀ x, f x = if x ≤ 0.04045 then x / 12.92 else ((x + 0.055) / 1.055) ^ (2.4 : ℝ)) :
    7727 / 10 ^ 5 * v ≤ f v ∧ f v * w ≤ f w * v ∧ f w ≤ 10010 := by
  obtain ⟨h1, h2, h3, hs, -, -, -⟩ := h
  have v0 : 0 < v := by linarith
  have star : ∀ {x y : ℝ}, 0.04045 ≤ x → x ≤ y → ((x + 0.055) / 1.055) ^ (2.4 : ℝ) * y ≤ ((y + 0.055) / 1.055) ^ (2.4 : ℝ) * x := by
    intro x y hx hxy
    norm_num at hx
    exact star_power (by norm_num) (by norm_num) (by norm_num) (by linarith) hxy (by norm_num; linarith)
  have slope : ∀ {x : ℝ}, 104 / 2550 ≤ x → x / 12.92 ≤ ((x + 0.055) / 1.055) ^ (2.4 : ℝ) := by
    intro x hx
    have s := star (x := 104 / 2550) (by norm_num) hx
    have b : (104 / 2550 : ℝ) / 12.92 ≤ ((104 / 2550 + 0.055) / 1.055) ^ (2.4 : ℝ) := by
      rw [le_rpow_iff (m := 12) (n := 5) (by norm_num) (by norm_num) (by norm_num) (by norm_num)]
      norm_num
    have := mul_le_mul_of_nonneg_right b (show 0 ≤ x by linarith)
    generalize ((104 / 2550 + 0.055 : ℝ) / 1.055) ^ (2.4 : ℝ) = A at *
    generalize ((x + 0.055 : ℝ) / 1.055) ^ (2.4 : ℝ) = B at *
    norm_num at this s ⊢
    linarith
  have edge : (77275 / 10 ^ 6 : ℝ) * 0.04045 ≤ ((0.04045 + 0.055) / 1.055 : ℝ) ^ (2.4 : ℝ) := by
    rw [le_rpow_iff (m := 12) (n := 5) (by norm_num) (by norm_num) (by norm_num) (by norm_num)]
    norm_num
  refine ⟨?_, ?_, ?_⟩
  · rw [hf]
    split
    · norm_num; linarith
    · rename_i hn
      have s := star (x := 0.04045) (le_refl _) (not_le.mp hn).le
      have := mul_le_mul_of_nonneg_right edge v0.le
      generalize ((0.04045 + 0.055 : ℝ) / 1.055) ^ (2.4 : ℝ) = A at *
      generalize ((v + 0.055 : ℝ) / 1.055) ^ (2.4 : ℝ) = B at *
      norm_num at this s ⊢
      linarith
  · rw [hf, hf]
    split
    · rcases hs with hs | hs
      · rw [if_pos hs]; apply le_of_eq; ring
      · rw [if_neg (by norm_num; linarith)]
        have := mul_le_mul_of_nonneg_right (slope hs) v0.le
        refine le_trans (le_of_eq ?_) this
        ring
    · rename_i hn
      rw [if_neg (by norm_num at hn ⊢; linarith)]
      exact star (not_le.mp hn).le (by linarith)
  · rw [hf]
    split
    · norm_num; linarith
    · have := Real.rpow_le_one (x := (w + 0.055) / 1.055) (z := 2.4) (by apply div_nonneg <;> norm_num; linarith)
        (by rw [div_le_one (by norm_num)]; norm_num; linarith) (by norm_num)
      linarith

theorem sdr_branches {v w : ℝ} (h : CodeApart v w) (f : ℝ → ℝ)
    (hf : ∀ x, f x = if x < 0.081490956 then x / 4.5 else ((x + 0.0993) / 1.099) ^ (1 / 0.45 : ℝ)) :
    7727 / 10 ^ 5 * v ≤ f v ∧ f v * w ≤ f w * v ∧ f w ≤ 10010 := by
  obtain ⟨h1, h2, h3, -, hs, -, -⟩ := h
  have v0 : 0 < v := by linarith
  have star : ∀ {x y : ℝ}, 0.081490956 ≤ x → x ≤ y →
      ((x + 0.0993) / 1.099) ^ (1 / 0.45 : ℝ) * y ≤ ((y + 0.0993) / 1.099) ^ (1 / 0.45 : ℝ) * x := by
    intro x y hx hxy
    norm_num at hx
    exact star_power (by norm_num) (by norm_num) (by norm_num) (by linarith) hxy (by norm_num; linarith)
  have slope : ∀ {x : ℝ}, 209 / 2550 ≤ x → x / 4.5 ≤ ((x + 0.0993) / 1.099) ^ (1 / 0.45 : ℝ) := by
    intro x hx
    have s := star (x := 209 / 2550) (by norm_num) hx
    have b : (209 / 2550 : ℝ) / 4.5 ≤ ((209 / 2550 + 0.0993) / 1.099) ^ (1 / 0.45 : ℝ) := by
      rw [le_rpow_iff (m := 20) (n := 9) (by norm_num) (by norm_num) (by norm_num) (by norm_num)]
      norm_num
    have := mul_le_mul_of_nonneg_right b (show 0 ≤ x by linarith)
    generalize ((209 / 2550 + 0.0993 : ℝ) / 1.099) ^ (1 / 0.45 : ℝ) = A at *
    generalize ((x + 0.0993 : ℝ) / 1.099) ^ (1 / 0.45 : ℝ) = B at *
    norm_num at this s ⊢
    linarith
  have edge : (2 / 10 : ℝ) * 0.081490956 ≤ ((0.081490956 + 0.0993) / 1.099 : ℝ) ^ (1 / 0.45 : ℝ) := by
    rw [le_rpow_iff (m := 20) (n := 9) (by norm_num) (by norm_num) (by norm_num) (by norm_num)]
    norm_num
  refine ⟨?_, ?_, ?_⟩
  · rw [hf]
    split
    · norm_num; linarith
    · rename_i hn
      have s := star (x := 0.081490956) (le_refl _) (not_lt.mp hn)
      have := mul_le_mul_of_nonneg_right edge v0.le
      generalize ((0.081490956 + 0.0993 : ℝ) / 1.099) ^ (1 / 0.45 : ℝ) = A at *
      generalize ((v + 0.0993 : ℝ) / 1.099) ^ (1 / 0.45 : ℝ) = B at *
      norm_num at this s ⊢
      linarith
  · rw [hf, hf]
    split
    · rcases hs with hs | hs
      · rw [if_pos hs]; apply le_of_eq; ring
      · rw [if_neg (by norm_num; linarith)]
        have := mul_le_mul_of_nonneg_right (slope hs) v0.le
        refine le_trans (le_of_eq ?_) this
        ring
    · rename_i hn
      rw [if_neg (by norm_num at hn ⊢; linarith)]
      exact star (not_lt.mp hn) (by linarith)
  · rw [hf]
    split
    · norm_num; linarith
    · calc ((w + 0.0993) / 1.099 : ℝ) ^ (1 / 0.45 : ℝ) ≤ (2 : ℝ) ^ (1 / 0.45 : ℝ) :=
          Real.rpow_le_rpow (by apply div_nonneg <;> norm_num; linarith) (by rw [div_le_iff₀ (by norm_num)]; norm_num; linarith) (by norm_num)
        _ ≤ (2 : ℝ) ^ ((3 : ℕ) : ℝ) := Real.rpow_le_rpow_of_exponent_le (by norm_num) (by norm_num)
        _ = 8 := by rw [Real.rpow_natCast]; norm_num
        _ ≤ _ := by norm_num

/-! ## Lights as computed -/

section
variable {ar ar' : Arith F32} (hf : Floats ar) (hf' : Floats ar') {v w : F32} {V W : ℚ} (hv : Is v V) (gv : Good v) (hw : Is w W)
  (gw : Good w) (h : CodeApart V W)
include h

omit gv gw in
theorem CodeApart.rat : 1 / 255 ≤ V ∧ V ≤ 1 ∧ 1 / 255 ≤ W ∧ W ≤ 1 := by
  obtain ⟨h1, h2, h3, -, -, -, -⟩ := h
  have a : ((1 / 255 : ℚ) : ℝ) ≤ V := by push_cast; exact h1
  have b : ((1 / 255 : ℚ) : ℝ) ≤ W := by push_cast; linarith
  have c : (V : ℝ) ≤ ((1 : ℚ) : ℝ) := by push_cast; linarith
  have d : (W : ℝ) ≤ ((1 : ℚ) : ℝ) := by push_cast; linarith
  exact ⟨by exact_mod_cast a, by exact_mod_cast c, by exact_mod_cast b, by exact_mod_cast d⟩

omit gv gw in
/-- Powers. -/
theorem apart_power {Y : ℝ} (hY : 2 ≤ Y) (hY2 : Y ≤ 45 / 16) :
    168 / 10 ^ 9 ≤ (V : ℝ) ^ Y ∧ (W : ℝ) ^ Y ≤ 1 ∧ (V : ℝ) ^ Y * W ≤ (W : ℝ) ^ Y * V ∧
      ((V : ℝ) ^ Y < 1002 / 10 ^ 7 → 118 / 100 * (V : ℝ) ^ Y ≤ (W : ℝ) ^ Y) := by
  obtain ⟨h1, h2, h3, -, -, -, -⟩ := h
  have V0 : (0 : ℝ) < V := by linarith
  obtain ⟨t, ht⟩ : ∃ t : ℝ, t = W / V := ⟨_, rfl⟩
  have hW : (W : ℝ) = t * V := by rw [ht]; field_simp
  have t1 : 1 ≤ t := by rw [ht, le_div_iff₀ V0]; linarith
  have e : (W : ℝ) ^ Y = t ^ Y * (V : ℝ) ^ Y := by rw [hW, Real.mul_rpow (by linarith) V0.le]
  have vp : 0 < (V : ℝ) ^ Y := Real.rpow_pos_of_pos V0 _
  have ht2 : t ^ 2 ≤ t ^ Y := by
    rw [← Real.rpow_natCast]
    exact Real.rpow_le_rpow_of_exponent_le t1 (by exact_mod_cast hY)
  refine ⟨(pow_256 (by linarith) (by linarith) hY2).2, Real.rpow_le_one (by linarith) h3 (by linarith), ?_, fun hs => ?_⟩
  · rw [e]
    rw [hW]
    have : t ≤ t ^ Y := le_trans (by nlinarith) ht2
    have := mul_le_mul_of_nonneg_right this (show 0 ≤ (V : ℝ) ^ Y * V by positivity)
    linarith
  · have h4 := lt_of_le_of_lt (pow_256 (V := (V : ℝ)) (by linarith) (by linarith) hY2).1 hs
    rw [rpow_lt_iff (m := 45) (n := 16) (by norm_num) (by norm_num) (by norm_num) V0.le] at h4
    have h5 : (V : ℝ) ≤ 43 / 1000 := by
      by_contra hc
      have := pow_le_pow_left₀ (by norm_num) (not_le.mp hc).le 45
      have h6 : (1002 / 10 ^ 7 : ℝ) ^ 16 ≤ (43 / 1000) ^ 45 := by norm_num
      linarith
    have t2 : 1 + 91 / 1000 ≤ t := by rw [ht, le_div_iff₀ V0]; linarith
    rw [e]
    exact mul_le_mul_of_nonneg_right (le_trans (by nlinarith) ht2) vp.le

include hf hf' hv gv hw gw

theorem apart_pow {y : F32} {Y : ℚ} (hy : Is y Y) (hY : 2 ≤ Y) (hY2 : Y ≤ 45 / 16) : BrighterLights (ar.pow v y) (ar'.pow w y) := by
  obtain ⟨V0, V1, W0, W1⟩ := h.rat
  have Y1 : (2 : ℝ) ≤ Y := by exact_mod_cast hY
  have Y2 : (Y : ℝ) ≤ 45 / 16 := by
    have := (Rat.cast_le (K := ℝ)).mpr hY2; push_cast at this; exact this
  obtain ⟨r, e, r0, dr⟩ := pow_part hf hv gv (by linarith) V1 hy hY hY2
  obtain ⟨r', e', r0', dr'⟩ := pow_part hf' hw gw (by linarith) W1 hy hY hY2
  obtain ⟨p1, p2, p3, p4⟩ := apart_power h Y1 Y2
  rw [e, e']
  have w0 : 0 ≤ (W : ℝ) ^ (Y : ℝ) := Real.rpow_nonneg (by have := h.gap; have := h.lo; linarith) _
  refine ⟨r, r', ⟨false, r, rfl, r0, rfl⟩, ⟨false, r', rfl, r0', rfl⟩, h.rel (dr.trans ?_) (dr'.trans ?_) p1 (p2.trans (by norm_num)) p3
    fun hl => ?_⟩
  · norm_num at p1 ⊢; linarith
  · norm_num; linarith
  · have := p4 hl
    norm_num at p1 this ⊢; linarith

theorem apart_srgb : BrighterLights (decodeTransfer ar .SRGB v) (decodeTransfer ar' .SRGB w) := by
  obtain ⟨V0, V1, W0, W1⟩ := h.rat
  obtain ⟨q, hq, dq⟩ := (dec_srgb_app hf hv gv (by linarith) V1).is
  obtain ⟨q', hq', dq'⟩ := (dec_srgb_app hf' hw gw (by linarith) W1).is
  obtain ⟨a, b, c⟩ := srgb_branches h _ fun x => rfl
  exact ⟨q, q', hq, hq', h.abs (dq.trans (by norm_num)) (dq'.trans (by norm_num)) a c b⟩

theorem apart_sdr : BrighterLights (decodeTransfer ar .SDR v) (decodeTransfer ar' .SDR w) := by
  obtain ⟨V0, V1, W0, W1⟩ := h.rat
  obtain ⟨q, hq, dq⟩ := (dec_sdr_app hf hv gv (by linarith) V1).is
  obtain ⟨q', hq', dq'⟩ := (dec_sdr_app hf' hw gw (by linarith) W1).is
  obtain ⟨a, b, c⟩ := sdr_branches h _ fun x => rfl
  exact ⟨q, q', hq, hq', h.abs (dq.trans (by norm_num)) (dq'.trans (by norm_num)) a c b⟩

end

/-- The lower branch of HLG. -/
theorem hlg_low_signal {ar : Arith F32} (hf : Floats ar) {v : F32} {V : ℚ} (hv : Is v V) (gv : Good v) (h0 : 1 / 255 ≤ V) (h5 : V ≤ 1 / 2) :
    ∃ q : ℚ, Is (decodeTransfer ar .BT2100HLG v) q ∧ |(q : ℝ) - (V : ℝ) ^ 2 / 3| ≤ 4 / 10 ^ 5 * ((V : ℝ) ^ 2 / 3) := by
  have V0 : (1 / 256 : ℝ) ≤ V := by
    have : ((1 / 256 : ℚ) : ℝ) ≤ V := by exact_mod_cast (le_trans (by norm_num) h0 : (1 / 256 : ℚ) ≤ V)
    push_cast at this; exact this
  have Vp : 0 < V := by linarith
  obtain ⟨hm, hgm⟩ := max_is hf hv gv
  rw [max_eq_left Vp.le] at hm
  simp only [decodeTransfer, hlgDecode]
  rw [hf.le hm is_05 Vp.le (by norm_num), if_pos (by simpa using h5)]
  obtain ⟨r, e, r0, dr⟩ := pow_part hf hm hgm (by linarith) (by linarith) is_2 (le_refl _) (by norm_num)
  rw [e, hf.div]
  have ep : (V : ℝ) ^ ((2 : ℚ) : ℝ) = (V : ℝ) ^ 2 := by rw [← Real.rpow_natCast]; norm_num
  rw [ep] at dr
  have V2 : (1 / 65536 : ℝ) ≤ (V : ℝ) ^ 2 := by
    have := pow_le_pow_left₀ (by norm_num) V0 2
    norm_num at this ⊢; linarith
  have V3 : (V : ℝ) ^ 2 ≤ 1 := pow_le_one₀ (by linarith) (by exact_mod_cast (by linarith : V ≤ 1))
  have r1 : (r : ℝ) ≤ 2 * (V : ℝ) ^ 2 := by
    have := (abs_le.mp dr).2
    norm_num at this; linarith
  have := app_div_const (B := 1 * (V : ℝ) ^ 2) (x := fin false r) (Is.app (q := r) ⟨false, r, rfl, r0, rfl⟩) is_3 (by norm_num) (by
    push_cast
    rw [abs_of_nonneg (by have : (0 : ℝ) ≤ r := by exact_mod_cast r0
                          linarith)]
    linarith) (by linarith) (by linarith)
  obtain ⟨q, hq, dq⟩ := this.is
  refine ⟨q, hq, ?_⟩
  generalize (V : ℝ) ^ 2 = z at *
  have d1 := abs_le.mp dq
  have d2 := abs_le.mp dr
  have d3 := d1.1
  have d4 := d1.2
  have d5 := d2.1
  have d6 := d2.2
  norm_num at d3 d4 d5 d6
  rw [abs_le]
  constructor <;> norm_num <;> linarith

/-- The upper branch of HLG. -/
noncomputable def hlgHigh (x : ℝ) : ℝ := (Real.exp ((x - 0.5599107) / 0.17883277) + 0.28466892) / 12

theorem hlgHigh_half : 8333 / 10 ^ 5 ≤ hlgHigh (1 / 2) := by
  have l1 : (7153 / 10 ^ 4 : ℝ) ≤ Real.exp (((1 / 2 : ℝ) - 0.5599107) / 0.17883277) := by
    refine le_exp (by rw [abs_le]; norm_num) ?_
    rw [abs_of_neg (by norm_num)]
    norm_num
  unfold hlgHigh
  generalize Real.exp (((1 / 2 : ℝ) - 0.5599107) / 0.17883277) = z at *
  norm_num at l1 ⊢; linarith

theorem hlgHigh_star {x y : ℝ} (hx : 1 / 2 ≤ x) (hxy : x ≤ y) : hlgHigh x * y ≤ hlgHigh y * x := by
  unfold hlgHigh
  obtain ⟨d, hd⟩ : ∃ d : ℝ, d = (y - x) / 0.17883277 := ⟨_, rfl⟩
  have d0 : 0 ≤ d := by rw [hd]; apply div_nonneg <;> norm_num; linarith
  have hdn : y = x + 0.17883277 * d := by rw [hd]; field_simp; ring
  have e : Real.exp ((y - 0.5599107) / 0.17883277) = Real.exp ((x - 0.5599107) / 0.17883277) * Real.exp d := by
    rw [← Real.exp_add, hd]; congr 1; ring
  have l1 : (7153 / 10 ^ 4 : ℝ) ≤ Real.exp ((x - 0.5599107) / 0.17883277) := by
    refine le_trans (b := Real.exp (((1 / 2 : ℝ) - 0.5599107) / 0.17883277)) ?_ (Real.exp_le_exp.mpr ?_)
    · refine le_exp (by rw [abs_le]; norm_num) ?_
      rw [abs_of_neg (by norm_num)]
      norm_num
    · apply div_le_div_of_nonneg_right _ (by norm_num)
      linarith
  have l2 := Real.add_one_le_exp d
  rw [e]
  generalize Real.exp ((x - 0.5599107) / 0.17883277) = z at *
  generalize Real.exp d = w at *
  rw [hdn]
  have k1 : z * (d + 1) ≤ z * w := mul_le_mul_of_nonneg_left l2 (by linarith)
  have k2 : z * (d + 1) * x ≤ z * w * x := mul_le_mul_of_nonneg_right k1 (by linarith)
  have k3 : z * d * (1 / 2) ≤ z * d * x := mul_le_mul_of_nonneg_left hx (mul_nonneg (by linarith) d0)
  have k4 : 7153 / 10 ^ 4 * d ≤ z * d := mul_le_mul_of_nonneg_right l1 d0
  norm_num at *
  linarith

section
variable {ar ar' : Arith F32} (hf : Floats ar) (hf' : Floats ar') {v w : F32} {V W : ℚ} (hv : Is v V) (gv : Good v) (hw : Is w W)
  (gw : Good w) (h : CodeApart V W)
include hf hf' hv gv hw gw h

theorem apart_hlg : BrighterLights (decodeTransfer ar .BT2100HLG v) (decodeTransfer ar' .BT2100HLG w) := by
  obtain ⟨V0, V1, W0, W1⟩ := h.rat
  have v0 : (0 : ℝ) < V := by have := h.lo; linarith
  have half : ∀ {X : ℚ}, X ≤ 1 / 2 ↔ (X : ℝ) ≤ 1 / 2 := by
    intro X
    rw [show (1 / 2 : ℝ) = ((1 / 2 : ℚ) : ℝ) by push_cast; rfl]
    exact Rat.cast_le.symm
  have ev : (V : ℝ) ^ (2 : ℝ) = (V : ℝ) ^ 2 := by rw [← Real.rpow_natCast]; norm_num
  have ew : (W : ℝ) ^ (2 : ℝ) = (W : ℝ) ^ 2 := by rw [← Real.rpow_natCast]; norm_num
  obtain ⟨p1, p2, p3, p4⟩ := apart_power h (le_refl 2) (by norm_num)
  rw [ev, ew] at *
  have V2 : (1 / 65026 : ℝ) ≤ (V : ℝ) ^ 2 := by
    have := pow_le_pow_left₀ (by norm_num) h.lo 2
    norm_num at this ⊢; linarith
  rcases h.hlg with hW | hW
  · obtain ⟨q, hq, d⟩ := hlg_low_signal hf hv gv V0 (half.mpr (by have := h.gap; linarith))
    obtain ⟨q', hq', d'⟩ := hlg_low_signal hf' hw gw W0 (half.mpr hW)
    refine ⟨q, q', hq, hq', h.rel d d' (by norm_num at V2 ⊢; linarith) (by norm_num; linarith) (by linarith) fun hl => ?_⟩
    -- the lower one is below 0.0174
    have h5 : (V : ℝ) ≤ 18 / 1000 := by
      by_contra hc
      have := pow_le_pow_left₀ (by norm_num) (not_le.mp hc).le 2
      norm_num at this hl; linarith
    have h6 : (121 / 100 : ℝ) * V ≤ W := by have := h.gap; linarith
    have := pow_le_pow_left₀ (by positivity) h6 2
    rw [mul_pow] at this
    norm_num at this ⊢; linarith
  · obtain ⟨q', hq', dq'⟩ := (dec_hlg_app hf' hw gw (by linarith) W1).is
    rw [if_neg (by rw [not_le]; linarith)] at dq'
    change |(q' : ℝ) - hlgHigh W| ≤ _ at dq'
    have s2 := hlgHigh_star (le_refl (1 / 2)) (show (1 / 2 : ℝ) ≤ W by linarith)
    have b2 := hlgHigh_half
    have wp : (0 : ℝ) < W := by linarith
    have slope : 8333 / 10 ^ 5 * (W : ℝ) ≤ hlgHigh W * (1 / 2) := (mul_le_mul_of_nonneg_right b2 wp.le).trans s2
    have top : hlgHigh W ≤ 10010 := by
      unfold hlgHigh
      have up : Real.exp (((W : ℝ) - 0.5599107) / 0.17883277) ≤ Real.exp 3 :=
        Real.exp_le_exp.mpr (by rw [div_le_iff₀ (by norm_num)]; have := h.hi; norm_num; linarith)
      have e3 : Real.exp 3 = Real.exp 1 ^ 3 := by rw [← Real.exp_nat_mul]; norm_num
      have e1 := Real.exp_one_lt_d9
      have : Real.exp 1 ^ 3 ≤ 3 ^ 3 := pow_le_pow_left₀ (Real.exp_pos 1).le (by norm_num at e1; linarith) 3
      generalize Real.exp (((W : ℝ) - 0.5599107) / 0.17883277) = A at *
      norm_num at this ⊢
      linarith
    have big : 8333 / 10 ^ 5 ≤ hlgHigh W := by norm_num at slope ⊢; linarith
    rcases le_or_gt V (1 / 2) with hV | hV
    · have hVr := half.mp hV
      obtain ⟨q, hq, d⟩ := hlg_low_signal hf hv gv V0 hV
      have dq2 : |(q' : ℝ) - hlgHigh W| ≤ 4 / 10 ^ 5 * hlgHigh W := by
        refine dq'.trans ?_
        norm_num at big ⊢; linarith
      refine ⟨q, q', hq, hq', h.rel d dq2 (by norm_num at V2 ⊢; linarith) top ?_ fun hl => ?_⟩
      · have hW2 := h.hi
        have hV4 : (V : ℝ) ≤ 499 / 1000 := by
          rcases h.hlgv with hh | hh
          · exact hh
          · exact absurd hh (not_lt.mpr hVr)
        have k1 : (V : ℝ) ^ 2 ≤ 499 / 1000 * V := by rw [pow_two]; exact mul_le_mul_of_nonneg_right hV4 v0.le
        have k2 := mul_le_mul_of_nonneg_right k1 wp.le
        have k3 := mul_le_mul_of_nonneg_right slope v0.le
        have k4 : 0 < (V : ℝ) * W := by positivity
        generalize hlgHigh W = D at *
        norm_num at k2 k3 ⊢
        linarith
      · norm_num at hl big ⊢; linarith
    · have hVr : (1 / 2 : ℝ) < V := not_le.mp fun hc => absurd (half.mpr hc) (not_le.mpr hV)
      obtain ⟨q, hq, dq⟩ := (dec_hlg_app hf hv gv (by linarith) V1).is
      rw [if_neg (by rw [not_le]; linarith)] at dq
      change |(q : ℝ) - hlgHigh V| ≤ _ at dq
      have s1 := hlgHigh_star (le_refl (1 / 2)) hVr.le
      have hg := (mul_le_mul_of_nonneg_right b2 v0.le).trans s1
      exact ⟨q, q', hq, hq', h.abs (dq.trans (by norm_num)) (dq'.trans (by norm_num)) (by norm_num at hg ⊢; linarith) top
        (hlgHigh_star hVr.le (by have := h.gap; linarith))⟩

end

/-! ## PQ -/

theorem CodeApart.pq_step {v w : ℝ} (h : CodeApart v w) : 93 / 100 ≤ v ^ (1 / 78.84375 : ℝ) ∧ w ^ (1 / 78.84375 : ℝ) ≤ 1 ∧
    v ^ (1 / 78.84375 : ℝ) + 46 / 10 ^ 6 ≤ w ^ (1 / 78.84375 : ℝ) := by
  obtain ⟨h1, h2, h3, -, -, -, -⟩ := h
  have v0 : 0 < v := by linarith
  have a1 : 93 / 100 ≤ v ^ (1 / 78.84375 : ℝ) := by
    calc (93 / 100 : ℝ) ≤ (1 / 255 : ℝ) ^ (1 / 78 : ℝ) := by
          rw [le_rpow_iff (m := 1) (n := 78) (by norm_num) (by norm_num) (by norm_num) (by norm_num)]
          norm_num
      _ ≤ (1 / 255 : ℝ) ^ (1 / 78.84375 : ℝ) := Real.rpow_le_rpow_of_exponent_ge (by norm_num) (by norm_num) (by norm_num)
      _ ≤ _ := Real.rpow_le_rpow (by norm_num) (by linarith) (by norm_num)
  refine ⟨a1, Real.rpow_le_one (by linarith) h3 (by norm_num), ?_⟩
  have hr : 0 < w / v := div_pos (by linarith) v0
  have e : w ^ (1 / 78.84375 : ℝ) = v ^ (1 / 78.84375 : ℝ) * (w / v) ^ (1 / 78.84375 : ℝ) := by
    rw [← Real.mul_rpow v0.le hr.le]
    congr 1
    field_simp
  have hlog : 1 / 255 ≤ Real.log (w / v) := by
    refine le_trans ?_ (Real.one_sub_inv_le_log_of_pos hr)
    rw [inv_div]
    have : v / w ≤ 254 / 255 := by
      rw [div_le_iff₀ (by linarith)]; linarith
    linarith
  have hp : 1 + 1 / 255 * (1 / 78.84375) ≤ (w / v) ^ (1 / 78.84375 : ℝ) := by
    rw [Real.rpow_def_of_pos hr]
    have := Real.add_one_le_exp (Real.log (w / v) * (1 / 78.84375))
    have h3 := mul_le_mul_of_nonneg_right hlog (show (0 : ℝ) ≤ 1 / 78.84375 by norm_num)
    linarith
  rw [e]
  have h4 := mul_le_mul_of_nonneg_left hp (show 0 ≤ v ^ (1 / 78.84375 : ℝ) by linarith)
  generalize v ^ (1 / 78.84375 : ℝ) = P at *
  generalize (w / v) ^ (1 / 78.84375 : ℝ) = R at *
  norm_num at h4 a1 ⊢
  linarith

theorem CodeApart.pq {v w : ℝ} (h : CodeApart v w) (f : ℝ → ℝ) (hf : ∀ x, f x =
      (max (x ^ (1 / 78.84375 : ℝ) - 0.8359375) 0 / (18.851563 - x ^ (1 / 78.84375 : ℝ) * 18.6875)) ^ (1 / 0.15930176 : ℝ) * 10000) :
    2 / 10 ^ 4 ≤ f v ∧ 10066 / 10 ^ 4 * f v ≤ f w ∧ f w ≤ 10000 := by
  obtain ⟨a1, a2, a3⟩ := h.pq_step
  obtain ⟨b1, b2⟩ := pq_fraction_apart a1 a2 a3
  rw [hf, hf,
    max_eq_left (a := v ^ (1 / 78.84375 : ℝ) - 0.8359375) (by norm_num at a1 ⊢; linarith),
    max_eq_left (a := w ^ (1 / 78.84375 : ℝ) - 0.8359375) (by norm_num at a1 a3 ⊢; linarith)]
  have top : (w ^ (1 / 78.84375 : ℝ) - 0.8359375) / (18.851563 - w ^ (1 / 78.84375 : ℝ) * 18.6875) ≤ 1 := by
    generalize w ^ (1 / 78.84375 : ℝ) = Q at *
    rw [div_le_one (by norm_num; linarith)]
    norm_num; linarith
  generalize (v ^ (1 / 78.84375 : ℝ) - 0.8359375) / (18.851563 - v ^ (1 / 78.84375 : ℝ) * 18.6875) = R at *
  generalize (w ^ (1 / 78.84375 : ℝ) - 0.8359375) / (18.851563 - w ^ (1 / 78.84375 : ℝ) * 18.6875) = R' at *
  have R0 : 0 < R := by linarith
  have R0' : 0 ≤ R' := le_trans (by positivity) b2
  refine ⟨?_, ?_, ?_⟩
  · have : (2 / 10 ^ 8 : ℝ) ≤ R ^ (1 / 0.15930176 : ℝ) := by
      calc (2 / 10 ^ 8 : ℝ) ≤ (6 / 100 : ℝ) ^ (63 / 10 : ℝ) := by
            rw [le_rpow_iff (m := 63) (n := 10) (by norm_num) (by norm_num) (by norm_num) (by norm_num)]; norm_num
        _ ≤ (6 / 100 : ℝ) ^ (1 / 0.15930176 : ℝ) := Real.rpow_le_rpow_of_exponent_ge (by norm_num) (by norm_num) (by norm_num)
        _ ≤ _ := Real.rpow_le_rpow (by norm_num) b1 (by norm_num)
    generalize R ^ (1 / 0.15930176 : ℝ) = z at *
    norm_num at this ⊢; linarith
  · have e1 := Real.rpow_le_rpow (by positivity) b2 (show (0 : ℝ) ≤ 1 / 0.15930176 by norm_num)
    rw [Real.mul_rpow (by norm_num) R0.le] at e1
    have e2 := one_add_mul_self_le_rpow_one_add (s := 106 / 10 ^ 5) (p := 1 / 0.15930176) (by norm_num) (by norm_num)
    have e3 := mul_le_mul_of_nonneg_right e2 (Real.rpow_nonneg R0.le (1 / 0.15930176))
    have e4 := Real.rpow_nonneg R0.le (1 / 0.15930176)
    generalize R ^ (1 / 0.15930176 : ℝ) = z at *
    generalize R' ^ (1 / 0.15930176 : ℝ) = z' at *
    generalize (1 + 106 / 10 ^ 5 : ℝ) ^ (1 / 0.15930176 : ℝ) = k at *
    norm_num at e1 e3 ⊢; linarith
  · have := Real.rpow_le_one R0' top (show (0 : ℝ) ≤ 1 / 0.15930176 by norm_num)
    linarith

/-! ## Every transfer function -/

section
variable {ar ar' : Arith F32} (hf : Floats ar) (hf' : Floats ar') {v w : F32} {V W : ℚ} (hv : Is v V) (gv : Good v) (hw : Is w W)
  (gw : Good w) (h : CodeApart V W)
include hf hf' hv gv hw gw h

theorem apart_pq : BrighterLights (decodeTransfer ar .BT2100PQ v) (decodeTransfer ar' .BT2100PQ w) := by
  obtain ⟨V0, V1, W0, W1⟩ := h.rat
  obtain ⟨q, hq, dq⟩ := (dec_pq_app hf hv gv (by linarith) V1).is
  obtain ⟨q', hq', dq'⟩ := (dec_pq_app hf' hw gw (by linarith) W1).is
  obtain ⟨c1, c2, c3⟩ := h.pq _ fun x => rfl
  generalize (max ((V : ℝ) ^ (1 / 78.84375 : ℝ) - 0.8359375) 0 / (18.851563 - (V : ℝ) ^ (1 / 78.84375 : ℝ) * 18.6875)) ^
    (1 / 0.15930176 : ℝ) * 10000 = L at *
  generalize (max ((W : ℝ) ^ (1 / 78.84375 : ℝ) - 0.8359375) 0 / (18.851563 - (W : ℝ) ^ (1 / 78.84375 : ℝ) * 18.6875)) ^
    (1 / 0.15930176 : ℝ) * 10000 = L' at *
  obtain ⟨x1, x2⟩ := abs_le.mp dq
  obtain ⟨y1, y2⟩ := abs_le.mp dq'
  refine ⟨q, q', hq, hq', ?_⟩
  norm_num at x1 x2 y1 y2 c1 c2
  refine ⟨?_, ?_, ?_, fun h => ?_⟩
  · norm_num; linarith
  · norm_num; linarith
  · norm_num; linarith
  · norm_num at h; linarith

/-- Of two signals that are apart the second one is the brighter light. -/
theorem apart_lights (t : ColorTransfer) : BrighterLights (decodeTransfer ar t v) (decodeTransfer ar' t w) := by
  cases t with
  | Linear =>
    have v0 : (0 : ℝ) < V := by have := h.lo; linarith
    exact ⟨V, W, hv, hw, h.abs (L := V) (L' := W) (by norm_num) (by norm_num) (by norm_num; linarith)
      (by have := h.hi; linarith) (by linarith)⟩
  | Gamma22 => exact apart_pow hf hf' hv gv hw gw h is_22 (by norm_num) (by norm_num)
  | Gamma28 => exact apart_pow hf hf' hv gv hw gw h is_28 (by norm_num) (by norm_num)
  | SRGB => exact apart_srgb hf hf' hv gv hw gw h
  | SDR => exact apart_sdr hf hf' hv gv hw gw h
  | BT2100PQ => exact apart_pq hf hf' hv gv hw gw h
  | BT2100HLG => exact apart_hlg hf hf' hv gv hw gw h

end

/-! ## Luma codes -/

/-- Two luma codes between black and white are apart. -/
theorem luma_apart {n n' : Nat} (h1 : 17 ≤ n) (hlt : n < n') (h235 : n' ≤ 235) :
    ∃ V W : ℚ, Is (lumaFloat n) V ∧ Is (lumaFloat n') W ∧ CodeApart V W := by
  obtain ⟨V, hV, dV, -⟩ := luma_is (n := n) (by omega)
  obtain ⟨W, hW, dW, -⟩ := luma_is (n := n') (by omega)
  refine ⟨V, W, hV, hW, ?_⟩
  have dVr : |(V : ℝ) - ((n : ℝ) - 16) / 219| ≤ 1 / 10 ^ 6 := by
    have := (Rat.cast_le (K := ℝ)).mpr dV; push_cast at this; exact this
  have dWr : |(W : ℝ) - ((n' : ℝ) - 16) / 219| ≤ 1 / 10 ^ 6 := by
    have := (Rat.cast_le (K := ℝ)).mpr dW; push_cast at this; exact this
  obtain ⟨a1, a2⟩ := abs_le.mp dVr
  obtain ⟨b1, b2⟩ := abs_le.mp dWr
  have n1 : (17 : ℝ) ≤ n := by exact_mod_cast h1
  have n2 : (n : ℝ) + 1 ≤ n' := by exact_mod_cast hlt
  have pick : ∀ k : Nat, (n' : ℝ) ≤ k ∨ (k : ℝ) + 1 ≤ n' := by
    intro k
    rcases Nat.lt_or_ge k n' with hk | hk
    · right; exact_mod_cast hk
    · left; exact_mod_cast hk
  have pickv : ∀ k : Nat, (n : ℝ) ≤ k ∨ (k : ℝ) + 1 ≤ n := by
    intro k
    rcases Nat.lt_or_ge k n with hk | hk
    · right; exact_mod_cast hk
    · left; exact_mod_cast hk
  norm_num at a1 a2 b1 b2
  refine ⟨?_, ?_, ?_, ?_, ?_, ?_, ?_⟩
  · linarith
  · linarith
  · rcases Nat.lt_or_ge n' 235 with hk | hk
    · have : (n' : ℝ) + 1 ≤ 235 := by exact_mod_cast hk
      linarith
    · obtain rfl : n' = 235 := by omega
      have e : lumaFloat 235 = .fin false 1 := by decide +kernel
      have e2 : Is (lumaFloat 235) 1 := ⟨false, 1, e, by norm_num, rfl⟩
      obtain rfl := hW.unique e2
      simp
  · rcases pick 24 with hk | hk
    · left; push_cast at hk; norm_num; linarith
    · right; push_cast at hk; linarith
  · rcases pick 33 with hk | hk
    · left; push_cast at hk; norm_num; linarith
    · right; push_cast at hk; linarith
  · rcases pick 125 with hk | hk
    · left; push_cast at hk; linarith
    · right; push_cast at hk; linarith
  · rcases pickv 125 with hk | hk
    · left; push_cast at hk; linarith
    · right; push_cast at hk; linarith

/-- Of two luma codes between black and white the higher one is the brighter light. -/
theorem luma_lights {ar ar' : Arith F32} (hf : Floats ar) (hf' : Floats ar') (t : ColorTransfer) {n n' : Nat} (h1 : 17 ≤ n) (hlt : n < n')
    (h235 : n' ≤ 235) : BrighterLights (decodeTransfer ar t (lumaFloat n)) (decodeTransfer ar' t (lumaFloat n')) := by
  obtain ⟨V, W, hV, hW, h⟩ := luma_apart h1 hlt h235
  exact apart_lights hf hf' hV (luma_good n) hW (luma_good n') h t

/-! ## Ramps -/

/-- A ramp of greys: the floats of the codes from black to white. -/
structure Ramp (f : Nat → Arith F32 → F32) (lo hi : Nat) : Prop where
  wide : lo + 1 < hi
  black : ∀ {ar}, Floats ar → f lo ar = ar.div (FOps.ofNat 0) (FOps.ofNat 255)
  white : ∀ {ar}, Floats ar → f hi ar = ar.div (FOps.ofNat 255) (FOps.ofNat 255)
  lights : ∀ {ar ar'}, Floats ar → Floats ar' → ∀ (t : ColorTransfer) {n n' : Nat}, lo < n → n < n' → n' ≤ hi →
    BrighterLights (decodeTransfer ar t (f n ar)) (decodeTransfer ar' t (f n' ar'))

theorem ramp_rgb : Ramp (fun n ar => ar.div (FOps.ofNat n) (FOps.ofNat 255)) 0 255 :=
  ⟨by norm_num, fun _ => rfl, fun _ => rfl, fun hf hf' t _ _ h1 h2 h3 => lights_brighter (realArith_exact (fun _ => 0) (fun _ => 0) (fun _ => 0)) hf hf' t h1 h2 h3⟩

theorem ramp_luma : Ramp (fun n _ => lumaFloat n) 16 235 :=
  ⟨by norm_num, fun hf => by rw [hf.div]; decide +kernel, fun hf => by rw [hf.div]; decide +kernel,
    fun hf hf' t _ _ h1 h2 h3 => luma_lights hf hf' t h1 h2 h3⟩

/-- The light of a code above black. -/
theorem Ramp.light {f : Nat → Arith F32 → F32} {lo hi : Nat} (h : Ramp f lo hi) {ar : Arith F32} (hf : Floats ar) (t : ColorTransfer) {n : Nat}
    (h1 : lo < n) (h2 : n ≤ hi) :
    ∃ q : ℚ, Is (decodeTransfer ar t (f n ar)) q ∧ 167 / 10 ^ 9 ≤ (q : ℝ) ∧ (t ≠ .BT2100PQ → (q : ℝ) ≤ 11 / 10) := by
  have top : ∀ {q : ℚ}, Is (decodeTransfer ar t (f hi ar)) q → t ≠ .BT2100PQ → (q : ℝ) ≤ 11 / 10 := by
    intro q hq ht
    rw [h.white hf] at hq
    obtain ⟨a, -, a1⟩ := light_app hf (realArith_exact (fun _ => 0) (fun _ => 0) (fun _ => 0)) ht (n := 255) (le_refl _)
    obtain ⟨q2, hq2, d⟩ := a.is
    obtain rfl := hq.unique hq2
    have := (abs_le.mp d).2
    norm_num at this a1 ⊢; linarith
  rcases Nat.lt_or_ge n hi with h3 | h3
  · obtain ⟨q, q', hq, hq', hb⟩ := h.lights hf hf t h1 h3 (le_refl _)
    refine ⟨q, hq, hb.1, fun ht => ?_⟩
    have c1 := hb.1
    have c2 := hb.2.1
    have := top hq' ht
    norm_num at c1 c2 ⊢; linarith
  · obtain rfl : n = hi := by omega
    obtain ⟨q, q', -, hq, hb⟩ := h.lights hf hf t (n := lo + 1) (n' := n) (by omega) h.wide (le_refl _)
    have c1 := hb.1
    have c2 := hb.2.1
    exact ⟨q', hq, by norm_num at c1 c2 ⊢; linarith, fun ht => top hq ht⟩

end Ezk

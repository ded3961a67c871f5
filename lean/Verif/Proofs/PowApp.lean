import Verif.Proofs.Num
import Verif.Proofs.Transfer

/-!
# Powers of numbers up to 2 as computed, compared with the exact powers
-/

namespace Ezk
open F32

/-! ## Real analysis -/

theorem neg_log_rpow {p Y : ℝ} (hp : 0 < p) (hY : 0 < Y) : -Real.log p * p ^ Y ≤ (1 - p ^ Y) / Y := by
  have hq : 0 < p ^ Y := Real.rpow_pos_of_pos hp Y
  have h := Real.one_sub_inv_le_log_of_pos hq
  rw [Real.log_rpow hp] at h
  rw [le_div_iff₀ hY]
  have h2 : (1 - (p ^ Y)⁻¹) * p ^ Y ≤ Y * Real.log p * p ^ Y := mul_le_mul_of_nonneg_right h hq.le
  have h3 : (1 - (p ^ Y)⁻¹) * p ^ Y = p ^ Y - 1 := by field_simp
  linarith

/-- The tangent of a power. -/
theorem rpow_tangent {a b Y : ℝ} (ha : 0 ≤ a) (hab : a ≤ b) (hY : 1 ≤ Y) : b ^ Y - a ^ Y ≤ Y * b ^ (Y - 1) * (b - a) := by
  rcases (ha.trans hab).eq_or_lt with h0 | hb
  · have : a = 0 := le_antisymm (by rw [h0]; exact hab) ha
    rw [this, ← h0]; simp
  have h := one_add_mul_self_le_rpow_one_add (s := a / b - 1) (by have : 0 ≤ a / b := by positivity
                                                                  linarith) hY
  rw [add_sub_cancel, Real.div_rpow ha hb.le, le_div_iff₀ (Real.rpow_pos_of_pos hb Y)] at h
  have e : b ^ Y = b ^ (Y - 1) * b := by
    rw [← Real.rpow_add_one hb.ne']; norm_num
  have e2 : (1 + Y * (a / b - 1)) * b ^ Y = b ^ Y - Y * b ^ (Y - 1) * (b - a) := by
    rw [e]; field_simp; ring
  linarith

theorem rpow_lip {a b Y K : ℝ} (ha : 0 ≤ a) (hb : 0 ≤ b) (hY : 1 ≤ Y) (hK : ∀ c, (c = a ∨ c = b) → Y * c ^ (Y - 1) ≤ K) :
    |a ^ Y - b ^ Y| ≤ K * |a - b| := by
  wlog h : a ≤ b generalizing a b
  · rw [abs_sub_comm, abs_sub_comm a]
    exact this hb ha (fun c hc => hK c hc.symm) (not_le.mp h).le
  have h1 := rpow_tangent ha h hY
  have h2 : a ^ Y ≤ b ^ Y := Real.rpow_le_rpow ha h (by linarith)
  rw [abs_sub_comm, abs_of_nonneg (by linarith), abs_sub_comm, abs_of_nonneg (by linarith)]
  exact h1.trans (mul_le_mul_of_nonneg_right (hK b (Or.inr rfl)) (by linarith))

/-- The base is not far above 1, or the power is a root. -/
def Tame (p Y : ℝ) : Prop := (p ≤ 1001 / 1000 ∧ Y ≤ 29 / 10) ∨ (p ≤ 2 ∧ Y ≤ 1 / 2)

theorem log_two_le : Real.log 2 ≤ 7 / 10 := by
  have := Real.log_two_lt_d9; norm_num at this ⊢; linarith

/-- Above 1. -/
theorem Tame.above {p Y : ℝ} (h : Tame p Y) (hp : 1 ≤ p) (hY : 1 / 3 ≤ Y) :
    (43 / 10 ^ 8 + 17 / 10 ^ 8 * Y * (1 + Real.log p)) * p ^ Y ≤ 93 / 10 ^ 8 ∧ p ^ Y * Real.log p ≤ 1 ∧ p ^ Y ≤ 3 / 2 := by
  have h0 : 0 ≤ Real.log p := Real.log_nonneg hp
  have hp0 : 0 ≤ p ^ Y := Real.rpow_nonneg (by linarith) _
  rcases h with ⟨a, b⟩ | ⟨a, b⟩
  · have hl : Real.log p ≤ 1 / 1000 := by
      have := Real.log_le_sub_one_of_pos (by linarith : 0 < p); linarith
    have hq : p ^ Y ≤ 1004 / 1000 := by
      calc p ^ Y ≤ p ^ (3 : ℝ) := Real.rpow_le_rpow_of_exponent_le hp (by linarith)
        _ = p ^ (3 : ℕ) := by rw [← Real.rpow_natCast]; norm_num
        _ ≤ (1001 / 1000) ^ (3 : ℕ) := pow_le_pow_left₀ (by linarith) a 3
        _ ≤ _ := by norm_num
    have h1 : Y * (1 + Real.log p) ≤ 29 / 10 * (1001 / 1000) := mul_le_mul b (by linarith) (by linarith) (by norm_num)
    have h2 : 43 / 10 ^ 8 + 17 / 10 ^ 8 * Y * (1 + Real.log p) ≤ 9235 / 10 ^ 10 := by
      rw [mul_assoc]; norm_num at h1 ⊢; linarith
    refine ⟨(mul_le_mul h2 hq hp0 (by norm_num)).trans (by norm_num), ?_, by linarith⟩
    exact (mul_le_mul hq hl h0 (by norm_num)).trans (by norm_num)
  · have hl : Real.log p ≤ 7 / 10 := (Real.log_le_log (by linarith) a).trans log_two_le
    have hq : p ^ Y ≤ 1415 / 1000 := by
      calc p ^ Y ≤ p ^ (1 / 2 : ℝ) := Real.rpow_le_rpow_of_exponent_le hp b
        _ = Real.sqrt p := by rw [Real.sqrt_eq_rpow]
        _ ≤ _ := by rw [Real.sqrt_le_left (by norm_num)]; norm_num; linarith
    have h1 : Y * (1 + Real.log p) ≤ 1 / 2 * (17 / 10) := mul_le_mul b (by linarith) (by linarith) (by norm_num)
    have h2 : 43 / 10 ^ 8 + 17 / 10 ^ 8 * Y * (1 + Real.log p) ≤ 5745 / 10 ^ 10 := by
      rw [mul_assoc]; norm_num at h1 ⊢; linarith
    refine ⟨(mul_le_mul h2 hq hp0 (by norm_num)).trans (by norm_num), ?_, by linarith⟩
    exact (mul_le_mul hq hl h0 (by norm_num)).trans (by norm_num)

/-- The error of `pow` is small for tame arguments. -/
theorem Tame.error {p Y : ℝ} (h : Tame p Y) (hp : 0 < p) (hY : 1 / 3 ≤ Y) :
    (43 / 10 ^ 8 + 17 / 10 ^ 8 * Y * (1 + |Real.log p|)) * p ^ Y ≤ 93 / 10 ^ 8 := by
  rcases le_total 1 p with h1 | h1
  · rw [abs_of_nonneg (Real.log_nonneg h1)]
    exact (h.above h1 hY).1
  · rw [abs_of_nonpos (Real.log_nonpos hp.le h1)]
    have hq : p ^ Y ≤ 1 := Real.rpow_le_one hp.le h1 (by linarith)
    have hq0 : 0 < p ^ Y := Real.rpow_pos_of_pos hp _
    have h2 := neg_log_rpow hp (show 0 < Y by linarith)
    rw [le_div_iff₀ (by linarith)] at h2
    have hY2 : Y ≤ 29 / 10 := by rcases h with ⟨_, b⟩ | ⟨_, b⟩ <;> linarith
    have e : (43 / 10 ^ 8 + 17 / 10 ^ 8 * Y * (1 + -Real.log p)) * p ^ Y =
        43 / 10 ^ 8 * p ^ Y + 17 / 10 ^ 8 * (Y * p ^ Y) + 17 / 10 ^ 8 * (-Real.log p * p ^ Y * Y) := by ring
    rw [e]
    have h3 : Y * p ^ Y ≤ 29 / 10 * p ^ Y := mul_le_mul_of_nonneg_right hY2 hq0.le
    norm_num at h2 h3 ⊢
    linarith

/-- The exponent may be rounded. -/
theorem Tame.exponent {p Y Z : ℝ} (h : Tame p Y) (h' : Tame p Z) (hp : 0 ≤ p) (hY : 1 / 3 ≤ Y) (hZ : 1 / 3 ≤ Z)
    (hd : |Z - Y| ≤ 1 / 10 ^ 7 * min Y Z) : |p ^ Z - p ^ Y| ≤ 3 / 10 ^ 7 := by
  wlog hYZ : Y ≤ Z generalizing Y Z
  · rw [abs_sub_comm]
    exact this h' h hZ hY (by rw [abs_sub_comm, min_comm]; exact hd) (not_le.mp hYZ).le
  rw [min_eq_left hYZ, abs_of_nonneg (by linarith)] at hd
  rcases hp.eq_or_lt with rfl | hp
  · rw [Real.zero_rpow (by linarith), Real.zero_rpow (by linarith)]; norm_num
  have e : p ^ Z = p ^ Y * p ^ (Z - Y) := by rw [← Real.rpow_add hp]; congr 1; ring
  have hex : p ^ (Z - Y) = Real.exp (Real.log p * (Z - Y)) := Real.rpow_def_of_pos hp _
  have hq0 : 0 < p ^ Y := Real.rpow_pos_of_pos hp _
  have hY3 : Y ≤ 29 / 10 := by rcases h with ⟨_, b⟩ | ⟨_, b⟩ <;> linarith
  rcases le_total 1 p with h1 | h1
  · -- p^Z - p^Y = p^Z (1 - p^(Y-Z))
    obtain ⟨-, b, -⟩ := h'.above h1 hZ
    have e2 : p ^ Y = p ^ Z * p ^ (Y - Z) := by rw [← Real.rpow_add hp]; congr 1; ring
    have hx : p ^ (Y - Z) = Real.exp (Real.log p * (Y - Z)) := Real.rpow_def_of_pos hp _
    have h2 := Real.add_one_le_exp (Real.log p * (Y - Z))
    have hm : p ^ Y ≤ p ^ Z := Real.rpow_le_rpow_of_exponent_le h1 hYZ
    rw [abs_of_nonneg (by linarith), e2, hx]
    have hz0 : 0 < p ^ Z := Real.rpow_pos_of_pos hp _
    have h3 := mul_le_mul_of_nonneg_left h2 hz0.le
    have h4 : p ^ Z * Real.log p * (Z - Y) ≤ 1 * (29 / 10 ^ 8) :=
      mul_le_mul b (by norm_num at hd ⊢; linarith) (by linarith) (by norm_num)
    norm_num at h3 h4 ⊢
    linarith
  · have h2 := Real.add_one_le_exp (Real.log p * (Z - Y))
    have hm : p ^ Z ≤ p ^ Y := Real.rpow_le_rpow_of_exponent_ge hp h1 hYZ
    rw [abs_sub_comm, abs_of_nonneg (by linarith), e, hex]
    have h3 := mul_le_mul_of_nonneg_left h2 hq0.le
    have h4 := neg_log_rpow hp (show 0 < Y by linarith)
    rw [le_div_iff₀ (by linarith)] at h4
    have hl : 0 ≤ -Real.log p * p ^ Y := mul_nonneg (by linarith [Real.log_nonpos hp.le h1]) hq0.le
    have h5 : -Real.log p * p ^ Y * (Z - Y) ≤ -Real.log p * p ^ Y * (1 / 10 ^ 7 * Y) := mul_le_mul_of_nonneg_left hd hl
    norm_num at h3 h4 h5 ⊢
    linarith

theorem exp_87 {Y : ℝ} (h : 1 / 3 ≤ Y) : Real.exp (-(87 * Y)) ≤ 1 / 10 ^ 12 := by
  refine (Real.exp_le_exp.mpr (show -(87 * Y) ≤ -29 by linarith)).trans ?_
  have h27 : (27 / 10 : ℝ) ^ 29 ≤ Real.exp 29 := by
    have : Real.exp 29 = Real.exp 1 ^ 29 := by rw [← Real.exp_nat_mul]; norm_num
    rw [this]
    exact pow_le_pow_left₀ (by norm_num) (by linarith [Real.exp_one_gt_d9]) 29
  rw [Real.exp_neg, ← one_div]
  exact one_div_le_one_div_of_le (by norm_num) (le_trans (by norm_num) h27)

/-! ## `pow` -/

variable {ar : Arith F32}

/-- Powers with an exact exponent. -/
theorem pow_exact (hf : Floats ar) {x y : F32} {p Y : ℚ} (hx : Is x p) (hg : Good x) (hp : 0 ≤ p) (hy : Is y Y)
    (hY : 1 / 3 ≤ Y) (ht : Tame p Y) : App (ar.pow x y) ((p : ℝ) ^ (Y : ℝ)) (94 / 10 ^ 8) := by
  have hYr : (1 / 3 : ℝ) ≤ Y := by
    have := (Rat.cast_le (K := ℝ)).mpr hY; push_cast at this; exact this
  have hY3r : (Y : ℝ) ≤ 29 / 10 := by rcases ht with ⟨_, b⟩ | ⟨_, b⟩ <;> linarith
  have hY3 : Y ≤ 29 / 10 := by
    have : (Y : ℝ) ≤ ((29 / 10 : ℚ) : ℝ) := by push_cast; exact hY3r
    exact_mod_cast this
  have hp2 : (p : ℝ) ≤ 2 := by rcases ht with ⟨a, _⟩ | ⟨a, _⟩ <;> linarith
  have hp2q : p ≤ 2 := by exact_mod_cast hp2
  rcases hx.nonneg hp with rfl | ⟨rfl, rfl⟩
  · obtain ⟨_, hr, _⟩ := hg
    rcases lt_or_ge p ((2 : ℚ) ^ (-126 : Int)) with hs | hn
    · obtain ⟨r, e, r0, hr⟩ := hf.lib.pow.2 hr hp hs hy (by linarith) (by linarith)
      refine ⟨false, r, e, r0, ?_⟩
      have e1 : signed false r = r := rfl
      rw [e1]
      have hpr : (0 : ℝ) ≤ p := by exact_mod_cast hp
      have hle : (p : ℝ) ^ (Y : ℝ) ≤ 1 / 10 ^ 12 := by
        have hsr : (p : ℝ) ≤ (1 / 10 ^ 12) ^ 3 := by
          have := (Rat.cast_lt (K := ℝ)).mpr hs
          push_cast at this
          refine this.le.trans (by norm_num)
        calc (p : ℝ) ^ (Y : ℝ) ≤ ((1 / 10 ^ 12) ^ 3 : ℝ) ^ (Y : ℝ) := Real.rpow_le_rpow hpr hsr (by linarith)
          _ ≤ ((1 / 10 ^ 12) ^ 3 : ℝ) ^ (1 / 3 : ℝ) := Real.rpow_le_rpow_of_exponent_ge (by norm_num) (by norm_num) hYr
          _ = 1 / 10 ^ 12 := by
            rw [← Real.rpow_natCast, ← Real.rpow_mul (by norm_num)]; norm_num
      have h0 : 0 ≤ (p : ℝ) ^ (Y : ℝ) := Real.rpow_nonneg hpr _
      have hE := exp_87 hYr
      have hr0 : (0 : ℝ) ≤ r := by exact_mod_cast r0
      rw [abs_le]
      norm_num at hE hle hr ⊢
      constructor <;> linarith
    · have hp0 : 0 < p := lt_of_lt_of_le (pow2_pos _) hn
      have hp0r : (0 : ℝ) < p := by exact_mod_cast hp0
      have hlog : (Y : ℝ) * Real.log p ≤ 88 := by
        have : Real.log p ≤ 7 / 10 := (Real.log_le_log hp0r hp2).trans log_two_le
        nlinarith
      obtain ⟨r, e, r0, hr⟩ := hf.lib.pow.1 hr hn (lt_of_le_of_lt hp2q (by norm_num)) hy
        (by rw [abs_of_nonneg (by linarith)]; linarith) hlog
      refine ⟨false, r, e, r0, ?_⟩
      have e1 : signed false r = r := rfl
      rw [e1]
      refine hr.trans ?_
      rw [abs_of_nonneg (by linarith : (0 : ℝ) ≤ Y)]
      have := ht.error hp0r hYr
      norm_num at this ⊢
      linarith
  · obtain ⟨s, r, e, r0, hr⟩ := hf.lib.negzero hy (by linarith) (by linarith)
    refine ⟨s, r, e, r0, ?_⟩
    have e0 : ((0 : ℚ) : ℝ) ^ (Y : ℝ) = 0 := by rw [Rat.cast_zero, Real.zero_rpow (by linarith)]
    rw [e0, sub_zero]
    have hr0 : (0 : ℝ) ≤ r := by exact_mod_cast r0
    have : |((signed s r : ℚ) : ℝ)| = r := by
      cases s
      · simp [signed, abs_of_nonneg hr0]
      · simp [signed, abs_of_nonneg hr0]
    rw [this]
    have hE := exp_87 hYr
    norm_num at hr hE ⊢
    linarith

/-- Powers with a rounded exponent. -/
theorem pow_app (hf : Floats ar) {x y : F32} {p Y : ℚ} {Z : ℝ} (hx : Is x p) (hg : Good x) (hp : 0 ≤ p) (hy : Is y Y)
    (hY : 1 / 3 ≤ Y) (hZ : 1 / 3 ≤ Z) (hd : |Z - Y| ≤ 1 / 10 ^ 7 * min (Y : ℝ) Z) (ht : Tame p Y) (ht' : Tame p Z) :
    App (ar.pow x y) ((p : ℝ) ^ Z) (125 / 10 ^ 8) := by
  have h := pow_exact hf hx hg hp hy hY ht
  have hYr : (1 / 3 : ℝ) ≤ Y := by
    have := (Rat.cast_le (K := ℝ)).mpr hY; push_cast at this; exact this
  have h2 := ht.exponent ht' (by exact_mod_cast hp) hYr hZ hd
  obtain ⟨s, r, e, r0, hr⟩ := h
  refine ⟨s, r, e, r0, ?_⟩
  rw [abs_le] at *
  norm_num at hr h2 ⊢
  constructor <;> linarith [hr.1, hr.2, h2.1, h2.2]

end Ezk

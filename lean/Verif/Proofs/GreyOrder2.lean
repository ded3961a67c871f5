import Verif.Proofs.GreyOrder

/-!
# Brighter greys: computed lights and signals
-/

namespace Ezk
open F32 FOps Spec

attribute [local instance] ratOps

/-- What is computed for the two lights. -/
def BrighterLights (l l' : F32) : Prop := ∃ q q' : ℚ, Is l q ∧ Is l' q' ∧ Brighter q q'

/-! ## PQ -/

/-- The signal of PQ in the exponent's terms: `P = v^(1/m2)`. -/
theorem pq_step {n n' : Nat} (h1 : 1 ≤ n) (hlt : n < n') (h255 : n' ≤ 255) :
    93 / 100 ≤ ((n : ℝ) / 255) ^ (1 / 78.84375 : ℝ) ∧ ((n' : ℝ) / 255) ^ (1 / 78.84375 : ℝ) ≤ 1 ∧
    ((n : ℝ) / 255) ^ (1 / 78.84375 : ℝ) + 46 / 10 ^ 6 ≤ ((n' : ℝ) / 255) ^ (1 / 78.84375 : ℝ) := by
  have hn1 : (1 : ℝ) ≤ n := by exact_mod_cast h1
  have hn2 : (n : ℝ) + 1 ≤ n' := by exact_mod_cast hlt
  have hn3 : (n' : ℝ) ≤ 255 := by exact_mod_cast h255
  have v0 : (0 : ℝ) < (n : ℝ) / 255 := by positivity
  have a1 : 93 / 100 ≤ ((n : ℝ) / 255) ^ (1 / 78.84375 : ℝ) := by
    calc (93 / 100 : ℝ) ≤ (1 / 255 : ℝ) ^ (1 / 78 : ℝ) := by
          rw [le_rpow_iff (m := 1) (n := 78) (by norm_num) (by norm_num) (by norm_num) (by norm_num)]
          norm_num
      _ ≤ (1 / 255 : ℝ) ^ (1 / 78.84375 : ℝ) := Real.rpow_le_rpow_of_exponent_ge (by norm_num) (by norm_num) (by norm_num)
      _ ≤ _ := Real.rpow_le_rpow (by norm_num) (by linarith) (by norm_num)
  refine ⟨a1, Real.rpow_le_one (by positivity) (by linarith) (by norm_num), ?_⟩
  have e : ((n' : ℝ) / 255) ^ (1 / 78.84375 : ℝ) = ((n : ℝ) / 255) ^ (1 / 78.84375 : ℝ) * ((n' : ℝ) / n) ^ (1 / 78.84375 : ℝ) := by
    rw [← Real.mul_rpow v0.le (by positivity)]
    congr 1
    field_simp
  have hr : 0 < (n' : ℝ) / n := div_pos (by linarith) (by linarith)
  have hlog : 1 / 255 ≤ Real.log ((n' : ℝ) / n) := by
    refine le_trans ?_ (Real.one_sub_inv_le_log_of_pos hr)
    rw [inv_div]
    have : (n : ℝ) / n' ≤ 254 / 255 := by
      rw [div_le_iff₀ (by linarith)]; linarith
    linarith
  have hp : 1 + 1 / 255 * (1 / 78.84375) ≤ ((n' : ℝ) / n) ^ (1 / 78.84375 : ℝ) := by
    rw [Real.rpow_def_of_pos hr]
    have := Real.add_one_le_exp (Real.log ((n' : ℝ) / n) * (1 / 78.84375))
    have h3 := mul_le_mul_of_nonneg_right hlog (show (0 : ℝ) ≤ 1 / 78.84375 by norm_num)
    linarith
  rw [e]
  have := mul_le_mul a1 hp (by norm_num) (by linarith)
  have h4 := mul_le_mul_of_nonneg_left hp (show 0 ≤ ((n : ℝ) / 255) ^ (1 / 78.84375 : ℝ) by linarith)
  generalize ((n : ℝ) / 255) ^ (1 / 78.84375 : ℝ) = P at *
  generalize ((n' : ℝ) / n) ^ (1 / 78.84375 : ℝ) = R at *
  norm_num at h4 a1 ⊢
  linarith

/-- The fraction grows. -/
theorem pq_fraction_apart {P Q : ℝ} (h0 : 93 / 100 ≤ P) (h1 : Q ≤ 1) (h : P + 46 / 10 ^ 6 ≤ Q) :
    6 / 100 ≤ (P - 0.8359375) / (18.851563 - P * 18.6875) ∧
    (1 + 106 / 10 ^ 5) * ((P - 0.8359375) / (18.851563 - P * 18.6875)) ≤ (Q - 0.8359375) / (18.851563 - Q * 18.6875) := by
  have d1 : 0 < 18.851563 - P * 18.6875 := by norm_num at h ⊢; linarith
  have d2 : 0 < 18.851563 - Q * 18.6875 := by norm_num; linarith
  constructor
  · rw [le_div_iff₀ d1]; norm_num at h0 ⊢; linarith
  · rw [← mul_div_assoc, div_le_div_iff₀ d1 d2]
    obtain ⟨d, rfl⟩ : ∃ d, Q = P + d := ⟨Q - P, by ring⟩
    have hd : 46 / 10 ^ 6 ≤ d := by linarith
    obtain ⟨t, rfl⟩ : ∃ t, d = 46 / 10 ^ 6 + t := ⟨d - 46 / 10 ^ 6, by ring⟩
    have t0 : 0 ≤ t := by linarith
    have sq := sq_nonneg (P - 92236 / 10 ^ 5)
    norm_num at *
    nlinarith

/-- Lights of PQ are apart. -/
theorem pq_apart {rr : Arith ℝ} (he : Exact rr) {n n' : Nat} (h1 : 1 ≤ n) (hlt : n < n') (h255 : n' ≤ 255) :
    2 / 10 ^ 4 ≤ decodeTransfer rr .BT2100PQ ((n : ℝ) / 255) ∧
    10066 / 10 ^ 4 * decodeTransfer rr .BT2100PQ ((n : ℝ) / 255) ≤ decodeTransfer rr .BT2100PQ ((n' : ℝ) / 255) := by
  obtain ⟨a1, a2, a3⟩ := pq_step h1 hlt h255
  obtain ⟨b1, b2⟩ := pq_fraction_apart a1 a2 a3
  rw [dec_pq he, dec_pq he, max_eq_left (a := (n : ℝ) / 255) (by positivity), max_eq_left (a := (n' : ℝ) / 255) (by positivity),
    max_eq_left (a := ((n : ℝ) / 255) ^ (1 / 78.84375 : ℝ) - 0.8359375) (by norm_num at a1 ⊢; linarith),
    max_eq_left (a := ((n' : ℝ) / 255) ^ (1 / 78.84375 : ℝ) - 0.8359375) (by norm_num at a1 a3 ⊢; linarith)]
  generalize (((n : ℝ) / 255) ^ (1 / 78.84375 : ℝ) - 0.8359375) / (18.851563 - ((n : ℝ) / 255) ^ (1 / 78.84375 : ℝ) * 18.6875) = R at *
  generalize (((n' : ℝ) / 255) ^ (1 / 78.84375 : ℝ) - 0.8359375) / (18.851563 - ((n' : ℝ) / 255) ^ (1 / 78.84375 : ℝ) * 18.6875) = R' at *
  have R0 : 0 < R := by linarith
  constructor
  · have : (2 / 10 ^ 8 : ℝ) ≤ R ^ (1 / 0.15930176 : ℝ) := by
      calc (2 / 10 ^ 8 : ℝ) ≤ (6 / 100 : ℝ) ^ (63 / 10 : ℝ) := by
            rw [le_rpow_iff (m := 63) (n := 10) (by norm_num) (by norm_num) (by norm_num) (by norm_num)]; norm_num
        _ ≤ (6 / 100 : ℝ) ^ (1 / 0.15930176 : ℝ) := Real.rpow_le_rpow_of_exponent_ge (by norm_num) (by norm_num) (by norm_num)
        _ ≤ _ := Real.rpow_le_rpow (by norm_num) b1 (by norm_num)
    generalize R ^ (1 / 0.15930176 : ℝ) = z at *
    norm_num at this ⊢; linarith
  · have e1 := Real.rpow_le_rpow (by positivity) b2 (show (0 : ℝ) ≤ 1 / 0.15930176 by norm_num)
    rw [Real.mul_rpow (by norm_num) R0.le] at e1
    have e2 := one_add_mul_self_le_rpow_one_add (s := 106 / 10 ^ 5) (p := 1 / 0.15930176) (by norm_num) (by norm_num)
    have e3 := mul_le_mul_of_nonneg_right e2 (Real.rpow_nonneg R0.le (1 / 0.15930176))
    have e4 := Real.rpow_nonneg R0.le (1 / 0.15930176)
    generalize R ^ (1 / 0.15930176 : ℝ) = z at *
    generalize R' ^ (1 / 0.15930176 : ℝ) = z' at *
    generalize (1 + 106 / 10 ^ 5 : ℝ) ^ (1 / 0.15930176 : ℝ) = k at *
    norm_num at e3 ⊢
    linarith

theorem lights_pq {rr : Arith ℝ} (he : Exact rr) {ar ar' : Arith F32} (hf : Floats ar) (hf' : Floats ar') {n n' : Nat} (h1 : 1 ≤ n)
    (hlt : n < n') (h255 : n' ≤ 255) :
    BrighterLights (decodeTransfer ar .BT2100PQ (ar.div (FOps.ofNat n) (FOps.ofNat 255)))
      (decodeTransfer ar' .BT2100PQ (ar'.div (FOps.ofNat n') (FOps.ofNat 255))) := by
  obtain ⟨a, -, -⟩ := light_pq_app he hf (n := n) (by omega)
  obtain ⟨b, -, b1⟩ := light_pq_app he hf' (n := n') h255
  obtain ⟨q, hq, dq⟩ := a.is
  obtain ⟨q', hq', dq'⟩ := b.is
  obtain ⟨c1, c2⟩ := pq_apart he h1 hlt h255
  obtain ⟨x1, x2⟩ := abs_le.mp dq
  obtain ⟨y1, y2⟩ := abs_le.mp dq'
  refine ⟨q, q', hq, hq', ?_⟩
  generalize decodeTransfer rr .BT2100PQ ((n : ℝ) / 255) = L at *
  generalize decodeTransfer rr .BT2100PQ ((n' : ℝ) / 255) = L' at *
  norm_num at x1 x2 y1 y2 c1 c2
  refine ⟨?_, ?_, ?_, fun h => ?_⟩
  · norm_num; linarith
  · norm_num; linarith
  · norm_num; linarith
  · norm_num at h; linarith

/-! ## The other functions -/

section
variable {rr : Arith ℝ} (he : Exact rr) {ar ar' : Arith F32} (hf : Floats ar) (hf' : Floats ar')

include he hf hf' in
theorem lights_abs {t : ColorTransfer} (ht : t ≠ .BT2100PQ) {n n' : Nat} (h1 : 1 ≤ n) (hlt : n < n') (h255 : n' ≤ 255)
    (h : 303 / 10 ^ 6 * (n : ℝ) ≤ decodeTransfer rr t ((n : ℝ) / 255) ∧
      decodeTransfer rr t ((n : ℝ) / 255) * n' ≤ decodeTransfer rr t ((n' : ℝ) / 255) * n) :
    BrighterLights (decodeTransfer ar t (ar.div (FOps.ofNat n) (FOps.ofNat 255)))
      (decodeTransfer ar' t (ar'.div (FOps.ofNat n') (FOps.ofNat 255))) := by
  obtain ⟨a, -, -⟩ := light_app hf he ht (n := n) (by omega)
  obtain ⟨b, -, b1⟩ := light_app hf' he ht (n := n') h255
  obtain ⟨q, hq, dq⟩ := a.is
  obtain ⟨q', hq', dq'⟩ := b.is
  exact ⟨q, q', hq, hq', brighter_abs h1 hlt h255 dq dq' h.1 (b1.trans (by norm_num)) h.2⟩

include hf hf' in
theorem lights_power {y : F32} {Y : ℚ} (hy : Is y Y) (hY : 2 ≤ Y) (hY2 : Y ≤ 45 / 16) {n n' : Nat} (h1 : 1 ≤ n) (hlt : n < n')
    (h255 : n' ≤ 255) :
    BrighterLights (ar.pow (ar.div (FOps.ofNat n) (FOps.ofNat 255)) y) (ar'.pow (ar'.div (FOps.ofNat n') (FOps.ofNat 255)) y) := by
  obtain ⟨V, hV, hg, -, V1, dV⟩ := sample_rel hf (n := n) (by omega) h1
  obtain ⟨W, hW, hg', -, W1, dW⟩ := sample_rel hf' (n := n') h255 (by omega)
  obtain ⟨V0, hVW⟩ := sample_apart h1 hlt dV dW
  have W0 : (1 / 256 : ℝ) ≤ W := by
    have h2 : (2 : ℝ) ≤ n' := by
      have : 2 ≤ n' := by omega
      exact_mod_cast this
    have := (abs_le.mp dW).1
    norm_num at this; linarith
  have V0q : 1 / 256 ≤ V := by
    have : ((1 / 256 : ℚ) : ℝ) ≤ V := by push_cast; exact V0
    exact_mod_cast this
  have W0q : 1 / 256 ≤ W := by
    have : ((1 / 256 : ℚ) : ℝ) ≤ W := by push_cast; exact W0
    exact_mod_cast this
  have V1r : (V : ℝ) ≤ 1 := by exact_mod_cast V1
  have W1r : (W : ℝ) ≤ 1 := by exact_mod_cast W1
  have Y1 : (2 : ℝ) ≤ Y := by exact_mod_cast hY
  have Y2 : (Y : ℝ) ≤ 45 / 16 := by
    have := (Rat.cast_le (K := ℝ)).mpr hY2; push_cast at this; exact this
  obtain ⟨r, e, r0, dr⟩ := pow_part hf hV hg V0q V1 hy hY hY2
  obtain ⟨r', e', r0', dr'⟩ := pow_part hf' hW hg' W0q W1 hy hY hY2
  rw [e, e']
  have hp := (pow_256 V0 V1r Y2).2
  have hp' := (pow_256 W0 W1r Y2).2
  obtain ⟨star, low⟩ := power_apart h1 hlt h255 V0 hVW Y1
  refine ⟨r, r', ⟨false, r, rfl, r0, rfl⟩, ⟨false, r', rfl, r0', rfl⟩, brighter_rel h1 hlt h255 (dr.trans ?_) (dr'.trans ?_) hp ?_ star fun h => ?_⟩
  · norm_num at hp ⊢; linarith
  · norm_num at hp' ⊢; linarith
  · refine (Real.rpow_le_one (by linarith) W1r (by linarith)).trans (by norm_num)
  · have := low (power_small V0 V1r dV Y2 h)
    norm_num at this hp ⊢; linarith

include hf in
/-- The lower branch of HLG. -/
theorem hlg_low {n : Nat} (h1 : 1 ≤ n) (h127 : n ≤ 127) : ∃ V q : ℚ, Is (decodeTransfer ar .BT2100HLG (ar.div (FOps.ofNat n) (FOps.ofNat 255))) q ∧
    1 / 256 ≤ (V : ℝ) ∧ |(V : ℝ) - (n : ℝ) / 255| ≤ 6 / 10 ^ 8 * ((n : ℝ) / 255) ∧ |(q : ℝ) - (V : ℝ) ^ 2 / 3| ≤ 4 / 10 ^ 5 * ((V : ℝ) ^ 2 / 3) := by
  obtain ⟨V, hV, hg, Vp, V1, dV⟩ := sample_rel hf (n := n) (by omega) h1
  have hn1 : (1 : ℝ) ≤ n := by exact_mod_cast h1
  have hn2 : (n : ℝ) ≤ 127 := by exact_mod_cast h127
  have V0 : (1 / 256 : ℝ) ≤ V := by
    have := (abs_le.mp dV).1
    norm_num at this; linarith
  have V0q : 1 / 256 ≤ V := by
    have : ((1 / 256 : ℚ) : ℝ) ≤ V := by push_cast; exact V0
    exact_mod_cast this
  have V5 : V ≤ 1 / 2 := by
    have : (V : ℝ) ≤ ((1 / 2 : ℚ) : ℝ) := by
      have := (abs_le.mp dV).2
      push_cast
      norm_num at this ⊢; linarith
    exact_mod_cast this
  obtain ⟨hm, hgm⟩ := max_is hf hV hg
  rw [max_eq_left Vp.le] at hm
  simp only [decodeTransfer, hlgDecode]
  rw [hf.le hm is_05 Vp.le (by norm_num), if_pos (by simpa using V5)]
  obtain ⟨r, e, r0, dr⟩ := pow_part hf hm hgm V0q V1 is_2 (le_refl _) (by norm_num)
  rw [e, hf.div]
  have ep : (V : ℝ) ^ ((2 : ℚ) : ℝ) = (V : ℝ) ^ 2 := by rw [← Real.rpow_natCast]; norm_num
  rw [ep] at dr
  have V2 : (1 / 65536 : ℝ) ≤ (V : ℝ) ^ 2 := by
    have := pow_le_pow_left₀ (by norm_num) V0 2
    norm_num at this ⊢; linarith
  have V3 : (V : ℝ) ^ 2 ≤ 1 := pow_le_one₀ (by linarith) (by exact_mod_cast V1)
  have r1 : (r : ℝ) ≤ 2 * (V : ℝ) ^ 2 := by
    have := (abs_le.mp dr).2
    norm_num at this; linarith
  have r2 : (r : ℝ) ≤ 2 := by linarith
  have := app_div_const (B := 1 * (V : ℝ) ^ 2) (x := fin false r) (Is.app (q := r) ⟨false, r, rfl, r0, rfl⟩) is_3 (by norm_num) (by
    push_cast
    rw [abs_of_nonneg (by have : (0 : ℝ) ≤ r := by exact_mod_cast r0
                          linarith)]
    linarith) (by linarith) (by linarith)
  obtain ⟨q, hq, dq⟩ := this.is
  refine ⟨V, q, hq, V0, dV, ?_⟩
  generalize (V : ℝ) ^ 2 = z at *
  have d1 := abs_le.mp dq
  have d2 := abs_le.mp dr
  have d3 := d1.1
  have d4 := d1.2
  have d5 := d2.1
  have d6 := d2.2
  norm_num at d3 d4 d5 d6
  rw [abs_le]
  constructor <;> norm_num <;> linarith

include he in
/-- The upper branch of HLG grows faster than the signal. -/
theorem hlg_high {n : Nat} (h : 128 ≤ n) : decodeTransfer rr .BT2100HLG ((n : ℝ) / 255) =
    (Real.exp (((n : ℝ) / 255 - 0.5599107) / 0.17883277) + 0.28466892) / 12 := by
  have : (128 : ℝ) ≤ n := by exact_mod_cast h
  rw [dec_hlg he, max_eq_left (by positivity), if_neg]
  norm_num; linarith

include he in
theorem hlg_128 : 839 / 10 ^ 4 ≤ decodeTransfer rr .BT2100HLG (((128 : ℕ) : ℝ) / 255) := by
  rw [hlg_high he (le_refl _)]
  have l1 : (723 / 1000 : ℝ) ≤ Real.exp ((((128 : ℕ) : ℝ) / 255 - 0.5599107) / 0.17883277) := by
    refine le_exp (by rw [abs_le]; norm_num) ?_
    rw [abs_of_neg (by norm_num)]
    norm_num
  generalize Real.exp ((((128 : ℕ) : ℝ) / 255 - 0.5599107) / 0.17883277) = z at *
  norm_num at l1 ⊢; linarith

include he in
theorem hlg_star {n n' : Nat} (h : 128 ≤ n) (hlt : n ≤ n') :
    decodeTransfer rr .BT2100HLG ((n : ℝ) / 255) * n' ≤ decodeTransfer rr .BT2100HLG ((n' : ℝ) / 255) * n := by
  rw [hlg_high he h, hlg_high he (h.trans hlt)]
  have h1 : (128 : ℝ) ≤ n := by exact_mod_cast h
  have h2 : (n : ℝ) ≤ n' := by exact_mod_cast hlt
  obtain ⟨d, hd⟩ : ∃ d : ℝ, d = ((n' : ℝ) / 255 - n / 255) / 0.17883277 := ⟨_, rfl⟩
  have d0 : 0 ≤ d := by rw [hd]; apply div_nonneg <;> norm_num; linarith
  have hdn : (n' : ℝ) = n + 255 * 0.17883277 * d := by rw [hd]; field_simp; ring
  have e : Real.exp (((n' : ℝ) / 255 - 0.5599107) / 0.17883277) =
      Real.exp (((n : ℝ) / 255 - 0.5599107) / 0.17883277) * Real.exp d := by
    rw [← Real.exp_add, hd]; congr 1; ring
  have l1 : (723 / 1000 : ℝ) ≤ Real.exp (((n : ℝ) / 255 - 0.5599107) / 0.17883277) := by
    refine le_trans (b := Real.exp ((((128 : ℕ) : ℝ) / 255 - 0.5599107) / 0.17883277)) ?_ (Real.exp_le_exp.mpr ?_)
    · refine le_exp (by rw [abs_le]; norm_num) ?_
      rw [abs_of_neg (by norm_num)]
      norm_num
    · apply div_le_div_of_nonneg_right _ (by norm_num)
      push_cast; linarith
  have l2 := Real.add_one_le_exp d
  rw [e]
  generalize Real.exp (((n : ℝ) / 255 - 0.5599107) / 0.17883277) = z at *
  generalize Real.exp d = w at *
  rw [hdn]
  have k1 : z * (d + 1) ≤ z * w := mul_le_mul_of_nonneg_left l2 (by linarith)
  have k2 : z * (d + 1) * n ≤ z * w * n := mul_le_mul_of_nonneg_right k1 (by linarith)
  have k3 : z * d * 128 ≤ z * d * n := mul_le_mul_of_nonneg_left h1 (mul_nonneg (by linarith) d0)
  have k4 : 723 / 1000 * d ≤ z * d := mul_le_mul_of_nonneg_right l1 d0
  norm_num at *
  linarith

include he hf hf' in
theorem lights_hlg {n n' : Nat} (h1 : 1 ≤ n) (hlt : n < n') (h255 : n' ≤ 255) :
    BrighterLights (decodeTransfer ar .BT2100HLG (ar.div (FOps.ofNat n) (FOps.ofNat 255)))
      (decodeTransfer ar' .BT2100HLG (ar'.div (FOps.ofNat n') (FOps.ofNat 255))) := by
  rcases le_or_gt n' 127 with hl' | hl'
  · obtain ⟨V, q, hq, V0, dV, d⟩ := hlg_low hf h1 (by omega : n ≤ 127)
    obtain ⟨W, q', hq', W0, dW, d'⟩ := hlg_low hf' (by omega : 1 ≤ n') hl'
    obtain ⟨-, hVW⟩ := sample_apart h1 hlt dV dW
    obtain ⟨star, low⟩ := power_apart h1 hlt h255 V0 hVW (le_refl 2)
    have ev : (V : ℝ) ^ (2 : ℝ) = (V : ℝ) ^ 2 := by rw [← Real.rpow_natCast]; norm_num
    have ew : (W : ℝ) ^ (2 : ℝ) = (W : ℝ) ^ 2 := by rw [← Real.rpow_natCast]; norm_num
    have hn' : (n' : ℝ) ≤ 127 := by exact_mod_cast hl'
    have W1 : (W : ℝ) ≤ 1 := by
      have := (abs_le.mp dW).2
      norm_num at this; linarith
    have W2 : (W : ℝ) ^ 2 ≤ 1 := pow_le_one₀ (by linarith) W1
    have V2 : (1 / 65536 : ℝ) ≤ (V : ℝ) ^ 2 := by
      have := pow_le_pow_left₀ (by norm_num) V0 2
      norm_num at this ⊢; linarith
    rw [ev, ew] at star low
    refine ⟨q, q', hq, hq', brighter_rel h1 hlt h255 d d' (by norm_num at V2 ⊢; linarith) (by norm_num; linarith) (by linarith) fun h => ?_⟩
    have : n ≤ 10 := by
      by_contra hc
      have hn : (11 : ℝ) ≤ n := by
        have : 11 ≤ n := by omega
        exact_mod_cast this
      have h3 : 43 / 1000 ≤ (V : ℝ) := by
        have := (abs_le.mp dV).1
        norm_num at this; linarith
      have := pow_le_pow_left₀ (by norm_num) h3 2
      norm_num at this h; linarith
    have := low this
    norm_num at this ⊢; linarith
  · obtain ⟨b, -, b1⟩ := light_app hf' he (t := .BT2100HLG) nofun (n := n') h255
    obtain ⟨q', hq', dq'⟩ := b.is
    have s128 := hlg_star he (le_refl 128) hl'
    have b128 := hlg_128 he
    have hn' : (128 : ℝ) ≤ n' := by exact_mod_cast hl'
    have big : 839 / 10 ^ 4 ≤ decodeTransfer rr .BT2100HLG ((n' : ℝ) / 255) := by
      have h3 : decodeTransfer rr .BT2100HLG (((128 : ℕ) : ℝ) / 255) * ((128 : ℕ) : ℝ) ≤
          decodeTransfer rr .BT2100HLG (((128 : ℕ) : ℝ) / 255) * n' :=
        mul_le_mul_of_nonneg_left (by push_cast; exact hn') (by norm_num at b128 ⊢; linarith)
      norm_num at h3 s128 b128 ⊢
      linarith
    have slope : 839 / 10 ^ 4 * (n' : ℝ) ≤ decodeTransfer rr .BT2100HLG ((n' : ℝ) / 255) * 128 := by
      have := mul_le_mul_of_nonneg_right b128 (show (0 : ℝ) ≤ n' by linarith)
      norm_num at this s128 ⊢; linarith
    have dq2 : |(q' : ℝ) - decodeTransfer rr .BT2100HLG ((n' : ℝ) / 255)| ≤ 4 / 10 ^ 5 * decodeTransfer rr .BT2100HLG ((n' : ℝ) / 255) := by
      refine dq'.trans ?_
      norm_num at big ⊢; linarith
    rcases le_or_gt n 127 with hl | hl
    · obtain ⟨V, q, hq, V0, dV, d⟩ := hlg_low hf h1 hl
      have V2 : (1 / 65536 : ℝ) ≤ (V : ℝ) ^ 2 := by
        have := pow_le_pow_left₀ (by norm_num) V0 2
        norm_num at this ⊢; linarith
      have hn1 : (1 : ℝ) ≤ n := by exact_mod_cast h1
      have hn : (n : ℝ) ≤ 127 := by exact_mod_cast hl
      have V3 : (V : ℝ) ≤ 1000001 / 10 ^ 6 * (n / 255) := by
        have := (abs_le.mp dV).2
        norm_num at this ⊢; linarith
      have V4 : (V : ℝ) ≤ 4981 / 10 ^ 4 := by norm_num at V3 ⊢; linarith
      have V5 : (V : ℝ) ^ 2 ≤ 4981 / 10 ^ 4 * (1000001 / 10 ^ 6 * (n / 255)) := by
        rw [pow_two]; exact mul_le_mul V4 V3 (by linarith) (by norm_num)
      have V6 := mul_le_mul_of_nonneg_right V5 (show (0 : ℝ) ≤ n' by linarith)
      have V7 := mul_le_mul_of_nonneg_right slope (show (0 : ℝ) ≤ n by linarith)
      refine ⟨q, q', hq, hq', brighter_rel h1 hlt h255 d dq2 (by norm_num at V2 ⊢; linarith) (b1.trans (by norm_num)) ?_ fun h => ?_⟩
      · have : (0 : ℝ) ≤ n * n' := by positivity
        generalize decodeTransfer rr .BT2100HLG ((n' : ℝ) / 255) = D at *
        norm_num at V6 V7 ⊢
        linarith
      · norm_num at h big ⊢; linarith
    · obtain ⟨a, -, -⟩ := light_app hf he (t := .BT2100HLG) nofun (n := n) (by omega)
      obtain ⟨q, hq, dq⟩ := a.is
      have s1 := hlg_star he (le_refl 128) hl
      have hn : (128 : ℝ) ≤ n := by exact_mod_cast hl
      have hn3 : (n : ℝ) ≤ 254 := by
        have : n ≤ 254 := by omega
        exact_mod_cast this
      have hg : 839 / 10 ^ 4 * (n : ℝ) ≤ decodeTransfer rr .BT2100HLG ((n : ℝ) / 255) * 128 := by
        have := mul_le_mul_of_nonneg_right b128 (show (0 : ℝ) ≤ n by linarith)
        norm_num at this s1 ⊢; linarith
      exact ⟨q, q', hq, hq', brighter_abs h1 hlt h255 dq dq' (by norm_num at hg ⊢; linarith) (b1.trans (by norm_num)) (hlg_star he hl hlt.le)⟩

include he hf hf' in
/-- The lights of two greys, whatever the transfer function. -/
theorem lights_brighter (t : ColorTransfer) {n n' : Nat} (h1 : 1 ≤ n) (hlt : n < n') (h255 : n' ≤ 255) :
    BrighterLights (decodeTransfer ar t (ar.div (FOps.ofNat n) (FOps.ofNat 255)))
      (decodeTransfer ar' t (ar'.div (FOps.ofNat n') (FOps.ofNat 255))) := by
  cases t with
  | Linear => exact lights_abs he hf hf' (t := .Linear) nofun h1 hlt h255 (star_linear he)
  | Gamma22 => exact lights_power hf hf' is_22 (by norm_num) (by norm_num) h1 hlt h255
  | Gamma28 => exact lights_power hf hf' is_28 (by norm_num) (by norm_num) h1 hlt h255
  | SRGB => exact lights_abs he hf hf' (t := .SRGB) nofun h1 hlt h255 (star_srgb he hlt.le)
  | SDR => exact lights_abs he hf hf' (t := .SDR) nofun h1 hlt h255 (star_sdr he hlt.le)
  | BT2100PQ => exact lights_pq he hf hf' h1 hlt h255
  | BT2100HLG => exact lights_hlg he hf hf' h1 hlt h255

end
end Ezk

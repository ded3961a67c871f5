import Verif.Proofs.IctcpEncode

/-!
# ICtCp of 8-bit RGB, in binary32
-/

namespace Ezk
open F32 FOps Spec

variable {ar : Arith F32} {rr : Arith ℝ}

/-- Cone responses of a black pixel. -/
theorem cones_black (hi : IsIeee ar) (he : Exact rr) {p : C3 F32} {τ : ℝ} (τ0 : 0 ≤ τ) (τ1 : τ ≤ 1) (h1 : App p.1 0 τ) (h2 : App p.2.1 0 τ)
    (h3 : App p.2.2 0 τ) :
    let f := toLms ar (rowMul ar p ColorPrimaries.BT2020.rgbToXyzMat)
    ∃ L M N : ℚ, Is f.1 L ∧ Is f.2.1 M ∧ Is f.2.2 N ∧ |(L : ℝ)| ≤ 11 / 10 * τ + 1 / 10 ^ 36 ∧ |(M : ℝ)| ≤ 11 / 10 * τ + 1 / 10 ^ 36 ∧
      |(N : ℝ)| ≤ 11 / 10 * τ + 1 / 10 ^ 36 := by
  intro f
  obtain ⟨R, iR, dR⟩ := h1.is
  obtain ⟨G, iG, dG⟩ := h2.is
  obtain ⟨B, iB, dB⟩ := h3.is
  obtain ⟨L, M, N, iL, iM, iN, dL, dM, dN⟩ := lms_round hi he iR iG iB (by simpa using dR) (by simpa using dG) (by simpa using dB) (by linarith)
  obtain ⟨e1, e2, e3⟩ := lms_light (ρ := 0) (τ := τ) he le_rfl le_rfl le_rfl le_rfl τ0 (by simpa using dR) (by simpa using dG) (by simpa using dB)
  rw [lms_zero] at e1 e2 e3
  simp only [mul_zero, zero_add, sub_zero] at e1 e2 e3
  refine ⟨L, M, N, iL, iM, iN, ?_⟩
  have key : ∀ {X : ℚ} {c : ℝ}, |(X : ℝ) - c| ≤ 12 / 10 ^ 7 * τ + 1 / 10 ^ 36 → |c| ≤ 1001 / 1000 * τ → |(X : ℝ)| ≤ 11 / 10 * τ + 1 / 10 ^ 36 := by
    intro X c d1 d2
    have := abs_sub_abs_le_abs_sub (X : ℝ) c
    norm_num at *
    linarith
  exact ⟨key dL e1, key dM e2, key dN e3⟩

/-- The PQ signal of hardly any light. -/
theorem enc_pq_dark (he : Exact rr) {x : ℝ} (h : x ≤ 3 / 10 ^ 10) : 0 ≤ encodeTransfer rr .BT2100PQ x ∧ encodeTransfer rr .BT2100PQ x ≤ 1 / 10 ^ 5 := by
  rw [enc_pqF he]
  have m0 : 0 ≤ max x 0 := le_max_right _ _
  have m1 : max x 0 ≤ 3 / 10 ^ 10 := max_le h (by norm_num)
  generalize max x 0 = v at *
  have t0 : 0 ≤ (v / 10000) ^ (0.15930176 : ℝ) := Real.rpow_nonneg (by linarith) _
  have t1 : (v / 10000) ^ (0.15930176 : ℝ) ≤ 75 / 10000 := by
    refine (Real.rpow_le_rpow (by linarith) (show v / 10000 ≤ 3 / 10 ^ 14 by norm_num at *; linarith) (by norm_num)).trans ?_
    refine (Real.rpow_le_rpow_of_exponent_ge (by norm_num) (by norm_num) (show (7 / 44 : ℝ) ≤ 0.15930176 by norm_num)).trans ?_
    exact ((rpow_lt_iff (m := 7) (n := 44) (by norm_num) (by norm_num) (by norm_num) (by norm_num)).mpr (by norm_num)).le
  generalize (v / 10000) ^ (0.15930176 : ℝ) = t at *
  have f0 : 0 ≤ pqF t := by unfold pqF; positivity
  have f1 : pqF t ≤ 86 / 100 := by
    unfold pqF; rw [div_le_iff₀ (by positivity)]; norm_num; linarith
  refine ⟨Real.rpow_nonneg f0 _, (Real.rpow_le_rpow f0 f1 (by norm_num)).trans ?_⟩
  refine (Real.rpow_le_rpow_of_exponent_ge (by norm_num) (by norm_num) (show ((78 : ℕ) : ℝ) ≤ 78.84375 by norm_num)).trans ?_
  rw [Real.rpow_natCast]
  norm_num

/-- The PQ signal of a black pixel. -/
theorem sig_pq_black (he : Exact rr) (hf : Floats ar) {x : F32} {X : ℚ} (hx : Is x X) (hg : Good x) (h : |(X : ℝ)| ≤ 3 / 10 ^ 10) :
    App (encodeTransfer ar .BT2100PQ x) (Standard.toSignal .BT2100PQ 0) (18 / 10 ^ 5) := by
  have h1 := (abs_le.mp h).2
  have a := enc_pq_wide he hf hx hg (by
    have : (X : ℝ) ≤ ((10020 : ℚ) : ℝ) := h1.trans (by norm_num)
    exact_mod_cast this)
  obtain ⟨u0, u1⟩ := enc_pq_dark he h1
  obtain ⟨v0, v1⟩ := enc_pq_dark he (x := 0) (by norm_num)
  have s := std_enc_pq he (x := 0) le_rfl (by norm_num)
  have d : |encodeTransfer rr .BT2100PQ (X : ℝ) - Standard.toSignal .BT2100PQ 0| ≤ 2 / 10 ^ 5 := by
    rw [abs_le] at *
    obtain ⟨s1, s2⟩ := s
    norm_num at *
    constructor <;> linarith
  refine (a.shift d).mono (by norm_num)

/-- The PQ signal of a cone response. -/
theorem sig_pq (he : Exact rr) (hf : Floats ar) {x : F32} {X : ℚ} {s : ℝ} (hx : Is x X) (hg : Good x) (s0 : 0 ≤ s) (s1 : s ≤ 10000)
    (h : |(X : ℝ) - s| ≤ 1007 / 10 ^ 6 * s) :
    App (encodeTransfer ar .BT2100PQ x) (Standard.toSignal .BT2100PQ s) (18 / 10 ^ 5) := by
  have h1 := (abs_le.mp h).2
  have a := enc_pq_wide he hf hx hg (by
    have : (X : ℝ) ≤ ((10020 : ℚ) : ℝ) := by norm_num at *; linarith
    exact_mod_cast this)
  have d := pq_rel_std he s0 s1 h (by norm_num) (by norm_num)
  exact (a.shift d).mono (by norm_num)

/-- The HLG signal of a cone response. -/
theorem sig_hlg (he : Exact rr) (hf : Floats ar) {x : F32} {X : ℚ} {s : ℝ} (hx : Is x X) (hg : Good x) (s0 : 0 ≤ s) (s1 : s ≤ 1002 / 1000)
    (h : |(X : ℝ) - s| ≤ 441 / 10 ^ 6 * s) :
    App (encodeTransfer ar .BT2100HLG x) (Standard.toSignal .BT2100HLG s) (12 / 10 ^ 5) := by
  have h1 := (abs_le.mp h).2
  have a := enc_hlg_wide he hf hx hg (by
    have : (X : ℝ) ≤ ((2 : ℚ) : ℝ) := by norm_num at *; linarith
    exact_mod_cast this)
  have d := hlg_rel_std he s0 h (by norm_num) (by norm_num)
  exact (a.shift d).mono (by norm_num)

/-- The HLG signal of a black pixel. -/
theorem sig_hlg_black (he : Exact rr) (hf : Floats ar) {x : F32} {X : ℚ} (hx : Is x X) (hg : Good x) (h : |(X : ℝ)| ≤ 1 / 10 ^ 30) :
    App (encodeTransfer ar .BT2100HLG x) (Standard.toSignal .BT2100HLG 0) (12 / 10 ^ 5) := by
  have h1 := (abs_le.mp h).2
  have a := enc_hlg_wide he hf hx hg (by
    have : (X : ℝ) ≤ ((2 : ℚ) : ℝ) := h1.trans (by norm_num)
    exact_mod_cast this)
  have d : |encodeTransfer rr .BT2100HLG (X : ℝ) - Standard.toSignal .BT2100HLG 0| ≤ 1 / 10 ^ 10 := by
    rw [enc_hlg he]
    have m0 : 0 ≤ max (X : ℝ) 0 := le_max_right _ _
    have m1 : max (X : ℝ) 0 ≤ 1 / 10 ^ 30 := max_le h1 (by norm_num)
    generalize max (X : ℝ) 0 = v at *
    rw [if_pos (m1.trans (by norm_num))]
    simp only [Standard.toSignal]
    rw [if_pos (by norm_num), mul_zero, Real.sqrt_zero, sub_zero, abs_of_nonneg (Real.sqrt_nonneg _)]
    refine Real.sqrt_le_iff.mpr ⟨by norm_num, ?_⟩
    norm_num at *
    linarith
  exact (a.shift d).mono (by norm_num)

/-- The PQ signals of the cone responses of a pixel. -/
theorem cones_pq (he : Exact rr) (hf : Floats ar) {r g b : Nat} (hr : r ≤ 255) (hg : g ≤ 255) (hb : b ≤ 255) :
    App (encodeTransfer ar .BT2100PQ (cones ar .BT2100PQ r g b).1) (Standard.toSignal .BT2100PQ (stdCones .BT2100PQ r g b).1) (18 / 10 ^ 5) ∧
    App (encodeTransfer ar .BT2100PQ (cones ar .BT2100PQ r g b).2.1) (Standard.toSignal .BT2100PQ (stdCones .BT2100PQ r g b).2.1) (18 / 10 ^ 5) ∧
    App (encodeTransfer ar .BT2100PQ (cones ar .BT2100PQ r g b).2.2) (Standard.toSignal .BT2100PQ (stdCones .BT2100PQ r g b).2.2) (18 / 10 ^ 5) := by
  obtain ⟨g1, g2, g3⟩ := good_cones (ar := ar) hf.toIsIeee .BT2100PQ r g b
  by_cases hn : r = 0 ∧ g = 0 ∧ b = 0
  · obtain ⟨rfl, rfl, rfl⟩ := hn
    obtain ⟨a1, -⟩ := light_pq_std he hf hr
    have e0 : stdCones .BT2100PQ 0 0 0 = (0, 0, 0) := by
      simp only [stdCones, Nat.cast_zero, zero_div, std_dec_pq_zero, lms_zero]
    rw [e0]
    simp only [Nat.cast_zero, zero_div, std_dec_pq_zero, mul_zero, zero_add] at a1
    obtain ⟨L, M, N, iL, iM, iN, dL, dM, dN⟩ := cones_black (p := (_, _, _)) hf.toIsIeee he (by norm_num) (by norm_num) a1 a1 a1
    exact ⟨sig_pq_black he hf iL g1 (dL.trans (by norm_num)), sig_pq_black he hf iM g2 (dM.trans (by norm_num)),
      sig_pq_black he hf iN g3 (dN.trans (by norm_num))⟩
  · obtain ⟨L, M, N, iL, iM, iN, dL, dM, dN, k1, k2, k3⟩ := cones_pq_near he hf hr hg hb hn
    exact ⟨sig_pq he hf iL g1 k1.1 k1.2 dL, sig_pq he hf iM g2 k2.1 k2.2 dM, sig_pq he hf iN g3 k3.1 k3.2 dN⟩

/-- The HLG signals of the cone responses of a pixel. -/
theorem cones_hlg (he : Exact rr) (hf : Floats ar) {r g b : Nat} (hr : r ≤ 255) (hg : g ≤ 255) (hb : b ≤ 255) :
    App (encodeTransfer ar .BT2100HLG (cones ar .BT2100HLG r g b).1) (Standard.toSignal .BT2100HLG (stdCones .BT2100HLG r g b).1) (12 / 10 ^ 5) ∧
    App (encodeTransfer ar .BT2100HLG (cones ar .BT2100HLG r g b).2.1) (Standard.toSignal .BT2100HLG (stdCones .BT2100HLG r g b).2.1) (12 / 10 ^ 5) ∧
    App (encodeTransfer ar .BT2100HLG (cones ar .BT2100HLG r g b).2.2) (Standard.toSignal .BT2100HLG (stdCones .BT2100HLG r g b).2.2) (12 / 10 ^ 5) := by
  obtain ⟨g1, g2, g3⟩ := good_cones (ar := ar) hf.toIsIeee .BT2100HLG r g b
  by_cases hn : r = 0 ∧ g = 0 ∧ b = 0
  · obtain ⟨rfl, rfl, rfl⟩ := hn
    obtain ⟨a1, -⟩ := light_hlg_std he hf hr
    have z : Standard.toLight .BT2100HLG 0 = 0 := by simp [Standard.toLight]
    have e0 : stdCones .BT2100HLG 0 0 0 = (0, 0, 0) := by
      simp only [stdCones, Nat.cast_zero, zero_div, z, lms_zero]
    rw [e0]
    simp only [Nat.cast_zero, zero_div, z, mul_zero, zero_add] at a1
    obtain ⟨L, M, N, iL, iM, iN, dL, dM, dN⟩ := cones_black (p := (_, _, _)) hf.toIsIeee he (by norm_num) (by norm_num) a1 a1 a1
    exact ⟨sig_hlg_black he hf iL g1 (dL.trans (by norm_num)), sig_hlg_black he hf iM g2 (dM.trans (by norm_num)),
      sig_hlg_black he hf iN g3 (dN.trans (by norm_num))⟩
  · obtain ⟨L, M, N, iL, iM, iN, dL, dM, dN, k1, k2, k3⟩ := cones_hlg_near he hf hr hg hb hn
    exact ⟨sig_hlg he hf iL g1 k1.1 k1.2 dL, sig_hlg he hf iM g2 k2.1 k2.2 dM, sig_hlg he hf iN g3 k3.1 k3.2 dN⟩

/-! ## Signals of the standards -/

theorem toSignal_pq_unit {s : ℝ} (h0 : 0 ≤ s) (h1 : s ≤ 10000) :
    0 ≤ Standard.toSignal .BT2100PQ s ∧ Standard.toSignal .BT2100PQ s ≤ 1 := by
  simp only [Standard.toSignal]
  have t0 : 0 ≤ (s / 10000) ^ Standard.m1 := Real.rpow_nonneg (by linarith) _
  have t1 : (s / 10000) ^ Standard.m1 ≤ 1 := Real.rpow_le_one (by linarith) (by linarith) (by unfold Standard.m1; norm_num)
  generalize (s / 10000) ^ Standard.m1 = t at *
  have e1 : Standard.c1 = 0.8359375 := by unfold Standard.c1; norm_num
  have e2 : Standard.c2 = 18.8515625 := by unfold Standard.c2; norm_num
  have e3 : Standard.c3 = 18.6875 := by unfold Standard.c3; norm_num
  rw [e1, e2, e3]
  have q0 : 0 ≤ (0.8359375 + 18.8515625 * t) / (1 + 18.6875 * t) := by positivity
  have q1 : (0.8359375 + 18.8515625 * t) / (1 + 18.6875 * t) ≤ 1 := by
    rw [div_le_one (by positivity)]; norm_num; linarith
  exact ⟨Real.rpow_nonneg q0 _, Real.rpow_le_one q0 q1 (by unfold Standard.m2; norm_num)⟩

theorem toSignal_pq_range {s : ℝ} (h0 : 0 ≤ s) (h1 : s ≤ 10000) : |Standard.toSignal .BT2100PQ s| ≤ 11 / 10 := by
  obtain ⟨a, b⟩ := toSignal_pq_unit h0 h1
  rw [abs_of_nonneg a]
  linarith

theorem hlg_c_le : Standard.c ≤ 1 := by
  have h1 := abs_le.mp hlg_c
  have h2 := h1.2
  norm_num at h2
  linarith

/-- Nothing is brighter than the signal 1. -/
theorem toLight_hlg_le {v : ℝ} (h0 : 0 ≤ v) (h1 : v ≤ 1) :
    0 ≤ Standard.toLight .BT2100HLG v ∧ Standard.toLight .BT2100HLG v ≤ Standard.toLight .BT2100HLG 1 := by
  simp only [Standard.toLight]
  have hc := hlg_c_le
  have ha : 0 < Standard.a := by unfold Standard.a; norm_num
  have hb : 0 < Standard.b := by unfold Standard.b Standard.a; norm_num
  rw [if_neg (show ¬ (1 : ℝ) ≤ 1 / 2 by norm_num)]
  split
  · rename_i h
    have e := Real.one_le_exp (show 0 ≤ (1 - Standard.c) / Standard.a from div_nonneg (by linarith) ha.le)
    refine ⟨by positivity, ?_⟩
    nlinarith
  · refine ⟨by positivity, ?_⟩
    have := Real.exp_le_exp.mpr (show (v - Standard.c) / Standard.a ≤ (1 - Standard.c) / Standard.a by
      exact div_le_div_of_nonneg_right (by linarith) ha.le)
    linarith

theorem toSignal_hlg_unit {s : ℝ} (h0 : 0 ≤ s) (h1 : s ≤ Standard.toLight .BT2100HLG 1) :
    0 ≤ Standard.toSignal .BT2100HLG s ∧ Standard.toSignal .BT2100HLG s ≤ 1 := by
  simp only [Standard.toLight] at h1
  rw [if_neg (show ¬ (1 : ℝ) ≤ 1 / 2 by norm_num)] at h1
  simp only [Standard.toSignal]
  have ha : 0 < Standard.a := by unfold Standard.a; norm_num
  split
  · rename_i h
    refine ⟨Real.sqrt_nonneg _, Real.sqrt_le_iff.mpr ⟨by norm_num, by linarith⟩⟩
  · rename_i h
    rw [not_le] at h
    have hb : Standard.b = 1 - 4 * Standard.a := rfl
    have p1 : 4 * Standard.a < 12 * s - Standard.b := by rw [hb]; linarith
    have l1 := Real.log_le_log (by positivity) p1.le
    have l2 := Real.log_le_log (by linarith : 0 < 12 * s - Standard.b) (show 12 * s - Standard.b ≤ Real.exp ((1 - Standard.c) / Standard.a) by linarith)
    rw [Real.log_exp, le_div_iff₀ ha] at l2
    have l3 := mul_le_mul_of_nonneg_left l1 ha.le
    have hc : Standard.c = 0.5 - Standard.a * Real.log (4 * Standard.a) := rfl
    constructor
    · rw [hc]; norm_num; linarith
    · linarith

theorem toSignal_hlg_range (he : Exact rr) {s : ℝ} (h0 : 0 ≤ s) (h1 : s ≤ 1002 / 1000) : |Standard.toSignal .BT2100HLG s| ≤ 11 / 10 := by
  have a := std_enc_hlg he h0
  have b : 0 ≤ encodeTransfer rr .BT2100HLG s ∧ encodeTransfer rr .BT2100HLG s ≤ 105 / 100 := by
    rw [enc_hlg he, max_eq_left h0]
    split
    · rename_i h
      exact ⟨Real.sqrt_nonneg _, (Real.sqrt_le_sqrt (show s * 3 ≤ 1 / 4 by linarith)).trans (by
        refine Real.sqrt_le_iff.mpr ⟨by norm_num, by norm_num⟩)⟩
    · rename_i h
      rw [not_le] at h
      have p : 0 < 12 * s - 0.28466892 := by norm_num; linarith
      have u := Real.log_le_sub_one_of_pos (show 0 < (12 * s - 0.28466892) / 16 by positivity)
      rw [Real.log_div p.ne' (by norm_num), show (16 : ℝ) = 2 ^ 4 by norm_num, Real.log_pow] at u
      have l := Real.one_sub_inv_le_log_of_pos p
      have l2 := Real.log_two_lt_d9
      have i : (12 * s - 0.28466892)⁻¹ ≤ 2 := by
        rw [inv_le_comm₀ p (by norm_num)]; norm_num; linarith
      generalize Real.log (12 * s - 0.28466892) = w at *
      norm_num at *
      constructor <;> linarith
  rw [abs_le] at *
  obtain ⟨a1, a2⟩ := a
  norm_num at *
  constructor <;> linarith

/-! ## ICtCp of signals -/

theorem lit_is {q : ℚ} (h : closeTo (FOps.lit q : F32) q 0 = true) : Is (FOps.lit q : F32) q := by
  obtain ⟨A, hA, d⟩ := lit_near h
  have : (A : ℝ) = q := by
    rw [lit_real] at d
    simp only [Rat.cast_zero] at d
    have := abs_nonpos_iff.mp d
    linarith
  have e : A = q := by exact_mod_cast this
  exact e ▸ hA

/-- The matrix of the PQ system. -/
theorem ict_pq (hi : IsIeee ar) {l m s : F32} {L M S : ℝ} (hl : App l L (18 / 10 ^ 5)) (hm : App m M (18 / 10 ^ 5)) (hs : App s S (18 / 10 ^ 5))
    (bL : |L| ≤ 11 / 10) (bM : |M| ≤ 11 / 10) (bS : |S| ≤ 11 / 10) :
    App (ictcpPq ar (l, m, s)).1 (Standard.ictcpOfPq (L, M, S)).1 (181 / 10 ^ 6) ∧
    App (ictcpPq ar (l, m, s)).2.1 (Standard.ictcpOfPq (L, M, S)).2.1 (120 / 10 ^ 5) ∧
    App (ictcpPq ar (l, m, s)).2.2 (Standard.ictcpOfPq (L, M, S)).2.2 (158 / 10 ^ 5) := by
  have half : Is (FOps.lit 0.5 : F32) (1 / 2) := by
    have := lit_is (q := 0.5) (by decide +kernel); norm_num at this ⊢; exact this
  have d4096 : Is (FOps.lit 4096.0 : F32) 4096 := by
    have := lit_is (q := 4096.0) (by decide +kernel); norm_num at this ⊢; exact this
  simp only [ictcpPq, Standard.ictcpOfPq]
  rw [hi.div]
  obtain ⟨L', iL, dL⟩ := hl.is
  obtain ⟨M', iM, dM⟩ := hm.is
  obtain ⟨S', iS, dS⟩ := hs.is
  have aL := abs_le.mp bL
  have aM := abs_le.mp bM
  have aS := abs_le.mp bS
  refine ⟨?_, ?_, ?_⟩
  · rw [hi.add, hi.mul]
    have a := app_mul (A := 11 / 10) (C := 1 / 2) (B := 1) hl half.app bL (by push_cast; norm_num [abs_le]) (by norm_num) (by norm_num) (by norm_num)
    have b := app_mul (A := 11 / 10) (C := 1 / 2) (B := 1) hm half.app bM (by push_cast; norm_num [abs_le]) (by norm_num) (by norm_num) (by norm_num)
    have c := app_add (B := 2) a b (by
      have : |L * ((1 / 2 : ℚ) : ℝ) + M * ((1 / 2 : ℚ) : ℝ)| ≤ 12 / 10 := by push_cast; rw [abs_le]; constructor <;> linarith
      norm_num at this ⊢; linarith) (by norm_num) (by norm_num)
    have e : L * ((1 / 2 : ℚ) : ℝ) + M * ((1 / 2 : ℚ) : ℝ) = (L + M) / 2 := by push_cast; ring
    rw [e] at c
    exact c.mono (by norm_num)
  · have i1 : Is (FOps.lit 6610.0 : F32) 6610 := by
      have := lit_is (q := 6610.0) (by decide +kernel); norm_num at this ⊢; exact this
    have i2 : Is (FOps.lit (-13613.0) : F32) (-13613) := by
      have := lit_is (q := -13613.0) (by decide +kernel); norm_num at this ⊢; exact this
    have i3 : Is (FOps.lit 7003.0 : F32) 7003 := by
      have := lit_is (q := 7003.0) (by decide +kernel); norm_num at this ⊢; exact this
    obtain ⟨R, hR, dR⟩ := dot_near hi iL i1 iM i2 iS i3 (11 / 10) (11 / 10) (11 / 10) 6610 13613 7003 (4907 / 1000) (e := 0)
      (a' := 6610) (b' := -13613) (c' := 7003) ⟨dL, bL⟩ ⟨dM, bM⟩ ⟨dS, bS⟩ (by norm_num) (by norm_num) (by norm_num)
      (by norm_num) (by norm_num) (by norm_num) (by norm_num)
    have a := app_div_const (B := 9) (hR.app.shift dR) d4096 (by norm_num) (by
      have : |L * 6610 + M * -13613 + S * 7003| ≤ 30000 := by rw [abs_le]; constructor <;> linarith
      push_cast; rw [div_le_iff₀ (by norm_num)]; norm_num at this ⊢; linarith) (by norm_num) (by norm_num)
    have e : (L * 6610 + M * -13613 + S * 7003) / ((4096 : ℚ) : ℝ) = (6610 * L - 13613 * M + 7003 * S) / 4096 := by push_cast; ring
    rw [e] at a
    exact a.mono (by norm_num)
  · have i1 : Is (FOps.lit 17933.0 : F32) 17933 := by
      have := lit_is (q := 17933.0) (by decide +kernel); norm_num at this ⊢; exact this
    have i2 : Is (FOps.lit (-17390.0) : F32) (-17390) := by
      have := lit_is (q := -17390.0) (by decide +kernel); norm_num at this ⊢; exact this
    have i3 : Is (FOps.lit (-543.0) : F32) (-543) := by
      have := lit_is (q := -543.0) (by decide +kernel); norm_num at this ⊢; exact this
    obtain ⟨R, hR, dR⟩ := dot_near hi iL i1 iM i2 iS i3 (11 / 10) (11 / 10) (11 / 10) 17933 17390 543 (6464 / 1000) (e := 0)
      (a' := 17933) (b' := -17390) (c' := -543) ⟨dL, bL⟩ ⟨dM, bM⟩ ⟨dS, bS⟩ (by norm_num) (by norm_num) (by norm_num)
      (by norm_num) (by norm_num) (by norm_num) (by norm_num)
    have a := app_div_const (B := 11) (hR.app.shift dR) d4096 (by norm_num) (by
      have : |L * 17933 + M * -17390 + S * -543| ≤ 40000 := by rw [abs_le]; constructor <;> linarith
      push_cast; rw [div_le_iff₀ (by norm_num)]; norm_num at this ⊢; linarith) (by norm_num) (by norm_num)
    have e : (L * 17933 + M * -17390 + S * -543) / ((4096 : ℚ) : ℝ) = (17933 * L - 17390 * M - 543 * S) / 4096 := by push_cast; ring
    rw [e] at a
    exact a.mono (by norm_num)

/-- The matrix of the HLG system. -/
theorem ict_hlg (hi : IsIeee ar) {l m s : F32} {L M S : ℝ} (hl : App l L (12 / 10 ^ 5)) (hm : App m M (12 / 10 ^ 5)) (hs : App s S (12 / 10 ^ 5))
    (bL : |L| ≤ 11 / 10) (bM : |M| ≤ 11 / 10) (bS : |S| ≤ 11 / 10) :
    App (ictcpHlg ar (l, m, s)).1 (Standard.ictcpOfHlg (L, M, S)).1 (121 / 10 ^ 6) ∧
    App (ictcpHlg ar (l, m, s)).2.1 (Standard.ictcpOfHlg (L, M, S)).2.1 (44 / 10 ^ 5) ∧
    App (ictcpHlg ar (l, m, s)).2.2 (Standard.ictcpOfHlg (L, M, S)).2.2 (56 / 10 ^ 5) := by
  have half : Is (FOps.lit 0.5 : F32) (1 / 2) := by
    have := lit_is (q := 0.5) (by decide +kernel); norm_num at this ⊢; exact this
  simp only [ictcpHlg, Standard.ictcpOfHlg]
  rw [hi.add, hi.mul, hi.sub]
  have aL := abs_le.mp bL
  have aM := abs_le.mp bM
  have aS := abs_le.mp bS
  refine ⟨?_, ?_, ?_⟩
  · have a := app_add (B := 3) hl hm (by
      have : |L + M| ≤ 22 / 10 := by rw [abs_le]; constructor <;> linarith
      norm_num at this ⊢; linarith) (by norm_num) (by norm_num)
    have b := app_mul (A := 22 / 10) (C := 1 / 2) (B := 2) a half.app (by rw [abs_le]; constructor <;> linarith)
      (by push_cast; norm_num [abs_le]) (by norm_num) (by norm_num) (by norm_num)
    have e : (L + M) * ((1 / 2 : ℚ) : ℝ) = (L + M) / 2 := by push_cast; ring
    rw [e] at b
    exact b.mono (by norm_num)
  · have c1 : App (FOps.lit 0.88500977 : F32) (3625 / 4096) (1 / 10 ^ 7) := by
      have := app_const (q := 3625 / 4096) (d := 1 / 10 ^ 7) (x := FOps.lit 0.88500977) (by decide +kernel) rfl le_rfl
      push_cast at this; exact this
    have c2 : App (FOps.lit 1.8225098 : F32) (7465 / 4096) (1 / 10 ^ 7) := by
      have := app_const (q := 7465 / 4096) (d := 1 / 10 ^ 7) (x := FOps.lit 1.8225098) (by decide +kernel) rfl le_rfl
      push_cast at this; exact this
    have c3 : App (FOps.lit 0.9375 : F32) (3840 / 4096) (1 / 10 ^ 7) := by
      have := app_const (q := 3840 / 4096) (d := 1 / 10 ^ 7) (x := FOps.lit 0.9375) (by decide +kernel) rfl le_rfl
      push_cast at this; exact this
    have m1 := app_mul (A := 11 / 10) (C := 3625 / 4096) (B := 1) hl c1 bL (by norm_num [abs_le]) (by norm_num) (by norm_num) (by norm_num)
    have m2 := app_mul (A := 11 / 10) (C := 7465 / 4096) (B := 3) hm c2 bM (by norm_num [abs_le]) (by norm_num) (by norm_num) (by norm_num)
    have m3 := app_mul (A := 11 / 10) (C := 3840 / 4096) (B := 2) hs c3 bS (by norm_num [abs_le]) (by norm_num) (by norm_num) (by norm_num)
    have s1 := app_sub (B := 4) m1 m2 (by
      have : |L * (3625 / 4096) - M * (7465 / 4096)| ≤ 3 := by rw [abs_le]; constructor <;> linarith
      norm_num at this ⊢; linarith) (by norm_num) (by norm_num)
    have s2 := app_add (B := 5) s1 m3 (by
      have : |L * (3625 / 4096) - M * (7465 / 4096) + S * (3840 / 4096)| ≤ 45 / 10 := by rw [abs_le]; constructor <;> linarith
      norm_num at this ⊢; linarith) (by norm_num) (by norm_num)
    have e : L * (3625 / 4096) - M * (7465 / 4096) + S * (3840 / 4096) = (3625 * L - 7465 * M + 3840 * S) / 4096 := by ring
    rw [e] at s2
    exact s2.mono (by norm_num)
  · have c1 : App (FOps.lit 2.319336 : F32) (9500 / 4096) (3 / 10 ^ 7) := by
      have := app_const (q := 9500 / 4096) (d := 3 / 10 ^ 7) (x := FOps.lit 2.319336) (by decide +kernel) rfl le_rfl
      push_cast at this; exact this
    have c2 : App (FOps.lit 2.2490234 : F32) (9212 / 4096) (3 / 10 ^ 7) := by
      have := app_const (q := 9212 / 4096) (d := 3 / 10 ^ 7) (x := FOps.lit 2.2490234) (by decide +kernel) rfl le_rfl
      push_cast at this; exact this
    have c3 : App (FOps.lit 0.0703125 : F32) (288 / 4096) (1 / 10 ^ 7) := by
      have := app_const (q := 288 / 4096) (d := 1 / 10 ^ 7) (x := FOps.lit 0.0703125) (by decide +kernel) rfl le_rfl
      push_cast at this; exact this
    have m1 := app_mul (A := 11 / 10) (C := 9500 / 4096) (B := 3) hl c1 bL (by norm_num [abs_le]) (by norm_num) (by norm_num) (by norm_num)
    have m2 := app_mul (A := 11 / 10) (C := 9212 / 4096) (B := 3) hm c2 bM (by norm_num [abs_le]) (by norm_num) (by norm_num) (by norm_num)
    have m3 := app_mul (A := 11 / 10) (C := 288 / 4096) (B := 1) hs c3 bS (by norm_num [abs_le]) (by norm_num) (by norm_num) (by norm_num)
    have s1 := app_sub (B := 6) m1 m2 (by
      have : |L * (9500 / 4096) - M * (9212 / 4096)| ≤ 5.5 := by rw [abs_le]; constructor <;> linarith
      norm_num at this ⊢; linarith) (by norm_num) (by norm_num)
    have s2 := app_sub (B := 6) s1 m3 (by
      have : |L * (9500 / 4096) - M * (9212 / 4096) - S * (288 / 4096)| ≤ 5.8 := by rw [abs_le]; constructor <;> linarith
      norm_num at this ⊢; linarith) (by norm_num) (by norm_num)
    have e : L * (9500 / 4096) - M * (9212 / 4096) - S * (288 / 4096) = (9500 * L - 9212 * M - 288 * S) / 4096 := by ring
    rw [e] at s2
    exact s2.mono (by norm_num)

/-- ICtCp of a pixel of a PQ image. -/
theorem pixel_pq (he : Exact rr) (hf : Floats ar) {r g b : Nat} (hr : r ≤ 255) (hg : g ≤ 255) (hb : b ≤ 255) :
    let v := rgbToYuv ar .ICtCpPQ .BT2100PQ .BT2020 (ar.div (FOps.ofNat r) (FOps.ofNat 255), ar.div (FOps.ofNat g) (FOps.ofNat 255),
      ar.div (FOps.ofNat b) (FOps.ofNat 255))
    let s := Standard.ictcpPq (Standard.toLight .BT2100PQ ((r : ℝ) / 255), Standard.toLight .BT2100PQ ((g : ℝ) / 255),
      Standard.toLight .BT2100PQ ((b : ℝ) / 255))
    App v.1 s.1 (181 / 10 ^ 6) ∧ App v.2.1 s.2.1 (120 / 10 ^ 5) ∧ App v.2.2 s.2.2 (158 / 10 ^ 5) := by
  obtain ⟨h1, h2, h3⟩ := cones_pq he hf hr hg hb
  obtain ⟨-, l1, u1, -⟩ := light_pq_std he hf hr
  obtain ⟨-, l2, u2, -⟩ := light_pq_std he hf hg
  obtain ⟨-, l3, u3, -⟩ := light_pq_std he hf hb
  obtain ⟨⟨a1, b1⟩, ⟨a2, b2⟩, a3, b3⟩ := lms_range l1 l2 l3 u1 u2 u3
  exact ict_pq hf.toIsIeee h1 h2 h3 (toSignal_pq_range a1 b1) (toSignal_pq_range a2 b2) (toSignal_pq_range a3 b3)

/-- ICtCp of a pixel of an HLG image. -/
theorem pixel_hlg (he : Exact rr) (hf : Floats ar) {r g b : Nat} (hr : r ≤ 255) (hg : g ≤ 255) (hb : b ≤ 255) :
    let v := rgbToYuv ar .ICtCpHLG .BT2100HLG .BT2020 (ar.div (FOps.ofNat r) (FOps.ofNat 255), ar.div (FOps.ofNat g) (FOps.ofNat 255),
      ar.div (FOps.ofNat b) (FOps.ofNat 255))
    let s := Standard.ictcpHlg (Standard.toLight .BT2100HLG ((r : ℝ) / 255), Standard.toLight .BT2100HLG ((g : ℝ) / 255),
      Standard.toLight .BT2100HLG ((b : ℝ) / 255))
    App v.1 s.1 (121 / 10 ^ 6) ∧ App v.2.1 s.2.1 (44 / 10 ^ 5) ∧ App v.2.2 s.2.2 (56 / 10 ^ 5) := by
  obtain ⟨h1, h2, h3⟩ := cones_hlg he hf hr hg hb
  obtain ⟨-, l1, u1, -⟩ := light_hlg_std he hf hr
  obtain ⟨-, l2, u2, -⟩ := light_hlg_std he hf hg
  obtain ⟨-, l3, u3, -⟩ := light_hlg_std he hf hb
  obtain ⟨⟨a1, b1⟩, ⟨a2, b2⟩, a3, b3⟩ := lms_range l1 l2 l3 u1 u2 u3
  exact ict_hlg hf.toIsIeee h1 h2 h3 (toSignal_hlg_range he a1 b1) (toSignal_hlg_range he a2 b2) (toSignal_hlg_range he a3 b3)

end Ezk

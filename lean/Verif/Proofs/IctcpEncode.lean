import Verif.Proofs.IctcpLight

/-!
# Signals of cone responses, in binary32
-/

namespace Ezk
open F32 FOps Spec

variable {ar : Arith F32} {rr : Arith ℝ}

/-- How the PQ curve moves at its upper end. -/
theorem pqF_top {y z : ℝ} (y0 : 99 / 100 ≤ y) (z0 : 99 / 100 ≤ z) (z1 : z ≤ 1002 / 1000) (y1 : y ≤ 1002 / 1000) (h : |y - z| ≤ 2 / 10 ^ 6) :
    |pqF y ^ (78.84375 : ℝ) - pqF z ^ (78.84375 : ℝ)| ≤ 2 / 10 ^ 6 := by
  have p1 : 0 < y * 18.6875 + 1 := by positivity
  have p2 : 0 < z * 18.6875 + 1 := by positivity
  have e : pqF y - pqF z = (y - z) * (18.851563 - 0.8359375 * 18.6875) / ((y * 18.6875 + 1) * (z * 18.6875 + 1)) := by
    unfold pqF; field_simp; ring
  have F0 : 99 / 100 ≤ pqF z := by unfold pqF; rw [le_div_iff₀ p2]; norm_num; linarith
  have F0' : 99 / 100 ≤ pqF y := by unfold pqF; rw [le_div_iff₀ p1]; norm_num; linarith
  have F1 : pqF z ≤ 1 + 5 / 10 ^ 5 := by unfold pqF; rw [div_le_iff₀ p2]; norm_num; linarith
  have d : |pqF y - pqF z| ≤ 2 / 10 ^ 8 * pqF z := by
    rw [e, abs_div, abs_of_pos (by positivity : 0 < (y * 18.6875 + 1) * (z * 18.6875 + 1)), div_le_iff₀ (by positivity), abs_mul]
    have q : 380 ≤ (y * 18.6875 + 1) * (z * 18.6875 + 1) := by nlinarith
    have q2 : (2 / 10 ^ 8 * (99 / 100)) * 380 ≤ 2 / 10 ^ 8 * pqF z * ((y * 18.6875 + 1) * (z * 18.6875 + 1)) :=
      mul_le_mul (mul_le_mul_of_nonneg_left F0 (by norm_num)) q (by norm_num) (by positivity)
    refine le_trans ?_ q2
    rw [abs_of_pos (by norm_num : (0 : ℝ) < 18.851563 - 0.8359375 * 18.6875)]
    norm_num at h ⊢
    linarith
  have Fp : 0 < pqF z := by linarith
  have Fp' : 0 < pqF y := by linarith
  have r := rpow_rel (M := 78.84375) Fp Fp' (by norm_num) (by norm_num) d
  have W : pqF z ^ (78.84375 : ℝ) ≤ 11 / 10 := by
    calc pqF z ^ (78.84375 : ℝ) ≤ (1 + 5 / 10 ^ 5) ^ (78.84375 : ℝ) := Real.rpow_le_rpow Fp.le F1 (by norm_num)
      _ ≤ (1 + 5 / 10 ^ 5) ^ ((79 : ℕ) : ℝ) := Real.rpow_le_rpow_of_exponent_le (by norm_num) (by norm_num)
      _ = (1 + 5 / 10 ^ 5) ^ (79 : ℕ) := Real.rpow_natCast _ _
      _ ≤ _ := by norm_num
  refine r.trans ?_
  norm_num at W ⊢
  linarith

/-- The PQ encoder for light slightly beyond the brightest. -/
theorem pq_top (he : Exact rr) (hf : Floats ar) {x : F32} {X : ℚ} (hx : Is x X) (hg : Good x) (h0 : 10000 ≤ X) (h1 : X ≤ 10020) :
    App (encodeTransfer ar .BT2100PQ x) (encodeTransfer rr .BT2100PQ X) (5 / 10 ^ 5) := by
  have h0r : (10000 : ℝ) ≤ X := by exact_mod_cast h0
  have h1r : (X : ℝ) ≤ 10020 := by exact_mod_cast h1
  rw [enc_pqF he, max_eq_left (by linarith)]
  simp only [encodeTransfer, pqEncode]
  obtain ⟨hm, hgm⟩ := max_is hf hx hg
  rw [max_eq_left (by linarith)] at hm
  generalize ar.max x (FOps.lit 0.0) = m at *
  obtain ⟨c, hc, hce⟩ := F32.is_div hm is_pqL (by norm_num) (by
    rw [abs_of_nonneg (by linarith)]; linarith)
  have hgd : Good (F32.div m Pq.L) := good_div hgm (good_lit _)
  set l : ℝ := (X : ℝ) / 10000 with hl
  have l0 : 1 ≤ l := by rw [hl]; linarith
  have l1 : l ≤ 1002 / 1000 := by rw [hl]; linarith
  have hcr := err_real hce (B := 1002 / 1000) (by push_cast; rw [abs_of_nonneg (by linarith)]; exact l1)
  push_cast at hcr
  rw [← hl] at hcr
  have cl : |(c : ℝ) - l| ≤ 7 / 10 ^ 8 * l := hcr.trans (by norm_num; linarith)
  rw [abs_le] at hcr
  obtain ⟨hc1, hc2⟩ := hcr
  norm_num at hc1 hc2
  have cp : (0 : ℝ) < c := by linarith
  obtain ⟨Y, hY, hcase⟩ := pow_any hf hc hgd (by exact_mod_cast cp.le) (by
    have : (c : ℝ) ≤ ((2 : ℚ) : ℝ) := by push_cast; linarith
    exact_mod_cast this) is_pqM1 (by norm_num) (by norm_num)
  rw [hf.div]
  generalize ar.pow (F32.div m Pq.L) Pq.M1 = y at *
  have eM : (((1305 / 8192 : ℚ)) : ℝ) = 1305 / 8192 := by push_cast; rfl
  rw [eM] at hcase
  -- the root
  have r1 := rpow_rel_root (by linarith : 0 < l) cp (M := 1305 / 8192) (by norm_num) (by norm_num) cl
  have w0 : 1 ≤ l ^ (1305 / 8192 : ℝ) := Real.one_le_rpow l0 (by norm_num)
  have w1 : l ^ (1305 / 8192 : ℝ) ≤ 1 + 1305 / 8192 * (2 / 1000) := by
    refine (Real.rpow_le_rpow (by linarith) l1 (by norm_num)).trans ?_
    have := rpow_one_add_le_one_add_mul_self (s := 2 / 1000) (p := 1305 / 8192) (by norm_num) (by norm_num) (by norm_num)
    refine le_trans (le_of_eq ?_) this
    norm_num
  have ex : l ^ (0.15930176 : ℝ) = l ^ (1305 / 8192 : ℝ) * l ^ (0.15930176 - 1305 / 8192 : ℝ) := by
    rw [← Real.rpow_add (by linarith)]; congr 1; ring
  have s0 : 1 ≤ l ^ (0.15930176 - 1305 / 8192 : ℝ) := Real.one_le_rpow l0 (by norm_num)
  have s1 : l ^ (0.15930176 - 1305 / 8192 : ℝ) ≤ 1 + 1 / 10 ^ 10 := by
    refine (Real.rpow_le_rpow (by linarith) l1 (by norm_num)).trans ?_
    have := rpow_one_add_le_one_add_mul_self (s := 2 / 1000) (p := 0.15930176 - 1305 / 8192) (by norm_num) (by norm_num) (by norm_num)
    rw [show (1002 / 1000 : ℝ) = 1 + 2 / 1000 by norm_num]
    exact this.trans (by norm_num)
  have hYt : |(Y : ℝ) - l ^ (0.15930176 : ℝ)| ≤ 1 / 10 ^ 6 ∧ 1 ≤ l ^ (0.15930176 : ℝ) ∧ l ^ (0.15930176 : ℝ) ≤ 1001 / 1000 := by
    rw [ex]
    rcases hcase with ⟨-, Y0, hYe⟩ | ⟨hs, -⟩
    · have hlog : |Real.log c| ≤ 1 := by
        have l1 := Real.one_sub_inv_le_log_of_pos cp
        have l2 := Real.log_le_sub_one_of_pos cp
        have : (c : ℝ)⁻¹ ≤ 2 := by
          rw [inv_le_comm₀ cp (by norm_num)]; norm_num; linarith
        rw [abs_le]; constructor <;> linarith
      have co : 43 / 10 ^ 8 + 17 / 10 ^ 8 * (1305 / 8192 : ℝ) * (1 + |Real.log c|) ≤ 5 / 10 ^ 7 := by
        norm_num; linarith
      have co2 := mul_le_mul_of_nonneg_right co (Real.rpow_nonneg cp.le (1305 / 8192 : ℝ))
      generalize (c : ℝ) ^ (1305 / 8192 : ℝ) = W at *
      generalize l ^ (1305 / 8192 : ℝ) = V at *
      generalize l ^ (0.15930176 - 1305 / 8192 : ℝ) = s at *
      have v1 := mul_le_mul_of_nonneg_left s0 (by linarith : 0 ≤ V)
      have v2 := mul_le_mul_of_nonneg_left s1 (by linarith : 0 ≤ V)
      rw [abs_le] at hYe r1
      obtain ⟨a1, a2⟩ := hYe
      obtain ⟨b1, b2⟩ := r1
      norm_num at *
      refine ⟨?_, by linarith, by linarith⟩
      rw [abs_le]
      constructor <;> linarith
    · exfalso
      have : ((c : ℚ) : ℝ) < (((2 : ℚ) ^ (-126 : Int) : ℚ) : ℝ) := by exact_mod_cast hs
      push_cast at this
      norm_num at this
      linarith
  obtain ⟨hYt, t0, t1⟩ := hYt
  generalize l ^ (0.15930176 : ℝ) = t at *
  have hYt' := abs_le.mp hYt
  obtain ⟨y0, y1⟩ := hYt'
  norm_num at y0 y1
  rw [hf.add, hf.mul]
  obtain ⟨b, hb, hgb, hbF⟩ := pq_base hY (by norm_num; linarith) (by linarith)
  obtain ⟨f0, f1⟩ := pqF_wide (y := (Y : ℝ)) (by norm_num; linarith) (by linarith)
  have hp := pq_second_rel hf hb hgb f0 f1 hbF
  have top := pqF_top (y := (Y : ℝ)) (z := t) (by linarith) (by linarith) (by linarith) (by linarith) (hYt.trans (by norm_num))
  have W1 : pqF t ^ (78.84375 : ℝ) ≤ 101 / 100 := by
    have F1 : pqF t ≤ 1 + 1 / 10 ^ 5 := by
      unfold pqF; rw [div_le_iff₀ (by positivity)]; norm_num; linarith
    have F0 : 0 ≤ pqF t := by unfold pqF; positivity
    calc pqF t ^ (78.84375 : ℝ) ≤ (1 + 1 / 10 ^ 5) ^ (78.84375 : ℝ) := Real.rpow_le_rpow F0 F1 (by norm_num)
      _ ≤ (1 + 1 / 10 ^ 5) ^ ((79 : ℕ) : ℝ) := Real.rpow_le_rpow_of_exponent_le (by norm_num) (by norm_num)
      _ = (1 + 1 / 10 ^ 5) ^ (79 : ℕ) := Real.rpow_natCast _ _
      _ ≤ _ := by norm_num
  refine (hp.shift top).mono ?_
  have := (abs_le.mp top).2
  norm_num at this ⊢
  linarith

/-- The PQ encoder. -/
theorem enc_pq_wide (he : Exact rr) (hf : Floats ar) {x : F32} {X : ℚ} (hx : Is x X) (hg : Good x) (h1 : X ≤ 10020) :
    App (encodeTransfer ar .BT2100PQ x) (encodeTransfer rr .BT2100PQ X) (5 / 10 ^ 5) := by
  rcases le_total X 10000 with h | h
  · exact enc_pq_near he hf hx hg h
  · exact pq_top he hf hx hg h h1

/-- The HLG encoder. -/
theorem enc_hlg_wide (he : Exact rr) (hf : Floats ar) {x : F32} {X : ℚ} (hx : Is x X) (hg : Good x) (h1 : X ≤ 2) :
    App (encodeTransfer ar .BT2100HLG x) (encodeTransfer rr .BT2100HLG X) (1 / 10 ^ 6) := by
  obtain ⟨hm, hgm⟩ := max_is hf hx hg
  have := enc_hlg_max hf hm hgm (le_max_right _ _) (max_le h1 (by norm_num))
  rw [enc_hlg he]
  push_cast at this
  exact this

/-- Cone responses of a pixel. -/
def cones (ar : Arith F32) (t : ColorTransfer) (r g b : Nat) : C3 F32 :=
  toLms ar (rowMul ar (map3 (decodeTransfer ar t) (ar.div (FOps.ofNat r) (FOps.ofNat 255), ar.div (FOps.ofNat g) (FOps.ofNat 255),
    ar.div (FOps.ofNat b) (FOps.ofNat 255))) ColorPrimaries.BT2020.rgbToXyzMat)

/-- Cone responses of a pixel according to BT.2100. -/
noncomputable def stdCones (t : ColorTransfer) (r g b : Nat) : ℝ × ℝ × ℝ :=
  Standard.lms (Standard.toLight t ((r : ℝ) / 255), Standard.toLight t ((g : ℝ) / 255), Standard.toLight t ((b : ℝ) / 255))

theorem good_cones (hi : IsIeee ar) (t : ColorTransfer) (r g b : Nat) :
    Good (cones ar t r g b).1 ∧ Good (cones ar t r g b).2.1 ∧ Good (cones ar t r g b).2.2 :=
  ⟨good_dot hi, good_dot hi, good_dot hi⟩

/-- The brightest of three lights. -/
theorem brightest (r g b : ℝ) : ∃ S, r ≤ S ∧ g ≤ S ∧ b ≤ S ∧ (S ≤ r ∨ S ≤ g ∨ S ≤ b) := by
  rcases le_total r g with h | h <;> rcases le_total g b with h2 | h2
  · exact ⟨b, h.trans h2, h2, le_refl _, by simp⟩
  · exact ⟨g, h, le_refl _, h2, by simp⟩
  · rcases le_total r b with h3 | h3
    · exact ⟨b, h3, h2, le_refl _, by simp⟩
    · exact ⟨r, le_refl _, h, h3, by simp⟩
  · exact ⟨r, le_refl _, h, h2.trans h, by simp⟩

theorem lms_zero : Standard.lms (0, 0, 0) = (0, 0, 0) := by simp [Standard.lms]

/-- Cone responses of a pixel of a PQ image that is not black. -/
theorem cones_pq_near (he : Exact rr) (hf : Floats ar) {r g b : Nat} (hr : r ≤ 255) (hg : g ≤ 255) (hb : b ≤ 255)
    (hn : ¬ (r = 0 ∧ g = 0 ∧ b = 0)) :
    ∃ L M N : ℚ, Is (cones ar .BT2100PQ r g b).1 L ∧ Is (cones ar .BT2100PQ r g b).2.1 M ∧ Is (cones ar .BT2100PQ r g b).2.2 N ∧
      |(L : ℝ) - (stdCones .BT2100PQ r g b).1| ≤ 1007 / 10 ^ 6 * (stdCones .BT2100PQ r g b).1 ∧
      |(M : ℝ) - (stdCones .BT2100PQ r g b).2.1| ≤ 1007 / 10 ^ 6 * (stdCones .BT2100PQ r g b).2.1 ∧
      |(N : ℝ) - (stdCones .BT2100PQ r g b).2.2| ≤ 1007 / 10 ^ 6 * (stdCones .BT2100PQ r g b).2.2 ∧
      (0 ≤ (stdCones .BT2100PQ r g b).1 ∧ (stdCones .BT2100PQ r g b).1 ≤ 10000) ∧
      (0 ≤ (stdCones .BT2100PQ r g b).2.1 ∧ (stdCones .BT2100PQ r g b).2.1 ≤ 10000) ∧
      (0 ≤ (stdCones .BT2100PQ r g b).2.2 ∧ (stdCones .BT2100PQ r g b).2.2 ≤ 10000) := by
  obtain ⟨a1, l1, u1, z1⟩ := light_pq_std he hf hr
  obtain ⟨a2, l2, u2, z2⟩ := light_pq_std he hf hg
  obtain ⟨a3, l3, u3, z3⟩ := light_pq_std he hf hb
  simp only [cones, stdCones, map3]
  generalize Standard.toLight .BT2100PQ ((r : ℝ) / 255) = R at *
  generalize Standard.toLight .BT2100PQ ((g : ℝ) / 255) = G at *
  generalize Standard.toLight .BT2100PQ ((b : ℝ) / 255) = B at *
  obtain ⟨S, s1, s2, s3, hS⟩ := brightest R G B
  have S0 : 3 / 10 ^ 4 ≤ S := by
    rcases z1 with ⟨e1, -⟩ | h
    · rcases z2 with ⟨e2, -⟩ | h
      · rcases z3 with ⟨e3, -⟩ | h
        · exact absurd ⟨e1, e2, e3⟩ hn
        · exact h.trans s3
      · exact h.trans s2
    · exact h.trans s1
  have S1 : S ≤ 10000 := by rcases hS with h | h | h <;> linarith
  norm_num at S0
  obtain ⟨L, M, N, iL, iM, iN, dL, dM, dN⟩ := lms_app (rr := rr) (ρ := 586 / 10 ^ 6) (τ := 2 / 10 ^ 10) (κ := 7 / 10 ^ 7) hf.toIsIeee he
    (p := (_, _, _)) l1 l2 l3 (by norm_num) (by norm_num) a1 a2 a3 s1 s2 s3 hS (by linarith) (by norm_num; linarith) (by norm_num)
    (by norm_num; linarith) (by norm_num)
  obtain ⟨k1, k2, k3⟩ := lms_range l1 l2 l3 s1 s2 s3
  refine ⟨L, M, N, iL, iM, iN, dL.trans ?_, dM.trans ?_, dN.trans ?_, ⟨k1.1, k1.2.trans S1⟩, ⟨k2.1, k2.2.trans S1⟩, k3.1, k3.2.trans S1⟩
  · exact mul_le_mul_of_nonneg_right (by norm_num) k1.1
  · exact mul_le_mul_of_nonneg_right (by norm_num) k2.1
  · exact mul_le_mul_of_nonneg_right (by norm_num) k3.1

/-- Cone responses of a pixel of an HLG image that is not black. -/
theorem cones_hlg_near (he : Exact rr) (hf : Floats ar) {r g b : Nat} (hr : r ≤ 255) (hg : g ≤ 255) (hb : b ≤ 255)
    (hn : ¬ (r = 0 ∧ g = 0 ∧ b = 0)) :
    ∃ L M N : ℚ, Is (cones ar .BT2100HLG r g b).1 L ∧ Is (cones ar .BT2100HLG r g b).2.1 M ∧ Is (cones ar .BT2100HLG r g b).2.2 N ∧
      |(L : ℝ) - (stdCones .BT2100HLG r g b).1| ≤ 441 / 10 ^ 6 * (stdCones .BT2100HLG r g b).1 ∧
      |(M : ℝ) - (stdCones .BT2100HLG r g b).2.1| ≤ 441 / 10 ^ 6 * (stdCones .BT2100HLG r g b).2.1 ∧
      |(N : ℝ) - (stdCones .BT2100HLG r g b).2.2| ≤ 441 / 10 ^ 6 * (stdCones .BT2100HLG r g b).2.2 ∧
      (0 ≤ (stdCones .BT2100HLG r g b).1 ∧ (stdCones .BT2100HLG r g b).1 ≤ 1002 / 1000) ∧
      (0 ≤ (stdCones .BT2100HLG r g b).2.1 ∧ (stdCones .BT2100HLG r g b).2.1 ≤ 1002 / 1000) ∧
      (0 ≤ (stdCones .BT2100HLG r g b).2.2 ∧ (stdCones .BT2100HLG r g b).2.2 ≤ 1002 / 1000) := by
  obtain ⟨a1, l1, u1, z1⟩ := light_hlg_std he hf hr
  obtain ⟨a2, l2, u2, z2⟩ := light_hlg_std he hf hg
  obtain ⟨a3, l3, u3, z3⟩ := light_hlg_std he hf hb
  simp only [cones, stdCones, map3]
  generalize Standard.toLight .BT2100HLG ((r : ℝ) / 255) = R at *
  generalize Standard.toLight .BT2100HLG ((g : ℝ) / 255) = G at *
  generalize Standard.toLight .BT2100HLG ((b : ℝ) / 255) = B at *
  obtain ⟨S, s1, s2, s3, hS⟩ := brightest R G B
  have S0 : 5 / 10 ^ 6 ≤ S := by
    rcases z1 with ⟨e1, -⟩ | h
    · rcases z2 with ⟨e2, -⟩ | h
      · rcases z3 with ⟨e3, -⟩ | h
        · exact absurd ⟨e1, e2, e3⟩ hn
        · exact h.trans s3
      · exact h.trans s2
    · exact h.trans s1
  have S1 : S ≤ 1002 / 1000 := by rcases hS with h | h | h <;> linarith
  norm_num at S0
  obtain ⟨L, M, N, iL, iM, iN, dL, dM, dN⟩ := lms_app (rr := rr) (ρ := 5 / 10 ^ 5) (τ := 1 / 10 ^ 35) (κ := 1 / 10 ^ 10) hf.toIsIeee he
    (p := (_, _, _)) l1 l2 l3 (by norm_num) (by norm_num) a1 a2 a3 s1 s2 s3 hS (by linarith) (by norm_num; linarith) (by norm_num)
    (by norm_num; linarith) (by norm_num)
  obtain ⟨k1, k2, k3⟩ := lms_range l1 l2 l3 s1 s2 s3
  refine ⟨L, M, N, iL, iM, iN, dL.trans ?_, dM.trans ?_, dN.trans ?_, ⟨k1.1, k1.2.trans S1⟩, ⟨k2.1, k2.2.trans S1⟩, k3.1, k3.2.trans S1⟩
  · exact mul_le_mul_of_nonneg_right (by norm_num) k1.1
  · exact mul_le_mul_of_nonneg_right (by norm_num) k2.1
  · exact mul_le_mul_of_nonneg_right (by norm_num) k3.1

end Ezk

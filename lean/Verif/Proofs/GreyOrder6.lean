import Verif.Proofs.GreyOrder5

/-!
# The lights of two greys, for the PQ encoder
-/

namespace Ezk
open F32 Spec

/-- The roots of two signals. -/
theorem pq_step' {n n' : Nat} (h1 : 1 ≤ n) (hlt : n < n') (h255 : n' ≤ 255) :
    93 / 100 / 78.84375 ≤ (((n' : ℝ) / 255) ^ (1 / 78.84375 : ℝ) - ((n : ℝ) / 255) ^ (1 / 78.84375 : ℝ)) * (n + 1) := by
  obtain ⟨a1, -, a3⟩ := pq_step h1 hlt h255
  have hn1 : (1 : ℝ) ≤ n := by exact_mod_cast h1
  have hn2 : (n : ℝ) + 1 ≤ n' := by exact_mod_cast hlt
  have hne : (n' : ℝ) ≠ 0 := by intro h; linarith
  have e : ((n : ℝ) / 255) ^ (1 / 78.84375 : ℝ) = ((n : ℝ) / n') ^ (1 / 78.84375 : ℝ) * ((n' : ℝ) / 255) ^ (1 / 78.84375 : ℝ) := by
    rw [← Real.mul_rpow (by positivity) (by positivity)]
    congr 1
    field_simp
  have k1 : (n : ℝ) / n' ≤ 1 + -(1 / (n + 1)) := by
    have : 1 + -(1 / ((n : ℝ) + 1)) = n / (n + 1) := by field_simp; ring
    rw [this]
    exact div_le_div_of_nonneg_left (by linarith) (by linarith) hn2
  have k2 : -1 ≤ -(1 / ((n : ℝ) + 1)) := by
    rw [neg_le_neg_iff, div_le_one (by linarith)]; linarith
  have k3 := (Real.rpow_le_rpow (by positivity) k1 (show (0 : ℝ) ≤ 1 / 78.84375 by norm_num)).trans
    (rpow_one_add_le_one_add_mul_self k2 (by norm_num) (by norm_num))
  rw [e] at a1 a3 ⊢
  have Q0 : 93 / 100 ≤ ((n' : ℝ) / 255) ^ (1 / 78.84375 : ℝ) := by norm_num at a1 a3 ⊢; linarith
  generalize ((n' : ℝ) / 255) ^ (1 / 78.84375 : ℝ) = Q at *
  generalize ((n : ℝ) / n') ^ (1 / 78.84375 : ℝ) = w at *
  have k4 := mul_le_mul_of_nonneg_right k3 (show 0 ≤ Q by linarith)
  have k5 : (1 / 78.84375) * (1 / ((n : ℝ) + 1)) * Q ≤ Q - w * Q := by linarith
  have k6 := mul_le_mul_of_nonneg_right k5 (show (0 : ℝ) ≤ n + 1 by linarith)
  have e2 : (1 / 78.84375) * (1 / ((n : ℝ) + 1)) * Q * (n + 1) = Q / 78.84375 := by field_simp
  rw [e2] at k6
  refine le_trans ?_ k6
  gcongr

theorem pq_fraction_grows {P Q d : ℝ} (h0 : 93 / 100 ≤ P) (h1 : Q ≤ 1) (hd : 0 ≤ d) (h : P + d ≤ Q) :
    (1 + 23 * d) * ((P - 0.8359375) / (18.851563 - P * 18.6875)) ≤ (Q - 0.8359375) / (18.851563 - Q * 18.6875) := by
  have d1 : 0 < 18.851563 - P * 18.6875 := by norm_num at h ⊢; linarith
  have d2 : 0 < 18.851563 - Q * 18.6875 := by norm_num; linarith
  rw [← mul_div_assoc, div_le_div_iff₀ d1 d2]
  have k1 : (P - 0.8359375) * (18.851563 - P * 18.6875) ≤ 14 / 100 := by
    have := sq_nonneg (P - 92236 / 10 ^ 5)
    norm_num at this ⊢; nlinarith
  have k2 : (P - 0.8359375) * (18.851563 - Q * 18.6875) ≤ 14 / 100 := by
    refine le_trans (mul_le_mul_of_nonneg_left ?_ ?_) k1
    · norm_num; linarith
    · norm_num at h0 ⊢; linarith
  have k3 := mul_le_mul_of_nonneg_left k2 hd
  norm_num at k3 ⊢
  nlinarith

theorem pq_grows {rr : Arith ℝ} (he : Exact rr) {n n' : Nat} (h1 : 1 ≤ n) (hlt : n < n') (h255 : n' ≤ 255) :
    decodeTransfer rr .BT2100PQ ((n : ℝ) / 255) * (17 / 10) ≤
      (decodeTransfer rr .BT2100PQ ((n' : ℝ) / 255) - decodeTransfer rr .BT2100PQ ((n : ℝ) / 255)) * (n + 1) := by
  obtain ⟨a1, a2, a3⟩ := pq_step h1 hlt h255
  have a4 := pq_step' h1 hlt h255
  obtain ⟨b1, -⟩ := pq_fraction_apart a1 a2 a3
  have hn0 : (0 : ℝ) < n + 1 := by positivity
  rw [dec_pq he, dec_pq he, max_eq_left (a := (n : ℝ) / 255) (by positivity), max_eq_left (a := (n' : ℝ) / 255) (by positivity),
    max_eq_left (a := ((n : ℝ) / 255) ^ (1 / 78.84375 : ℝ) - 0.8359375) (by norm_num at a1 ⊢; linarith),
    max_eq_left (a := ((n' : ℝ) / 255) ^ (1 / 78.84375 : ℝ) - 0.8359375) (by norm_num at a1 a3 ⊢; linarith)]
  have b2 := pq_fraction_grows (d := 93 / 100 / 78.84375 / (n + 1)) a1 a2 (by positivity) (by
    have : 93 / 100 / 78.84375 / ((n : ℝ) + 1) ≤ ((n' : ℝ) / 255) ^ (1 / 78.84375 : ℝ) - ((n : ℝ) / 255) ^ (1 / 78.84375 : ℝ) := by
      rw [div_le_iff₀ hn0]; exact a4
    linarith)
  generalize (((n : ℝ) / 255) ^ (1 / 78.84375 : ℝ) - 0.8359375) / (18.851563 - ((n : ℝ) / 255) ^ (1 / 78.84375 : ℝ) * 18.6875) = R at *
  generalize (((n' : ℝ) / 255) ^ (1 / 78.84375 : ℝ) - 0.8359375) / (18.851563 - ((n' : ℝ) / 255) ^ (1 / 78.84375 : ℝ) * 18.6875) = R' at *
  have R0 : 0 < R := by linarith
  obtain ⟨s, hs⟩ : ∃ s : ℝ, s = 23 * (93 / 100 / 78.84375 / (n + 1)) := ⟨_, rfl⟩
  have s0 : 0 ≤ s := by rw [hs]; positivity
  rw [← hs] at b2
  have e1 := Real.rpow_le_rpow (by positivity) b2 (show (0 : ℝ) ≤ 1 / 0.15930176 by norm_num)
  rw [Real.mul_rpow (by linarith) R0.le] at e1
  have e2 := one_add_mul_self_le_rpow_one_add (s := s) (p := 1 / 0.15930176) (by linarith) (by norm_num)
  have e3 := mul_le_mul_of_nonneg_right e2 (Real.rpow_nonneg R0.le (1 / 0.15930176))
  have e4 := Real.rpow_nonneg R0.le (1 / 0.15930176)
  generalize R ^ (1 / 0.15930176 : ℝ) = z at *
  generalize R' ^ (1 / 0.15930176 : ℝ) = z' at *
  generalize (1 + s : ℝ) ^ (1 / 0.15930176 : ℝ) = k at *
  have e5 : (1 / 0.15930176 * s) * z ≤ z' - z := by linarith
  have e6 := mul_le_mul_of_nonneg_right e5 hn0.le
  have e7 : (1 / 0.15930176 * s) * z * (n + 1) = (1 / 0.15930176 * (23 * (93 / 100 / 78.84375))) * z := by rw [hs]; field_simp
  rw [e7] at e6
  norm_num at e6 ⊢
  linarith

/-- Lights of PQ from a code on. -/
theorem pq_least {rr : Arith ℝ} (he : Exact rr) {n K : Nat} (p0 R0 c : ℝ) (hK : K ≤ n) (hK1 : 1 ≤ K) (hn : n ≤ 255) (hp : 93 / 100 ≤ p0)
    (hp1 : p0 ≤ 1) (hpK : p0 ^ 78 ≤ (K : ℝ) / 255) (h0 : 0 < R0) (h1 : R0 ≤ 1) (hR : R0 * (18.851563 - p0 * 18.6875) ≤ p0 - 0.8359375)
    (hc0 : 0 ≤ c) (hc : c ^ 10 ≤ R0 ^ 63) : c * 10000 ≤ decodeTransfer rr .BT2100PQ ((n : ℝ) / 255) := by
  have hKn : (K : ℝ) ≤ n := by exact_mod_cast hK
  have hK0 : (1 : ℝ) ≤ K := by exact_mod_cast hK1
  have hn1 : (n : ℝ) ≤ 255 := by exact_mod_cast hn
  have hP : p0 ≤ ((n : ℝ) / 255) ^ (1 / 78.84375 : ℝ) := by
    calc p0 ≤ ((K : ℝ) / 255) ^ (1 / 78 : ℝ) := by
          rw [le_rpow_iff (m := 1) (n := 78) (by norm_num) (by norm_num) (by linarith) (by positivity), pow_one]; exact hpK
      _ ≤ ((K : ℝ) / 255) ^ (1 / 78.84375 : ℝ) :=
        Real.rpow_le_rpow_of_exponent_ge (by positivity) (by rw [div_le_one (by norm_num)]; linarith) (by norm_num)
      _ ≤ _ := Real.rpow_le_rpow (by positivity) (by linarith) (by norm_num)
  have hP1 : ((n : ℝ) / 255) ^ (1 / 78.84375 : ℝ) ≤ 1 :=
    Real.rpow_le_one (by positivity) (by rw [div_le_one (by norm_num)]; exact hn1) (by norm_num)
  rw [dec_pq he, max_eq_left (a := (n : ℝ) / 255) (by positivity),
    max_eq_left (a := ((n : ℝ) / 255) ^ (1 / 78.84375 : ℝ) - 0.8359375) (by norm_num at hp ⊢; linarith)]
  generalize ((n : ℝ) / 255) ^ (1 / 78.84375 : ℝ) = P at *
  have k1 : R0 ≤ (P - 0.8359375) / (18.851563 - P * 18.6875) := by
    rw [le_div_iff₀ (by norm_num; linarith)]
    have : R0 * (18.851563 - P * 18.6875) ≤ R0 * (18.851563 - p0 * 18.6875) := mul_le_mul_of_nonneg_left (by norm_num; linarith) h0.le
    linarith
  refine mul_le_mul_of_nonneg_right ?_ (by norm_num)
  calc c ≤ R0 ^ (63 / 10 : ℝ) := by
        rw [le_rpow_iff (m := 63) (n := 10) (by norm_num) (by norm_num) hc0 h0.le]; exact hc
    _ ≤ R0 ^ (1 / 0.15930176 : ℝ) := Real.rpow_le_rpow_of_exponent_ge h0 h1 (by norm_num)
    _ ≤ _ := Real.rpow_le_rpow h0.le k1 (by norm_num)

theorem steep_pq {rr : Arith ℝ} (he : Exact rr) {n n' : Nat} (h1 : 1 ≤ n) (hlt : n < n') (h255 : n' ≤ 255) {q q' : ℝ}
    (hq : |q - decodeTransfer rr .BT2100PQ ((n : ℝ) / 255)| ≤ 56 / 10 ^ 5 * decodeTransfer rr .BT2100PQ ((n : ℝ) / 255) + 2 / 10 ^ 10)
    (hq' : |q' - decodeTransfer rr .BT2100PQ ((n' : ℝ) / 255)| ≤ 56 / 10 ^ 5 * decodeTransfer rr .BT2100PQ ((n' : ℝ) / 255) + 2 / 10 ^ 10) :
    Steep (1 / 10 ^ 5) q q' := by
  obtain ⟨l0, -⟩ := pq_apart he h1 hlt h255
  have g := pq_grows he h1 hlt h255
  have b1 : 19 ≤ n → (1 / 10 ^ 5 : ℝ) * 10000 ≤ decodeTransfer rr .BT2100PQ ((n : ℝ) / 255) := fun h =>
    pq_least he (967 / 1000) (165 / 1000) (1 / 10 ^ 5) h (by norm_num) (by omega) (by norm_num) (by norm_num) (by norm_num) (by norm_num)
      (by norm_num) (by norm_num) (by norm_num) (by norm_num)
  have b2 : 100 ≤ n → (1 / 10 ^ 4 : ℝ) * 10000 ≤ decodeTransfer rr .BT2100PQ ((n : ℝ) / 255) := fun h =>
    pq_least he (988 / 1000) (37 / 100) (1 / 10 ^ 4) h (by norm_num) (by omega) (by norm_num) (by norm_num) (by norm_num) (by norm_num)
      (by norm_num) (by norm_num) (by norm_num) (by norm_num)
  generalize decodeTransfer rr .BT2100PQ ((n : ℝ) / 255) = L at *
  generalize decodeTransfer rr .BT2100PQ ((n' : ℝ) / 255) = L' at *
  have L0 : 0 < L := by norm_num at l0; linarith
  obtain ⟨x1, x2⟩ := abs_le.mp hq
  obtain ⟨y1, y2⟩ := abs_le.mp hq'
  have grow : ∀ {k : Nat} {s : ℝ}, n ≤ k → s * (k + 1) ≤ 17 / 10 → 0 ≤ s → (1 + s) * L ≤ L' := by
    intro k s hk hs s0
    have hk' : (n : ℝ) + 1 ≤ k + 1 := by
      have : (n : ℝ) ≤ k := by exact_mod_cast hk
      linarith
    have k1 : s * (n + 1) ≤ 17 / 10 := le_trans (mul_le_mul_of_nonneg_left hk' s0) hs
    have k2 : s * L * (n + 1) ≤ (L' - L) * (n + 1) := by
      have := mul_le_mul_of_nonneg_left k1 L0.le
      linarith
    have := le_of_mul_le_mul_right k2 (by positivity)
    linarith
  intro lo hi δ r band h2 h3
  rcases le_or_gt n 18 with hn | hn
  · have k := grow (s := 894 / 10 ^ 4) hn (by norm_num) (by norm_num)
    cases band <;> (norm_num at *; linarith)
  · have B1 := b1 hn
    rcases le_or_gt n 99 with hn2 | hn2
    · have k := grow (s := 16 / 1000) hn2 (by norm_num) (by norm_num)
      cases band <;> (norm_num at *; linarith)
    · have B2 := b2 hn2
      cases band <;> (norm_num at *; linarith)

/-- The lights of two greys, whatever the transfer function: apart by as much as the PQ encoder needs. -/
theorem lights_steep {rr : Arith ℝ} (he : Exact rr) {ar ar' : Arith F32} (hf : Floats ar) (hf' : Floats ar') (t : ColorTransfer) {n n' : Nat}
    (h1 : 1 ≤ n) (hlt : n < n') (h255 : n' ≤ 255) {q q' : ℚ} (hq : Is (decodeTransfer ar t (ar.div (FOps.ofNat n) (FOps.ofNat 255))) q)
    (hq' : Is (decodeTransfer ar' t (ar'.div (FOps.ofNat n') (FOps.ofNat 255))) q') :
    Steep (1 / 10 ^ 5) q q' ∧ (q' : ℝ) ≤ 10006 := by
  by_cases ht : t = .BT2100PQ
  · subst ht
    obtain ⟨a, -, -⟩ := light_pq_app he hf (n := n) (by omega)
    obtain ⟨b, -, b1⟩ := light_pq_app he hf' (n := n') h255
    obtain ⟨x, hx, dx⟩ := a.is
    obtain ⟨y, hy, dy⟩ := b.is
    obtain rfl := hq.unique hx
    obtain rfl := hq'.unique hy
    refine ⟨steep_pq he h1 hlt h255 dx dy, ?_⟩
    have := (abs_le.mp dy).2
    norm_num at this; linarith
  · obtain ⟨a, -, -⟩ := light_app hf he ht (n := n) (by omega)
    obtain ⟨b, -, b1⟩ := light_app hf' he ht (n := n') h255
    obtain ⟨x, hx, dx⟩ := a.is
    obtain ⟨y, hy, dy⟩ := b.is
    obtain rfl := hq.unique hx
    obtain rfl := hq'.unique hy
    refine ⟨?_, ?_⟩
    · cases t with
      | Linear => exact steep_linear he h1 hlt h255 dx dy
      | Gamma22 => exact steep_gamma22 he h1 hlt h255 dx dy
      | Gamma28 => exact steep_gamma28 he h1 hlt h255 dx dy
      | SRGB => exact steep_srgb he h1 hlt h255 dx dy
      | SDR => exact steep_sdr he h1 hlt h255 dx dy
      | BT2100PQ => exact absurd rfl ht
      | BT2100HLG => exact steep_hlg he h1 hlt h255 dx dy
    · have := (abs_le.mp dy).2
      norm_num at this b1; linarith

/-- The PQ encoder keeps the order of greys, except among those that become black. -/
theorem order_pq {rr : Arith ℝ} (he : Exact rr) {ar ar' : Arith F32} (hf : Floats ar) (hf' : Floats ar') {x x' : F32} {X X' : ℚ} (hx : Is x X)
    (hg : Good x) (hx' : Is x' X') (hg' : Good x') (h : Brighter' X X') (hs : Steep 0 X X') (hm : (X' : ℝ) ≤ 100065 / 10) :
    (∃ a : ℚ, Is (encodeTransfer ar .BT2100PQ x) a ∧ (a : ℝ) ≤ 19 / 10 ^ 4 ∧ -1 ≤ (a : ℝ)) ∨
    Ord 4 (encodeTransfer ar .BT2100PQ x) (encodeTransfer ar' .BT2100PQ x') := by
  obtain ⟨a1, a2, -, a4⟩ := h
  have X0 : (0 : ℝ) < X := by norm_num at a1; linarith
  have X1 : (X : ℝ) ≤ 99767 / 10 := by norm_num at a2 hm ⊢; linarith
  have X2 : (X : ℝ) ≤ 10000 := by linarith
  have app := enc_pq_near he hf hx hg (by exact_mod_cast X2)
  have rg := enc_pq_range he X2
  rcases lt_or_ge (X : ℝ) (1 / 10 ^ 4) with hlow | hlow
  · left
    obtain ⟨a, ha, da⟩ := app.is
    have top : encodeTransfer rr .BT2100PQ X ≤ 183 / 10 ^ 5 := by
      rw [enc_pqF he, max_eq_left X0.le]
      have y1 : ((X : ℝ) / 10000) ^ (0.15930176 : ℝ) ≤ 532 / 10 ^ 4 :=
        (Real.rpow_le_rpow (by positivity) (show (X : ℝ) / 10000 ≤ 1 / 10 ^ 8 by norm_num at hlow ⊢; linarith) (by norm_num)).trans
          (pq_hi (by norm_num) (by norm_num) (by norm_num) (by norm_num))
      have y0 : 0 ≤ ((X : ℝ) / 10000) ^ (0.15930176 : ℝ) := Real.rpow_nonneg (by positivity) _
      have f1 : pqF (((X : ℝ) / 10000) ^ (0.15930176 : ℝ)) ≤ 9222 / 10 ^ 4 := by
        refine (pqF_mono (by norm_num; linarith) y1).trans ?_
        unfold pqF; norm_num
      have f0 := (pqF_wide (y := ((X : ℝ) / 10000) ^ (0.15930176 : ℝ)) (by norm_num; linarith) (by norm_num at y1 ⊢; linarith)).1
      calc pqF _ ^ (78.84375 : ℝ) ≤ (9222 / 10 ^ 4) ^ (78.84375 : ℝ) := Real.rpow_le_rpow (by linarith) f1 (by norm_num)
        _ ≤ (9222 / 10 ^ 4) ^ ((78 : ℕ) : ℝ) := Real.rpow_le_rpow_of_exponent_ge (by norm_num) (by norm_num) (by norm_num)
        _ = (9222 / 10 ^ 4) ^ (78 : ℕ) := Real.rpow_natCast _ _
        _ ≤ 183 / 10 ^ 5 := by norm_num
    obtain ⟨d1, d2⟩ := abs_le.mp da
    exact ⟨a, ha, by norm_num at *; linarith, by norm_num at *; linarith⟩
  · right
    rcases le_or_gt X' 10000 with h' | h'
    · have hr' : (X' : ℝ) ≤ 10000 := by exact_mod_cast h'
      have app' := enc_pq_near he hf' hx' hg' h'
      have rg' := enc_pq_range he hr'
      refine ord_of_app app app' ?_ (by linarith [rg.1]) (by linarith [rg'.2]) (by norm_num)
      have X0' : (0 : ℝ) ≤ X' := by norm_num at a2; linarith
      have gap := pq_gap ⟨a1, a2, by linarith, a4⟩ hs hlow X2
      rw [enc_pqF he, enc_pqF he, max_eq_left X0.le, max_eq_left X0']
      norm_num at gap ⊢
      linarith
    · have hr' : (10000 : ℝ) < X' := by exact_mod_cast h'
      have hm' : (X' : ℝ) ≤ ((36000 : ℚ) : ℝ) := by push_cast; linarith
      obtain ⟨b, hb, b1, b2⟩ := pq_over hf' hx' hg' h'.le (by exact_mod_cast hm')
      have gap : encodeTransfer rr .BT2100PQ X + 12 / 10 ^ 5 ≤ 1 + 3 / 10 ^ 6 := by
        rw [enc_pqF he, max_eq_left X0.le]
        have last : pqF ((10000 / 10000 : ℝ) ^ (0.15930176 : ℝ)) ^ (78.84375 : ℝ) ≤ 1 + 3 / 10 ^ 6 := by
          rw [div_self (by norm_num), Real.one_rpow]
          have f1 : pqF 1 ≤ 1 + 3 / 10 ^ 8 := by unfold pqF; norm_num
          have f0 : 1 ≤ pqF 1 := by unfold pqF; norm_num
          calc pqF 1 ^ (78.84375 : ℝ) ≤ pqF 1 ^ ((79 : ℕ) : ℝ) := Real.rpow_le_rpow_of_exponent_le f0 (by norm_num)
            _ = pqF 1 ^ (79 : ℕ) := Real.rpow_natCast _ _
            _ ≤ (1 + 3 / 10 ^ 8) ^ 79 := pow_le_pow_left₀ (by linarith) f1 79
            _ ≤ _ := by norm_num
        rcases lt_or_ge (X : ℝ) 400 with h4 | h4
        · have t1 := pq_last_piece (a := 400) (b := 10000) (le_refl _) (by norm_num) (by norm_num)
          refine le_trans ?_ (t1.trans last)
          have mono : ((X : ℝ) / 10000) ^ (0.15930176 : ℝ) ≤ (400 / 10000 : ℝ) ^ (0.15930176 : ℝ) :=
            Real.rpow_le_rpow (by positivity) (by linarith) (by norm_num)
          have y0 : 0 ≤ ((X : ℝ) / 10000) ^ (0.15930176 : ℝ) := Real.rpow_nonneg (by positivity) _
          have y1 : (400 / 10000 : ℝ) ^ (0.15930176 : ℝ) ≤ 1 := Real.rpow_le_one (by norm_num) (by norm_num) (by norm_num)
          have f0 := (pqF_wide (y := ((X : ℝ) / 10000) ^ (0.15930176 : ℝ)) (by norm_num; linarith) (by linarith)).1
          have := Real.rpow_le_rpow (z := (78.84375 : ℝ)) (by linarith)
            (pqF_mono (y := ((X : ℝ) / 10000) ^ (0.15930176 : ℝ)) (by norm_num; linarith) mono) (by norm_num)
          linarith
        · have t1 := pq_last_piece (b := 10000) h4 X2 (by norm_num; linarith)
          exact t1.trans last
      obtain ⟨a, ha, da⟩ := app.is
      obtain ⟨d1, d2⟩ := abs_le.mp da
      generalize encodeTransfer rr .BT2100PQ X = E at *
      obtain ⟨r1, r2⟩ := rg
      have c1 : (a : ℝ) ≤ b := by norm_num at d2 gap b1; linarith
      have c2 : |(a : ℝ)| ≤ 4 := abs_le.mpr ⟨by norm_num at d1 ⊢; linarith, by norm_num at d2 ⊢; linarith⟩
      have c3 : |(b : ℝ)| ≤ 4 := abs_le.mpr ⟨by norm_num at b1; linarith, by linarith⟩
      exact ⟨a, b, ha, hb, by exact_mod_cast c2, by exact_mod_cast c3, by exact_mod_cast c1⟩

end Ezk

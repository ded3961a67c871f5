import Verif.Proofs.GreyOrder3

/-!
# The PQ encoder keeps greys apart
-/

namespace Ezk
open F32 Spec

/-- The PQ encoder, on one piece of the scale: lights a part of `δ` apart are at least `G` apart when encoded. -/
theorem pq_cell (y0 y1 f g δ : ℝ) {a b G : ℝ} (ha : 0 < a) (hy0 : y0 ≤ (a / 10000) ^ (0.15930176 : ℝ))
    (hy1 : (a / 10000) ^ (0.15930176 : ℝ) ≤ y1) (hδ : 0 < δ) (hb : (1 + δ) * a ≤ b) (h0 : 0 < y0) (hf : 0 < f) (hf1 : f ≤ pqF y0)
    (hf2 : f ≤ 1) (hg : 0 < g) (hg0 : g * (y0 * 18.6875 + 1) ^ 2 ≤ y0) (hg1 : g * (y1 * 18.6875 + 1) ^ 2 ≤ y1)
    (hG : G ≤ 78.84375 * (f ^ 78 * (3.2299 * ((0.15930176 * (δ / (1 + δ))) * g)))) :
    pqF ((a / 10000) ^ (0.15930176 : ℝ)) ^ (78.84375 : ℝ) + G ≤ pqF ((b / 10000) ^ (0.15930176 : ℝ)) ^ (78.84375 : ℝ) := by
  have hb0 : 0 < b := lt_of_lt_of_le (by positivity) hb
  have ratio : (a / 10000) ^ (0.15930176 : ℝ) ≤ (1 - 0.15930176 * (δ / (1 + δ))) * (b / 10000) ^ (0.15930176 : ℝ) := by
    have e : (a / 10000) ^ (0.15930176 : ℝ) = (a / b) ^ (0.15930176 : ℝ) * (b / 10000) ^ (0.15930176 : ℝ) := by
      rw [← Real.mul_rpow (by positivity) (by positivity)]
      congr 1
      field_simp
    rw [e]
    refine mul_le_mul_of_nonneg_right ?_ (Real.rpow_nonneg (by positivity) _)
    have h1 : a / b ≤ 1 + -(δ / (1 + δ)) := by
      have : 1 + -(δ / (1 + δ)) = 1 / (1 + δ) := by field_simp; ring
      rw [this, div_le_div_iff₀ hb0 (by linarith)]
      linarith
    have h2 : -1 ≤ -(δ / (1 + δ)) := by
      rw [neg_le_neg_iff, div_le_one (by linarith)]; linarith
    refine (Real.rpow_le_rpow (by positivity) h1 (by norm_num)).trans ?_
    refine (rpow_one_add_le_one_add_mul_self h2 (by norm_num) (by norm_num)).trans (le_of_eq ?_)
    ring
  have hs : 0 < 0.15930176 * (δ / (1 + δ)) := by positivity
  have hs1 : 0.15930176 * (δ / (1 + δ)) < 1 := by
    have : δ / (1 + δ) < 1 := by rw [div_lt_one (by linarith)]; linarith
    linarith
  generalize 0.15930176 * (δ / (1 + δ)) = s at *
  generalize (a / 10000) ^ (0.15930176 : ℝ) = y at *
  generalize (b / 10000) ^ (0.15930176 : ℝ) = z at *
  have y_pos : 0 < y := by linarith
  have z_pos : 0 < z := by
    by_contra hc
    have : (1 - s) * z ≤ 0 := mul_nonpos_of_nonneg_of_nonpos (by linarith) (by linarith)
    linarith
  have yz : y ≤ z := by nlinarith
  have d1 : 0 < y * 18.6875 + 1 := by positivity
  have d2 : 0 < z * 18.6875 + 1 := by positivity
  have hgy : g * (y * 18.6875 + 1) ^ 2 ≤ y := by
    have t1 : 0 ≤ (y - y0) * (y1 - y) := mul_nonneg (by linarith) (by linarith)
    rcases eq_or_lt_of_le (hy0.trans hy1) with h | h
    · have : y = y0 := le_antisymm (by linarith) hy0
      rw [this]; exact hg0
    have k0 := mul_le_mul_of_nonneg_left hg0 (show 0 ≤ y1 - y by linarith)
    have k1 := mul_le_mul_of_nonneg_left hg1 (show 0 ≤ y - y0 by linarith)
    have k2 : 0 ≤ g * ((y - y0) * (y1 - y)) := mul_nonneg hg.le t1
    have k3 : 0 ≤ (y1 - y0) * (g * ((y - y0) * (y1 - y))) := mul_nonneg (by linarith) k2
    refine le_of_mul_le_mul_left (a := y1 - y0) ?_ (by linarith)
    norm_num at k0 k1 ⊢
    nlinarith
  have step : 3.2299 * (s * g) ≤ pqF z - pqF y := by
    have e : pqF z - pqF y = (z - y) * (18.851563 - 0.8359375 * 18.6875) / ((z * 18.6875 + 1) * (y * 18.6875 + 1)) := by
      unfold pqF; field_simp; ring
    rw [e, le_div_iff₀ (by positivity)]
    have k1 : s * z ≤ z - y := by linarith
    calc 3.2299 * (s * g) * ((z * 18.6875 + 1) * (y * 18.6875 + 1)) = 3.2299 * (s * (g * ((z * 18.6875 + 1) * (y * 18.6875 + 1)))) := by ring
      _ ≤ 3.2299 * (s * z) := by
        refine mul_le_mul_of_nonneg_left (mul_le_mul_of_nonneg_left ?_ hs.le) (by norm_num)
        have : g * ((z * 18.6875 + 1) * (y * 18.6875 + 1)) * (y * 18.6875 + 1) ≤ z * (y * 18.6875 + 1) := by
          calc g * ((z * 18.6875 + 1) * (y * 18.6875 + 1)) * (y * 18.6875 + 1) = g * (y * 18.6875 + 1) ^ 2 * (z * 18.6875 + 1) := by ring
            _ ≤ y * (z * 18.6875 + 1) := mul_le_mul_of_nonneg_right hgy d2.le
            _ ≤ z * (y * 18.6875 + 1) := by linarith
        exact le_of_mul_le_mul_right this d1
      _ ≤ (z - y) * (18.851563 - 0.8359375 * 18.6875) := by norm_num; linarith
  have fy : f ≤ pqF y := hf1.trans (pqF_mono (by norm_num; linarith) hy0)
  have fz : pqF y ≤ pqF z := pqF_mono (by norm_num; linarith) yz
  generalize pqF y = A at *
  generalize pqF z = B at *
  have A0 : 0 < A := by linarith
  have e : B ^ (78.84375 : ℝ) = A ^ (78.84375 : ℝ) * (1 + (B - A) / A) ^ (78.84375 : ℝ) := by
    rw [← Real.mul_rpow A0.le (by have := div_nonneg (sub_nonneg.mpr fz) A0.le; linarith)]
    congr 1
    field_simp
    ring
  have hB := one_add_mul_self_le_rpow_one_add (s := (B - A) / A) (p := 78.84375)
    (by have := div_nonneg (sub_nonneg.mpr fz) A0.le; linarith) (by norm_num)
  have e2 : A ^ (78.84375 : ℝ) = A ^ (77.84375 : ℝ) * A := by
    rw [← Real.rpow_add_one A0.ne']; norm_num
  have f78 : f ^ 78 ≤ A ^ (77.84375 : ℝ) := by
    calc f ^ 78 = f ^ ((78 : ℕ) : ℝ) := (Real.rpow_natCast _ _).symm
      _ ≤ f ^ (77.84375 : ℝ) := Real.rpow_le_rpow_of_exponent_ge hf hf2 (by norm_num)
      _ ≤ A ^ (77.84375 : ℝ) := Real.rpow_le_rpow hf.le fy (by norm_num)
  have k1 : f ^ 78 * (3.2299 * (s * g)) ≤ A ^ (77.84375 : ℝ) * (B - A) :=
    mul_le_mul f78 step (by positivity) (Real.rpow_nonneg A0.le _)
  have k2 := mul_le_mul_of_nonneg_left hB (Real.rpow_nonneg A0.le (78.84375 : ℝ))
  rw [e]
  have e3 : A ^ (78.84375 : ℝ) * (1 + 78.84375 * ((B - A) / A)) = A ^ (78.84375 : ℝ) + 78.84375 * (A ^ (77.84375 : ℝ) * (B - A)) := by
    rw [e2]; field_simp
  rw [e3] at k2
  linarith

/-- Bounds of the inner power. -/
theorem pq_lo {x c : ℝ} (hc : 0 ≤ c) (h0 : 0 < x) (h1 : x ≤ 1) (h : c ^ 69 ≤ x ^ 11) : c ≤ x ^ (0.15930176 : ℝ) :=
  ((le_rpow_iff (m := 11) (n := 69) (by norm_num) (by norm_num) hc h0.le).mpr h).trans
    (Real.rpow_le_rpow_of_exponent_ge h0 h1 (show (0.15930176 : ℝ) ≤ 11 / 69 by norm_num))

theorem pq_hi {x c : ℝ} (hc : 0 ≤ c) (h0 : 0 < x) (h1 : x ≤ 1) (h : x ^ 18 < c ^ 113) : x ^ (0.15930176 : ℝ) ≤ c :=
  (Real.rpow_le_rpow_of_exponent_ge h0 h1 (show (18 / 113 : ℝ) ≤ 0.15930176 by norm_num)).trans
    ((rpow_lt_iff (m := 18) (n := 113) (by norm_num) (by norm_num) hc h0.le).mpr h).le

/-- One piece of the scale, between two lights. -/
theorem pq_piece (lo hi y0 y1 f g δ : ℝ) {a b G : ℝ} (h1 : lo ≤ a) (h2 : a ≤ hi) (hb : (1 + δ) * a ≤ b) (hlo : 0 < lo) (hhi : hi ≤ 10000)
    (hy0 : y0 ^ 69 ≤ (lo / 10000) ^ 11) (hy1 : (hi / 10000) ^ (0.15930176 : ℝ) ≤ y1) (hδ : 0 < δ) (h0 : 0 < y0) (hf : 0 < f)
    (hf1 : f * (y0 * 18.6875 + 1) ≤ y0 * 18.851563 + 0.8359375)
    (hf2 : f ≤ 1) (hg : 0 < g) (hg0 : g * (y0 * 18.6875 + 1) ^ 2 ≤ y0) (hg1 : g * (y1 * 18.6875 + 1) ^ 2 ≤ y1)
    (hG : G ≤ 78.84375 * (f ^ 78 * (3.2299 * ((0.15930176 * (δ / (1 + δ))) * g)))) :
    pqF ((a / 10000) ^ (0.15930176 : ℝ)) ^ (78.84375 : ℝ) + G ≤ pqF ((b / 10000) ^ (0.15930176 : ℝ)) ^ (78.84375 : ℝ) := by
  have ha : 0 < a := by linarith
  refine pq_cell y0 y1 f g δ ha ?_ ?_ hδ hb h0 hf ?_ hf2 hg hg0 hg1 hG
  · refine (pq_lo h0.le (by positivity) (by rw [div_le_one (by norm_num)]; linarith) hy0).trans ?_
    exact Real.rpow_le_rpow (by positivity) (by linarith) (by norm_num)
  · exact (Real.rpow_le_rpow (by positivity) (by linarith) (by norm_num)).trans hy1
  · unfold pqF
    rw [le_div_iff₀ (by positivity)]
    exact hf1

/-- The last piece. -/
theorem pq_last_piece {a b : ℝ} (h0 : 400 ≤ a) (h1 : a ≤ 10000) (hb : (1 + 23 / 10 ^ 4) * a ≤ b) :
    pqF ((a / 10000) ^ (0.15930176 : ℝ)) ^ (78.84375 : ℝ) + 12 / 10 ^ 5 ≤ pqF ((b / 10000) ^ (0.15930176 : ℝ)) ^ (78.84375 : ℝ) :=
  pq_piece 400 10000 (59859 / 100000) 1 (1989 / 2000) (257 / 100000) (23 / 10 ^ 4) h0 h1 hb
    (by norm_num) (by norm_num) (by norm_num) (by norm_num) (by norm_num) (by norm_num)
    (by norm_num) (by norm_num) (by norm_num) (by norm_num) (by norm_num) (by norm_num) (by norm_num)

/-- The bands of light: from `lo` to `hi` two greys are at least a part of `δ` apart (`r` leaves room for errors). -/
inductive Band : ℝ → ℝ → ℝ → ℝ → Prop
  | b1 : Band (1 / 10 ^ 4) (199 / 10 ^ 6) (125 / 1000) (199 / 1000)
  | b2 : Band (199 / 10 ^ 6) (1 / 1000) (85 / 1000) (121 / 1000)
  | b3 : Band (1 / 1000) (3 / 1000) (36 / 1000) (424 / 10 ^ 4)
  | b4 : Band (3 / 1000) (1 / 100) (36 / 1000) (384 / 10 ^ 4)
  | b5 : Band (1 / 100) (8 / 100) (115 / 10 ^ 4) (1218 / 10 ^ 5)
  | b6 : Band (8 / 100) (2 / 10) (55 / 10 ^ 4) (56 / 10 ^ 4)
  | b7 : Band (2 / 10) (5 / 10) (4 / 1000) (406 / 10 ^ 5)

/-- Greys that are apart by as much as their band says. -/
def Steep (k a b : ℝ) : Prop :=
  ∀ lo hi δ r, Band lo hi δ r → lo * (1 - k) ≤ a → a < hi * (1 + k) → (1 + δ + 2 * k) * a ≤ b

theorem pq_gap {a b : ℝ} (h : Brighter' a b) (hs : Steep 0 a b) (h0 : 1 / 10 ^ 4 ≤ a) (h1 : a ≤ 10000) :
    pqF ((a / 10000) ^ (0.15930176 : ℝ)) ^ (78.84375 : ℝ) + 101 / 10 ^ 6 ≤ pqF ((b / 10000) ^ (0.15930176 : ℝ)) ^ (78.84375 : ℝ) := by
  have get : ∀ {lo hi δ r}, Band lo hi δ r → lo ≤ a → a < hi → (1 + δ) * a ≤ b := by
    intro lo hi δ r hb h1 h2
    have := hs lo hi δ r hb (by linarith) (by linarith)
    linarith
  have wide : (1 + 29 / 10 ^ 4) * a ≤ b := by have := h.2.1; norm_num at this ⊢; norm_num at h0; linarith
  rcases lt_or_ge a (199 / 10 ^ 6) with c1 | c1
  · exact pq_piece (1 / 10 ^ 4) (199 / 10 ^ 6) (5303 / 100000) (2967 / 50000) (9219 / 10000) (667 / 50000) (125 / 1000) h0 c1.le (get .b1 h0 c1)
      (by norm_num) (by norm_num) (by norm_num) (pq_hi (by norm_num) (by norm_num) (by norm_num) (by norm_num)) (by norm_num) (by norm_num)
      (by norm_num) (by norm_num) (by norm_num) (by norm_num) (by norm_num) (by norm_num) (by norm_num)
  rcases lt_or_ge a (1 / 1000) with c2 | c2
  · exact pq_piece (199 / 10 ^ 6) (1 / 1000) (2959 / 50000) (3837 / 50000) (9267 / 10000) (259 / 20000) (85 / 1000) c1 c2.le (get .b2 c1 c2)
      (by norm_num) (by norm_num) (by norm_num) (pq_hi (by norm_num) (by norm_num) (by norm_num) (by norm_num)) (by norm_num) (by norm_num)
      (by norm_num) (by norm_num) (by norm_num) (by norm_num) (by norm_num) (by norm_num) (by norm_num)
  rcases lt_or_ge a (1 / 100) with c3 | c3
  · have hb : (1 + 36 / 1000) * a ≤ b := by
      rcases lt_or_ge a (3 / 1000) with c | c
      · exact get .b3 c2 c
      · exact get .b4 c c3
    exact pq_piece (1 / 1000) (1 / 100) (957 / 12500) (5537 / 50000) (586 / 625) (47 / 4000) (36 / 1000) c2 c3.le hb
      (by norm_num) (by norm_num) (by norm_num) (pq_hi (by norm_num) (by norm_num) (by norm_num) (by norm_num)) (by norm_num) (by norm_num)
      (by norm_num) (by norm_num) (by norm_num) (by norm_num) (by norm_num) (by norm_num) (by norm_num)
  rcases lt_or_ge a (8 / 100) with c4 | c4
  · exact pq_piece (1 / 100) (8 / 100) (2763 / 25000) (7711 / 50000) (9523 / 10000) (1023 / 100000) (115 / 10 ^ 4) c3 c4.le (get .b5 c3 c4)
      (by norm_num) (by norm_num) (by norm_num) (pq_hi (by norm_num) (by norm_num) (by norm_num) (by norm_num)) (by norm_num) (by norm_num)
      (by norm_num) (by norm_num) (by norm_num) (by norm_num) (by norm_num) (by norm_num) (by norm_num)
  rcases lt_or_ge a (2 / 10) with c5 | c5
  · exact pq_piece (8 / 100) (2 / 10) (3849 / 25000) (3569 / 20000) (9641 / 10000) (949 / 100000) (55 / 10 ^ 4) c4 c5.le (get .b6 c4 c5)
      (by norm_num) (by norm_num) (by norm_num) (pq_hi (by norm_num) (by norm_num) (by norm_num) (by norm_num)) (by norm_num) (by norm_num)
      (by norm_num) (by norm_num) (by norm_num) (by norm_num) (by norm_num) (by norm_num) (by norm_num)
  rcases lt_or_ge a (5 / 10) with c6 | c6
  · exact pq_piece (2 / 10) (5 / 10) (8909 / 50000) (20649 / 100000) (1211 / 1250) (437 / 50000) (4 / 1000) c5 c6.le (get .b7 c5 c6)
      (by norm_num) (by norm_num) (by norm_num) (pq_hi (by norm_num) (by norm_num) (by norm_num) (by norm_num)) (by norm_num) (by norm_num)
      (by norm_num) (by norm_num) (by norm_num) (by norm_num) (by norm_num) (by norm_num) (by norm_num)
  rcases lt_or_ge a 3 with c7 | c7
  · exact pq_piece (5 / 10) 3 (20621 / 100000) (27469 / 100000) (9731 / 10000) (73 / 10000) (29 / 10 ^ 4) c6 c7.le wide
      (by norm_num) (by norm_num) (by norm_num) (pq_hi (by norm_num) (by norm_num) (by norm_num) (by norm_num)) (by norm_num) (by norm_num)
      (by norm_num) (by norm_num) (by norm_num) (by norm_num) (by norm_num) (by norm_num) (by norm_num)
  rcases lt_or_ge a 400 with c8 | c8
  · exact pq_piece 3 400 (27439 / 100000) (29943 / 50000) (1961 / 2000) (201 / 50000) (29 / 10 ^ 4) c7 c8.le wide
      (by norm_num) (by norm_num) (by norm_num) (pq_hi (by norm_num) (by norm_num) (by norm_num) (by norm_num)) (by norm_num) (by norm_num)
      (by norm_num) (by norm_num) (by norm_num) (by norm_num) (by norm_num) (by norm_num) (by norm_num)
  · exact le_trans (by norm_num) (pq_last_piece c8 h1 (by linarith))

end Ezk

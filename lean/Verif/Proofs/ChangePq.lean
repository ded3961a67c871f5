import Verif.Proofs.ChangeApp
import Verif.Proofs.PqApp
import Verif.Proofs.EncodeCont

/-!
# Light beyond white: a change of transfer function and primaries from and to PQ

PQ measures light in cd/m², up to 10000; the other transfer functions have white at 1.
-/

namespace Ezk
open F32 FOps Spec

section
variable {ar : Arith F32} {rr : Arith ℝ} (he : Exact rr)
include he

/-! ## Matrices, for light of any brightness -/

/-- `dot_bound` for arguments of the size `S`. -/
theorem dot_scaled (hi : IsIeee ar) {x a y b z c : F32} {x' a' y' b' z' c' d e S : ℝ} (x1 y1 z1 a1 b1 c1 : ℝ) (E : ℝ)
    (hS1 : 1 / 10 ^ 4 ≤ S) (hS2 : S ≤ 20000)
    (hx : App x x' (d * S) ∧ |x'| ≤ x1 * S) (hy : App y y' (d * S) ∧ |y'| ≤ y1 * S) (hz : App z z' (d * S) ∧ |z'| ≤ z1 * S)
    (ha : App a a' e ∧ |a'| ≤ a1) (hb : App b b' e ∧ |b'| ≤ b1) (hc : App c c' e ∧ |c'| ≤ c1) (hd0 : 0 ≤ d) (hd : d ≤ 1 / 10 ^ 5)
    (hE' : e ≤ 1 / 10 ^ 5) (hbig : x1 ≤ 10 ∧ y1 ≤ 10 ∧ z1 ≤ 10 ∧ a1 ≤ 10 ∧ b1 ≤ 10 ∧ c1 ≤ 10)
    (hpos : 0 ≤ x1 ∧ 0 ≤ y1 ∧ 0 ≤ z1)
    (hE : (x1 + y1 + z1) * e + (a1 + b1 + c1) * d + (3 * (x1 * a1 + y1 * b1) + 2 * (z1 * c1)) * (6 / 10 ^ 8) + 1 / 10 ^ 9 ≤ E) :
    App (dot ar x a y b z c) (dot rr x' a' y' b' z' c') (E * S) := by
  have S0 : 0 ≤ S := by norm_num at hS1; linarith
  have e0 := ha.1.nonneg
  obtain ⟨x0, y0, z0⟩ := hpos
  have a0 := (abs_nonneg _).trans ha.2
  have b0 := (abs_nonneg _).trans hb.2
  have c0 := (abs_nonneg _).trans hc.2
  have p1 := mul_nonneg x0 a0
  have p2 := mul_nonneg y0 b0
  have p3 := mul_nonneg z0 c0
  have de : d * e ≤ 1 / 10 ^ 10 := by
    have := mul_le_mul hd hE' e0 (by norm_num); norm_num at this ⊢; linarith
  have small : ∀ {u v : ℝ}, u ≤ 10 → v ≤ 10 → 0 ≤ u → 0 ≤ v → u * e + v * d + d * e ≤ 21 / 10 ^ 5 := by
    intro u v h1 h2 h3 h4
    have := mul_le_mul h1 hE' e0 (by norm_num)
    have := mul_le_mul h2 hd hd0 (by norm_num)
    norm_num at *; linarith
  have prod : ∀ {u v : ℝ}, u ≤ 10 → v ≤ 10 → 0 ≤ u → 0 ≤ v → u * v ≤ 100 := by
    intro u v h1 h2 h3 h4
    have := mul_le_mul h1 h2 h4 (by norm_num); linarith
  obtain ⟨g1, g2, g3, g4, g5, g6⟩ := hbig
  have t1 := mul_le_mul_of_nonneg_left (small g1 g4 x0 a0) S0
  have t2 := mul_le_mul_of_nonneg_left (small g2 g5 y0 b0) S0
  have t3 := mul_le_mul_of_nonneg_left (small g3 g6 z0 c0) S0
  have u1 := mul_le_mul_of_nonneg_left (prod g1 g4 x0 a0) S0
  have u2 := mul_le_mul_of_nonneg_left (prod g2 g5 y0 b0) S0
  have u3 := mul_le_mul_of_nonneg_left (prod g3 g6 z0 c0) S0
  have w1 := mul_nonneg S0 p1
  have w2 := mul_nonneg S0 p2
  have w3 := mul_nonneg S0 p3
  have q1 := app_mul (B := (x1 * a1 + 3 / 10 ^ 4) * S) hx.1 ha.1 hx.2 ha.2 (by norm_num at t1 ⊢; linarith)
    (by norm_num at hS1 ⊢; linarith) (by norm_num; linarith)
  have q2 := app_mul (B := (y1 * b1 + 3 / 10 ^ 4) * S) hy.1 hb.1 hy.2 hb.2 (by norm_num at t2 ⊢; linarith)
    (by norm_num at hS1 ⊢; linarith) (by norm_num; linarith)
  have q3 := app_mul (B := (z1 * c1 + 3 / 10 ^ 4) * S) hz.1 hc.1 hz.2 hc.2 (by norm_num at t3 ⊢; linarith)
    (by norm_num at hS1 ⊢; linarith) (by norm_num; linarith)
  have v1 : |x' * a'| ≤ x1 * S * a1 := by rw [abs_mul]; exact mul_le_mul hx.2 ha.2 (abs_nonneg _) (by positivity)
  have v2 : |y' * b'| ≤ y1 * S * b1 := by rw [abs_mul]; exact mul_le_mul hy.2 hb.2 (abs_nonneg _) (by positivity)
  have v3 : |z' * c'| ≤ z1 * S * c1 := by rw [abs_mul]; exact mul_le_mul hz.2 hc.2 (abs_nonneg _) (by positivity)
  have s1 := abs_add_le (x' * a') (y' * b')
  have s2 := abs_add_le (x' * a' + y' * b') (z' * c')
  have r1 := app_add (B := (x1 * a1 + y1 * b1 + 5 / 10 ^ 4) * S) q1 q2 (by norm_num at t1 t2 hS1 ⊢; linarith)
    (by norm_num at hS1 ⊢; linarith) (by norm_num; linarith)
  have r2 := app_add (B := (x1 * a1 + y1 * b1 + z1 * c1 + 8 / 10 ^ 4) * S) r1 q3 (by norm_num at t1 t2 t3 hS1 ⊢; linarith)
    (by norm_num at hS1 ⊢; linarith) (by norm_num; linarith)
  simp only [dot, hi.add, hi.mul, he.add, he.mul]
  refine r2.mono (le_trans ?_ (mul_le_mul_of_nonneg_right hE S0))
  have deS := mul_le_mul_of_nonneg_left de S0
  norm_num at *
  linarith

/-- Light in the primaries `sp`, as XYZ. -/
theorem xyz_range_scaled (sp : ColorPrimaries) {p : C3 ℝ} {S : ℝ} (hS : 0 ≤ S) (h1 : |p.1| ≤ 10011 / 10000 * S)
    (h2 : |p.2.1| ≤ 10011 / 10000 * S) (h3 : |p.2.2| ≤ 10011 / 10000 * S) :
    |(rowMul rr p sp.rgbToXyzMat).1| ≤ 96 / 100 * S ∧ |(rowMul rr p sp.rgbToXyzMat).2.1| ≤ 101 / 100 * S ∧
      |(rowMul rr p sp.rgbToXyzMat).2.2| ≤ 110 / 100 * S := by
  rw [abs_le] at h1 h2 h3
  simp only [rowMul, dot, he.add, he.mul, abs_le]
  have := h1.1
  have := h1.2
  have := h2.1
  have := h2.2
  have := h3.1
  have := h3.2
  cases sp <;> simp only [ColorPrimaries.rgbToXyzMat, ST240_RGB_TO_XYZ, BT709_RGB_TO_XYZ, BT2020_RGB_TO_XYZ, lit_real] <;>
    norm_num [Rat.cast_ofScientific] at * <;> refine ⟨⟨?_, ?_⟩, ⟨?_, ?_⟩, ?_, ?_⟩ <;> linarith

/-- Light of an image, in other primaries. -/
theorem mix_range_scaled (sp dp : ColorPrimaries) {p : C3 ℝ} {S : ℝ} (hS : 0 ≤ S) (h1 : 0 ≤ p.1 ∧ p.1 ≤ S)
    (h2 : 0 ≤ p.2.1 ∧ p.2.1 ≤ S) (h3 : 0 ≤ p.2.2 ∧ p.2.2 ≤ S) :
    (-8 / 10 * S ≤ (rowMul rr (rowMul rr p sp.rgbToXyzMat) dp.xyzToRgbMat).1 ∧
      (rowMul rr (rowMul rr p sp.rgbToXyzMat) dp.xyzToRgbMat).1 ≤ 19 / 10 * S) ∧
    (-8 / 10 * S ≤ (rowMul rr (rowMul rr p sp.rgbToXyzMat) dp.xyzToRgbMat).2.1 ∧
      (rowMul rr (rowMul rr p sp.rgbToXyzMat) dp.xyzToRgbMat).2.1 ≤ 19 / 10 * S) ∧
    (-8 / 10 * S ≤ (rowMul rr (rowMul rr p sp.rgbToXyzMat) dp.xyzToRgbMat).2.2 ∧
      (rowMul rr (rowMul rr p sp.rgbToXyzMat) dp.xyzToRgbMat).2.2 ≤ 19 / 10 * S) := by
  simp only [rowMul, dot, he.add, he.mul]
  have := h1.1
  have := h1.2
  have := h2.1
  have := h2.2
  have := h3.1
  have := h3.2
  cases sp <;> cases dp <;> simp only [ColorPrimaries.rgbToXyzMat, ST240_RGB_TO_XYZ, BT709_RGB_TO_XYZ, BT2020_RGB_TO_XYZ,
    ColorPrimaries.xyzToRgbMat, ST240_XYZ_TO_RGB, BT709_XYZ_TO_RGB, BT2020_XYZ_TO_RGB, lit_real] <;>
    norm_num [Rat.cast_ofScientific] at * <;> refine ⟨⟨?_, ?_⟩, ⟨?_, ?_⟩, ?_, ?_⟩ <;> linarith

/-- Rounding errors of a change of primaries. -/
theorem mix_round_scaled (hi : IsIeee ar) (sp dp : ColorPrimaries) {p : C3 F32} {q : C3 ℝ} {S : ℝ} (hS1 : 1 / 10 ^ 4 ≤ S)
    (hS2 : S ≤ 20000) (h1 : App p.1 q.1 0) (h2 : App p.2.1 q.2.1 0) (h3 : App p.2.2 q.2.2 0) (b1 : |q.1| ≤ 10011 / 10000 * S)
    (b2 : |q.2.1| ≤ 10011 / 10000 * S) (b3 : |q.2.2| ≤ 10011 / 10000 * S) :
    App (rowMul ar (rowMul ar p sp.rgbToXyzMat) dp.xyzToRgbMat).1 (rowMul rr (rowMul rr q sp.rgbToXyzMat) dp.xyzToRgbMat).1
      (318 / 10 ^ 8 * S) ∧
    App (rowMul ar (rowMul ar p sp.rgbToXyzMat) dp.xyzToRgbMat).2.1
      (rowMul rr (rowMul rr q sp.rgbToXyzMat) dp.xyzToRgbMat).2.1 (318 / 10 ^ 8 * S) ∧
    App (rowMul ar (rowMul ar p sp.rgbToXyzMat) dp.xyzToRgbMat).2.2
      (rowMul rr (rowMul rr q sp.rgbToXyzMat) dp.xyzToRgbMat).2.2 (318 / 10 ^ 8 * S) := by
  have M := xyz_mat_app sp
  have N := rgb_mat_app dp
  obtain ⟨m1, m2, m3, m4, m5, m6, m7, m8, m9⟩ := xyz_mat_le sp
  obtain ⟨n1, n2, n3, n4, n5, n6, n7, n8, n9⟩ := rgb_mat_le dp
  have S0 : 0 ≤ S := by norm_num at hS1; linarith
  obtain ⟨r1, r2, r3⟩ := xyz_range_scaled he sp S0 b1 b2 b3
  rw [← zero_mul S] at h1 h2 h3
  have X := dot_scaled he hi _ _ _ _ _ _ (31 / 10 ^ 8) hS1 hS2 ⟨h1, b1⟩ ⟨h2, b2⟩ ⟨h3, b3⟩ ⟨M.m00.1, m1⟩ ⟨M.m10.1, m2⟩ ⟨M.m20.1, m3⟩
    (by norm_num) (by norm_num) (by norm_num) (by norm_num) (by norm_num) (by norm_num)
  have Y := dot_scaled he hi _ _ _ _ _ _ (31 / 10 ^ 8) hS1 hS2 ⟨h1, b1⟩ ⟨h2, b2⟩ ⟨h3, b3⟩ ⟨M.m01.1, m4⟩ ⟨M.m11.1, m5⟩ ⟨M.m21.1, m6⟩
    (by norm_num) (by norm_num) (by norm_num) (by norm_num) (by norm_num) (by norm_num)
  have Z := dot_scaled he hi _ _ _ _ _ _ (31 / 10 ^ 8) hS1 hS2 ⟨h1, b1⟩ ⟨h2, b2⟩ ⟨h3, b3⟩ ⟨M.m02.1, m7⟩ ⟨M.m12.1, m8⟩ ⟨M.m22.1, m9⟩
    (by norm_num) (by norm_num) (by norm_num) (by norm_num) (by norm_num) (by norm_num)
  refine ⟨?_, ?_, ?_⟩
  · exact dot_scaled he hi _ _ _ _ _ _ _ hS1 hS2 ⟨X, r1⟩ ⟨Y, r2⟩ ⟨Z, r3⟩ ⟨N.m00.1, n1⟩ ⟨N.m10.1, n2⟩ ⟨N.m20.1, n3⟩
      (by norm_num) (by norm_num) (by norm_num) (by norm_num) (by norm_num) (by norm_num)
  · exact dot_scaled he hi _ _ _ _ _ _ _ hS1 hS2 ⟨X, r1⟩ ⟨Y, r2⟩ ⟨Z, r3⟩ ⟨N.m01.1, n4⟩ ⟨N.m11.1, n5⟩ ⟨N.m21.1, n6⟩
      (by norm_num) (by norm_num) (by norm_num) (by norm_num) (by norm_num) (by norm_num)
  · exact dot_scaled he hi _ _ _ _ _ _ _ hS1 hS2 ⟨X, r1⟩ ⟨Y, r2⟩ ⟨Z, r3⟩ ⟨N.m02.1, n7⟩ ⟨N.m12.1, n8⟩ ⟨N.m22.1, n9⟩
      (by norm_num) (by norm_num) (by norm_num) (by norm_num) (by norm_num) (by norm_num)

/-- A change of primaries of approximate light. -/
theorem mix_app_scaled (hi : IsIeee ar) (sp dp : ColorPrimaries) {p : C3 F32} {q : C3 ℝ} {S : ℝ} (hS1 : 1 / 10 ^ 4 ≤ S)
    (hS2 : S ≤ 20000) (h1 : App p.1 q.1 (57 / 10 ^ 5 * S))
    (h2 : App p.2.1 q.2.1 (57 / 10 ^ 5 * S)) (h3 : App p.2.2 q.2.2 (57 / 10 ^ 5 * S)) (b1 : 0 ≤ q.1 ∧ q.1 ≤ S)
    (b2 : 0 ≤ q.2.1 ∧ q.2.1 ≤ S) (b3 : 0 ≤ q.2.2 ∧ q.2.2 ≤ S) :
    App (rowMul ar (rowMul ar p sp.rgbToXyzMat) dp.xyzToRgbMat).1 (rowMul rr (rowMul rr q sp.rgbToXyzMat) dp.xyzToRgbMat).1
      (149 / 10 ^ 5 * S) ∧
    App (rowMul ar (rowMul ar p sp.rgbToXyzMat) dp.xyzToRgbMat).2.1
      (rowMul rr (rowMul rr q sp.rgbToXyzMat) dp.xyzToRgbMat).2.1 (149 / 10 ^ 5 * S) ∧
    App (rowMul ar (rowMul ar p sp.rgbToXyzMat) dp.xyzToRgbMat).2.2
      (rowMul rr (rowMul rr q sp.rgbToXyzMat) dp.xyzToRgbMat).2.2 (149 / 10 ^ 5 * S) := by
  obtain ⟨x, i1, e1⟩ := h1.is
  obtain ⟨y, i2, e2⟩ := h2.is
  obtain ⟨z, i3, e3⟩ := h3.is
  have S0 : 0 ≤ S := by norm_num at hS1; linarith
  have small : ∀ {x : ℚ} {q : ℝ}, |(x : ℝ) - q| ≤ 57 / 10 ^ 5 * S → 0 ≤ q ∧ q ≤ S → |(x : ℝ)| ≤ 10011 / 10000 * S := by
    intro x q h hq
    rw [abs_le] at h ⊢
    have h1 := h.1
    have h2 := h.2
    norm_num at h1 h2 ⊢
    constructor <;> linarith [hq.1, hq.2]
  obtain ⟨r1, r2, r3⟩ := mix_round_scaled he hi sp dp hS1 hS2 (q := ((x : ℝ), (y : ℝ), (z : ℝ))) i1.app i2.app i3.app (small e1 b1)
    (small e2 b2) (small e3 b3)
  obtain ⟨s1, s2, s3⟩ := mix_lipschitz he sp dp (p := ((x : ℝ), (y : ℝ), (z : ℝ))) e1 e2 e3
  have k : 318 / 10 ^ 8 * S + 26 / 10 * (57 / 10 ^ 5 * S) ≤ 149 / 10 ^ 5 * S := by norm_num; linarith
  exact ⟨(r1.shift s1).mono k, (r2.shift s2).mono k, (r3.shift s3).mono k⟩

/-! ## Samples of PQ images -/

omit he in
/-- A sample of the source, with its relative error. -/
theorem sample_rel (hf : Floats ar) {n : Nat} (hn : n ≤ 255) (h1 : 1 ≤ n) :
    ∃ V : ℚ, Is (ar.div (FOps.ofNat n) (FOps.ofNat 255)) V ∧
    Good (ar.div (FOps.ofNat n) (FOps.ofNat 255)) ∧ 0 < V ∧ V ≤ 1 ∧ |(V : ℝ) - (n : ℝ) / 255| ≤ 6 / 10 ^ 8 * ((n : ℝ) / 255) := by
  obtain ⟨V, hV, hg, V0, V1, -⟩ := sample_is hf hn
  have e := hV
  rw [hf.div, ofNat_eq (by omega), ofNat_eq (by norm_num)] at e
  have n0 : (0 : ℚ) ≤ (n : ℚ) / 255 := by positivity
  have n1 : (n : ℚ) / 255 ≤ 1 := by rw [div_le_one (by norm_num)]; exact_mod_cast hn
  obtain ⟨c, hc, hce⟩ := F32.is_div (is_fin (s := false) (p := (n : ℚ)) (by positivity)) (is_fin (s := false) (p := ((255 : Nat) : ℚ)) (by positivity))
    (by simp [signed]) (by simp only [signed, Bool.false_eq_true, if_false]; push_cast; rw [abs_of_nonneg n0]; linarith)
  obtain rfl := e.unique hc
  simp only [signed, Bool.false_eq_true, if_false] at hce
  have hce' := err_real hce (B := (n : ℝ) / 255) (by push_cast; rw [abs_of_nonneg (by positivity)])
  push_cast at hce'
  have hn1 : (1 : ℝ) ≤ n := by exact_mod_cast h1
  have hr : |(V : ℝ) - (n : ℝ) / 255| ≤ 6 / 10 ^ 8 * ((n : ℝ) / 255) := by
    refine hce'.trans ?_
    norm_num
    linarith
  refine ⟨V, hV, hg, ?_, V1, hr⟩
  rw [abs_le] at hr
  have : (0 : ℝ) < V := by norm_num at hr; linarith [hr.1]
  exact_mod_cast this

omit he in
/-- The PQ decoder, for light above 0, does not magnify relative errors of the signal by more than 1000. -/
theorem pq_decode_rel {u v : ℝ} (hv : 1 / 255 ≤ v) (hv1 : v ≤ 1) (hu : 0 < u) (hu1 : u ≤ 1) (h : |u - v| ≤ 6 / 10 ^ 8 * v) :
    let G (v : ℝ) := (max (v ^ (1 / 78.84375 : ℝ) - 0.8359375) 0 / (18.851563 - v ^ (1 / 78.84375 : ℝ) * 18.6875)) ^ (1 / 0.15930176 : ℝ) *
        10000
    |G u - G v| ≤ 5 / 10 ^ 5 * G v ∧ 0 ≤ G v ∧ G v ≤ 10000 := by
  intro G
  have v0 : 0 < v := by norm_num at hv; linarith
  have e := rpow_rel_root v0 hu (M := 1 / 78.84375) (by norm_num) (by norm_num) h
  have l : 93 / 100 ≤ v ^ (1 / 78.84375 : ℝ) := by
    have a : (93 / 100 : ℝ) ≤ (1 / 255 : ℝ) ^ (1 / 78 : ℝ) := by
      rw [le_rpow_iff (m := 1) (n := 78) (by norm_num) (by norm_num) (by norm_num) (by norm_num)]; norm_num
    refine a.trans ((Real.rpow_le_rpow_of_exponent_ge (by norm_num) (by norm_num) (by norm_num)).trans
      (Real.rpow_le_rpow (by norm_num) hv (by norm_num)))
  have l1 : v ^ (1 / 78.84375 : ℝ) ≤ 1 := Real.rpow_le_one v0.le hv1 (by norm_num)
  have k1 : u ^ (1 / 78.84375 : ℝ) ≤ 1 := Real.rpow_le_one hu.le hu1 (by norm_num)
  simp only [G]
  generalize v ^ (1 / 78.84375 : ℝ) = q at *
  generalize u ^ (1 / 78.84375 : ℝ) = p at *
  have e' : |p - q| ≤ 6 / 10 ^ 8 := e.trans (by norm_num; linarith)
  have e1 := (abs_le.mp e').1
  have e2 := (abs_le.mp e').2
  have pl : 929 / 1000 ≤ p := by norm_num at e1; linarith
  rw [max_eq_left (by norm_num; linarith), max_eq_left (by norm_num; linarith)]
  have q1 : 0 < q - 0.8359375 := by norm_num; linarith
  have q2 : 0 < 18.851563 - q * 18.6875 := by norm_num; linarith
  have p1 : 0 < p - 0.8359375 := by norm_num; linarith
  have p2 : 0 < 18.851563 - p * 18.6875 := by norm_num; linarith
  have d := div_rel (a := p - 0.8359375) (b := 18.851563 - p * 18.6875) (d := 7 / 10 ^ 7) (e := 69 / 10 ^ 7) (k := 77 / 10 ^ 7) q1 q2 p2
    (by rw [abs_le]; norm_num at e1 e2 ⊢; constructor <;> linarith) (by rw [abs_le]; norm_num at e1 e2 ⊢; constructor <;> linarith)
    (by norm_num) (by norm_num) (by norm_num) (by norm_num)
  have r := rpow_rel (M := 1 / 0.15930176) (by positivity) (by positivity) (by norm_num) (by norm_num) d
  have hq1 : (q - 0.8359375) / (18.851563 - q * 18.6875) ≤ 1 := by
    rw [div_le_one q2]; norm_num; linarith
  have g1 := Real.rpow_le_one (by positivity) hq1 (show (0 : ℝ) ≤ 1 / 0.15930176 by norm_num)
  have g0 : 0 ≤ ((q - 0.8359375) / (18.851563 - q * 18.6875)) ^ (1 / 0.15930176 : ℝ) := by positivity
  refine ⟨?_, by positivity, by linarith⟩
  rw [← sub_mul, abs_mul, abs_of_pos (show (0 : ℝ) < 10000 by norm_num)]
  generalize ((q - 0.8359375) / (18.851563 - q * 18.6875)) ^ (1 / 0.15930176 : ℝ) = Y at *
  generalize ((p - 0.8359375) / (18.851563 - p * 18.6875)) ^ (1 / 0.15930176 : ℝ) = Z at *
  norm_num at r ⊢
  linarith

/-- Light of a sample of a PQ image. -/
theorem light_pq_app (hf : Floats ar) {n : Nat} (hn : n ≤ 255) :
    App (decodeTransfer ar .BT2100PQ (ar.div (FOps.ofNat n) (FOps.ofNat 255))) (decodeTransfer rr .BT2100PQ ((n : ℝ) / 255))
      (56 / 10 ^ 5 * decodeTransfer rr .BT2100PQ ((n : ℝ) / 255) + 2 / 10 ^ 10) ∧
      0 ≤ decodeTransfer rr .BT2100PQ ((n : ℝ) / 255) ∧ decodeTransfer rr .BT2100PQ ((n : ℝ) / 255) ≤ 10000 := by
  have n0 : (0 : ℝ) ≤ (n : ℝ) / 255 := by positivity
  rw [dec_pq he, max_eq_left n0]
  rcases Nat.eq_zero_or_pos n with rfl | h1
  · obtain ⟨V, hV, hg, V0, V1, hd⟩ := sample_is hf hn
    have hz : V = 0 := by
      have e : ar.div (FOps.ofNat 0) (FOps.ofNat 255) = (fin false 0 : F32) := by
        rw [hf.div]; decide +kernel
      rw [e] at hV
      exact hV.unique is_zero
    have h := dec_pq_app hf hV hg V0 V1
    rw [hz] at h
    simp only [Rat.cast_zero, Nat.cast_zero, zero_div] at h ⊢
    rw [Real.zero_rpow (by norm_num)] at h ⊢
    have z : (max ((0 : ℝ) - 0.8359375) 0 / (18.851563 - 0 * 18.6875)) ^ (1 / 0.15930176 : ℝ) * 10000 = 0 := by
      rw [max_eq_right (by norm_num), zero_div, Real.zero_rpow (by norm_num), zero_mul]
    rw [z] at h ⊢
    exact ⟨h.mono (by norm_num), le_refl _, by norm_num⟩
  · obtain ⟨V, hV, hg, V0, V1, hd⟩ := sample_rel hf hn h1
    have h := dec_pq_app hf hV hg V0.le V1
    have hn1 : (1 : ℝ) ≤ n := by exact_mod_cast h1
    have hn2 : (n : ℝ) ≤ 255 := by exact_mod_cast hn
    obtain ⟨r1, r2, r3⟩ := pq_decode_rel (u := V) (v := (n : ℝ) / 255) (by linarith) (by linarith) (by exact_mod_cast V0)
      (by exact_mod_cast V1) hd
    simp only at r1 r2 r3
    refine ⟨(h.shift r1).mono ?_, r2, r3⟩
    have := (abs_le.mp r1).2
    generalize (max ((V : ℝ) ^ (1 / 78.84375 : ℝ) - 0.8359375) 0 / (18.851563 - (V : ℝ) ^ (1 / 78.84375 : ℝ) * 18.6875)) ^
      (1 / 0.15930176 : ℝ) * 10000 = A at *
    generalize (max (((n : ℝ) / 255) ^ (1 / 78.84375 : ℝ) - 0.8359375) 0 / (18.851563 - ((n : ℝ) / 255) ^ (1 / 78.84375 : ℝ) * 18.6875)) ^
      (1 / 0.15930176 : ℝ) * 10000 = B at *
    norm_num at this ⊢
    linarith

/-! ## Encoders outside of their usual range -/

omit he in
/-- Roots of light beyond white. -/
theorem root_far (hf : Floats ar) {x c : F32} {X C : ℚ} (hx : Is x X) (hg : Good x) (h2 : 2 ≤ X) (h3 : X ≤ 19900) (hc : Is c C)
    (hC : 1 / 3 ≤ C) (hC2 : C ≤ 46 / 100) : ∃ r : ℚ, Is (ar.pow x c) r ∧ 124 / 100 ≤ (r : ℝ) ∧ (r : ℝ) ≤ 951 / 10 := by
  have h2r : (2 : ℝ) ≤ X := by exact_mod_cast h2
  have h3r : (X : ℝ) ≤ 19900 := by exact_mod_cast h3
  have hCr : (1 / 3 : ℝ) ≤ C := by
    have := (Rat.cast_le (K := ℝ)).mpr hC; push_cast at this; exact this
  have hC2r : (C : ℝ) ≤ 46 / 100 := by
    have := (Rat.cast_le (K := ℝ)).mpr hC2; push_cast at this; exact this
  have hr := (hg.is hx).1
  rw [abs_of_pos (by linarith)] at hr
  have hlog : Real.log X ≤ 10 := by
    rw [Real.log_le_iff_le_exp (by linarith)]
    have : Real.exp 10 = Real.exp 1 ^ 10 := by rw [← Real.exp_nat_mul]; norm_num
    rw [this]
    refine h3r.trans (le_trans ?_ (pow_le_pow_left₀ (by norm_num) Real.exp_one_gt_d9.le 10))
    norm_num
  have hlog0 : 0 ≤ Real.log X := Real.log_nonneg (by linarith)
  obtain ⟨r, e, r0, hre⟩ := hf.lib.pow.1 hr (by norm_num; linarith) (by norm_num; linarith) hc
    (by rw [abs_of_nonneg (by linarith)]; linarith) (by nlinarith)
  have e' : ar.pow x c = fin false r := by rw [hx.pos (by linarith)]; exact e
  refine ⟨r, by rw [e']; exact is_fin (s := false) r0, ?_⟩
  have lo : (1259 / 1000 : ℝ) ≤ (X : ℝ) ^ (C : ℝ) := by
    have a : (1259 / 1000 : ℝ) ≤ (2 : ℝ) ^ (1 / 3 : ℝ) := by
      rw [le_rpow_iff (m := 1) (n := 3) (by norm_num) (by norm_num) (by norm_num) (by norm_num)]; norm_num
    exact a.trans ((Real.rpow_le_rpow_of_exponent_le (by norm_num) hCr).trans (Real.rpow_le_rpow (by norm_num) h2r (by linarith)))
  have hi : (X : ℝ) ^ (C : ℝ) ≤ 95 := by
    have a : (19900 : ℝ) ^ (46 / 100 : ℝ) < 95 := by
      rw [rpow_lt_iff (m := 23) (n := 50) (by norm_num) (by norm_num) (by norm_num) (by norm_num)]; norm_num
    exact ((Real.rpow_le_rpow (by linarith) h3r (by linarith)).trans
      (Real.rpow_le_rpow_of_exponent_le (by norm_num) hC2r)).trans a.le
  have co : (43 / 10 ^ 8 + 17 / 10 ^ 8 * |(C : ℝ)| * (1 + |Real.log X|)) ≤ 1 / 10 ^ 5 := by
    rw [abs_of_nonneg (by linarith : (0 : ℝ) ≤ C), abs_of_nonneg hlog0]
    have : (C : ℝ) * (1 + Real.log X) ≤ 46 / 100 * 11 := mul_le_mul hC2r (by linarith) (by linarith) (by norm_num)
    norm_num at this ⊢
    linarith
  have co2 := mul_le_mul_of_nonneg_right co (by linarith : (0 : ℝ) ≤ (X : ℝ) ^ (C : ℝ))
  generalize (X : ℝ) ^ (C : ℝ) = W at *
  rw [abs_le] at hre
  norm_num at hre co2 ⊢
  constructor <;> linarith [hre.1, hre.2]

omit he in
/-- A multiple of a root, less a constant. -/
theorem power_far (hf : Floats ar) {x a b c : F32} {X C A B : ℚ} (hx : Is x X) (hg : Good x) (h2 : 2 ≤ X) (h3 : X ≤ 19900) (hc : Is c C)
    (hC : 1 / 3 ≤ C) (hC2 : C ≤ 46 / 100) (ha : Is a A) (hb : Is b B) (hA : 105 / 100 ≤ A) (hA2 : A ≤ 11 / 10) (hB : 0 ≤ B)
    (hB2 : B ≤ 1 / 10) : ∃ r : ℚ, Is (ar.sub (ar.mul a (ar.pow x c)) b) r ∧ 1 ≤ (r : ℝ) ∧ (r : ℝ) ≤ 110 := by
  obtain ⟨r, hr, r1, r2⟩ := root_far hf hx hg h2 h3 hc hC hC2
  rw [hf.sub, hf.mul]
  have hAr : (105 / 100 : ℝ) ≤ A := by
    have := (Rat.cast_le (K := ℝ)).mpr hA; push_cast at this; exact this
  have hA2r : (A : ℝ) ≤ 11 / 10 := by
    have := (Rat.cast_le (K := ℝ)).mpr hA2; push_cast at this; exact this
  have hBr : (0 : ℝ) ≤ B := by exact_mod_cast hB
  have hB2r : (B : ℝ) ≤ 1 / 10 := by
    have := (Rat.cast_le (K := ℝ)).mpr hB2; push_cast at this; exact this
  have l := mul_le_mul hAr r1 (by norm_num) (by linarith)
  have u := mul_le_mul hA2r r2 (by linarith) (by norm_num)
  have s1 := app_mul (B := 105) ha.app hr.app (A := 11 / 10) (C := 951 / 10) (by rw [abs_of_nonneg (by linarith)]; exact hA2r)
    (by rw [abs_of_nonneg (by linarith)]; exact r2) (by norm_num) (by norm_num) (by norm_num)
  have s2 := app_sub (B := 105) s1 hb.app (by
    rw [abs_of_nonneg (by norm_num at l; linarith)]; norm_num at u ⊢; linarith) (by norm_num) (by norm_num)
  obtain ⟨q, hq, hqe⟩ := s2.is
  refine ⟨q, hq, ?_⟩
  rw [abs_le] at hqe
  norm_num at hqe l u
  constructor <;> linarith [hqe.1, hqe.2]

omit he in
/-- HLG of light beyond white. -/
theorem hlg_far (hf : Floats ar) {x : F32} {X : ℚ} (hx : Is x X) (hg : Good x) (h2 : 2 ≤ X) (h3 : X ≤ 19900) :
    ∃ r : ℚ, Is (encodeTransfer ar .BT2100HLG x) r ∧ 1 ≤ (r : ℝ) ∧ (r : ℝ) ≤ 110 := by
  have h2r : (2 : ℝ) ≤ X := by exact_mod_cast h2
  have h3r : (X : ℝ) ≤ 19900 := by exact_mod_cast h3
  simp only [encodeTransfer, hlgEncode]
  obtain ⟨hm, hgm⟩ := max_is hf hx hg
  rw [max_eq_left (by linarith)] at hm
  generalize ar.max x (lit 0.0) = m at *
  rw [hf.le hm is_112 (by linarith) (by norm_num), if_neg (by norm_num; linarith), hf.add, hf.mul, hf.sub]
  have hA : App (Hlg.A : F32) 0.17883277 (1 / 10 ^ 8) :=
    app_const (q := 0.17883277) (d := 1 / 10 ^ 8) (by decide +kernel) (by norm_num) (by norm_num)
  have hC : App (Hlg.C : F32) 0.5599107 (2 / 10 ^ 8) :=
    app_const (q := 0.5599107) (d := 2 / 10 ^ 8) (by decide +kernel) (by norm_num) (by norm_num)
  have hB : App (Hlg.B' : F32) 0.28466892 (1 / 10 ^ 8) :=
    app_const (q := 0.28466892) (d := 1 / 10 ^ 8) (by decide +kernel) (by norm_num) (by norm_num)
  have s1 := app_mul (B := 300000) is_12.app hm.app (A := 12) (C := 19900) (by norm_num) (by rw [abs_of_nonneg (by linarith)]; exact h3r)
    (by norm_num) (by norm_num) (by norm_num)
  have s2 := app_sub (B := 300000) s1 hB (by
    push_cast; rw [abs_of_nonneg (by norm_num; linarith)]; norm_num; linarith) (by norm_num) (by norm_num)
  have hgq : Good (F32.sub (F32.mul (lit 12.0) m) Hlg.B') := good_sub (good_mul (good_lit _) hgm) (good_lit _)
  obtain ⟨q, hq, hqe⟩ := s2.is
  rw [abs_le] at hqe
  push_cast at hqe
  have q1 : (23 : ℝ) ≤ q := by norm_num at hqe; linarith [hqe.1]
  have q2 : (q : ℝ) ≤ 300000 := by norm_num at hqe; linarith [hqe.2]
  have q1q : 23 ≤ q := by exact_mod_cast q1
  have q2q : q ≤ 300000 := by exact_mod_cast q2
  have hrep := (hgq.is hq).1
  rw [abs_of_pos (by linarith)] at hrep
  have hln := hf.lib.ln hrep (by norm_num; linarith) (by norm_num; linarith)
  rw [← hq.pos (by linarith)] at hln
  have l1 : 3 ≤ Real.log q := by
    rw [Real.le_log_iff_exp_le (by linarith)]
    have : Real.exp 3 = Real.exp 1 ^ 3 := by rw [← Real.exp_nat_mul]; norm_num
    rw [this]
    refine (pow_le_pow_left₀ (Real.exp_pos 1).le Real.exp_one_lt_d9.le 3).trans (le_trans ?_ q1)
    norm_num
  have l2 : Real.log q ≤ 13 := by
    rw [Real.log_le_iff_le_exp (by linarith)]
    have : Real.exp 13 = Real.exp 1 ^ 13 := by rw [← Real.exp_nat_mul]; norm_num
    rw [this]
    refine q2.trans (le_trans ?_ (pow_le_pow_left₀ (by norm_num) Real.exp_one_gt_d9.le 13))
    norm_num
  have hlog := hln.mono (e' := 2 / 10 ^ 6) (by rw [abs_of_nonneg (by linarith)]; norm_num; linarith)
  have s3 := app_mul (B := 3) hA hlog (A := 18 / 100) (C := 13) (by rw [abs_of_nonneg] <;> norm_num)
    (by rw [abs_of_nonneg (by linarith)]; exact l2) (by norm_num) (by norm_num) (by norm_num)
  have s4 := app_add (B := 4) s3 hC (by
    rw [abs_of_nonneg (by norm_num; linarith)]; norm_num; linarith) (by norm_num) (by norm_num)
  obtain ⟨r, hr, hre⟩ := s4.is
  refine ⟨r, hr, ?_⟩
  rw [abs_le] at hre
  norm_num at hre
  constructor <;> linarith [hre.1, hre.2]

/-- Light beyond white is encoded as 1 or more. -/
theorem enc_over (hf : Floats ar) {t : ColorTransfer} (ht : t ≠ .BT2100PQ) {x : F32} {X : ℚ} (hx : Is x X) (hg : Good x)
    (h2 : 2 ≤ X) (h3 : X ≤ 19900) :
    1 ≤ encodeTransfer rr t X ∧
      ∃ r : ℚ, Is (encodeTransfer ar t x) r ∧ 1 ≤ (r : ℝ) ∧ (t ≠ .Linear → (r : ℝ) ≤ 110) ∧ (t = .Linear → r = X) := by
  have h2r : (2 : ℝ) ≤ X := by exact_mod_cast h2
  have pw : ∀ Z : ℝ, 0 ≤ Z → 1 ≤ (X : ℝ) ^ Z := fun Z hZ => Real.one_le_rpow (by linarith) hZ
  have fin : (∃ r : ℚ, Is (encodeTransfer ar t x) r ∧ 1 ≤ (r : ℝ) ∧ (r : ℝ) ≤ 110) → t ≠ .Linear →
      ∃ r : ℚ, Is (encodeTransfer ar t x) r ∧ 1 ≤ (r : ℝ) ∧ (t ≠ .Linear → (r : ℝ) ≤ 110) ∧ (t = .Linear → r = X) := by
    rintro ⟨r, h, h1, h2⟩ hl
    exact ⟨r, h, h1, fun _ => h2, fun h => absurd h hl⟩
  cases t with
  | Linear =>
    simp only [encodeTransfer]
    exact ⟨by linarith, X, hx, by linarith, fun h => absurd rfl h, fun _ => rfl⟩
  | Gamma22 =>
    rw [enc_gamma22 he]
    refine ⟨pw _ (by norm_num), fin ?_ nofun⟩
    obtain ⟨r, h, r1, r2⟩ := root_far hf hx hg h2 h3 is_i22 (by norm_num) (by norm_num)
    exact ⟨r, h, by linarith, by linarith⟩
  | Gamma28 =>
    rw [enc_gamma28 he]
    refine ⟨pw _ (by norm_num), fin ?_ nofun⟩
    obtain ⟨r, h, r1, r2⟩ := root_far hf hx hg h2 h3 is_i28 (by norm_num) (by norm_num)
    exact ⟨r, h, by linarith, by linarith⟩
  | SRGB =>
    rw [enc_srgb he, if_neg (by norm_num; linarith)]
    refine ⟨?_, fin ?_ nofun⟩
    · have := pw (1 / 2.4) (by norm_num)
      generalize (X : ℝ) ^ (1 / 2.4 : ℝ) = a at *
      norm_num; linarith
    · simp only [encodeTransfer]
      rw [hf.le hx is_srgb_enc (by linarith) (by norm_num), if_neg (by norm_num; linarith)]
      exact power_far hf hx hg h2 h3 is_i24 (by norm_num) (by norm_num) is_1055 is_0055 (by norm_num) (by norm_num) (by norm_num) (by norm_num)
  | SDR =>
    rw [enc_sdr he, if_neg (by norm_num; linarith)]
    refine ⟨?_, fin ?_ nofun⟩
    · have := pw 0.45 (by norm_num)
      generalize (X : ℝ) ^ (0.45 : ℝ) = a at *
      norm_num; linarith
    · simp only [encodeTransfer]
      rw [hf.lt hx is_sdr_enc (by linarith) (by norm_num), if_neg (by norm_num; linarith)]
      exact power_far hf hx hg h2 h3 is_045 (by norm_num) (by norm_num) is_1099 is_0099 (by norm_num) (by norm_num) (by norm_num) (by norm_num)
  | BT2100PQ => exact absurd rfl ht
  | BT2100HLG =>
    refine ⟨?_, fin (hlg_far hf hx hg h2 h3) nofun⟩
    rw [enc_hlg he, max_eq_left (by linarith), if_neg (by linarith)]
    have l1 : 3 ≤ Real.log (12 * (X : ℝ) - 0.28466892) := by
      rw [Real.le_log_iff_exp_le (by norm_num; linarith)]
      have : Real.exp 3 = Real.exp 1 ^ 3 := by rw [← Real.exp_nat_mul]; norm_num
      rw [this]
      refine (pow_le_pow_left₀ (Real.exp_pos 1).le Real.exp_one_lt_d9.le 3).trans ?_
      norm_num; linarith
    generalize Real.log (12 * (X : ℝ) - 0.28466892) = L at *
    norm_num; linarith

omit he in
/-- PQ of light beyond the brightest. -/
theorem pq_over (hf : Floats ar) {x : F32} {X : ℚ} (hx : Is x X) (hg : Good x) (h0 : 10000 ≤ X) (h1 : X ≤ 36000) :
    ∃ r : ℚ, Is (encodeTransfer ar .BT2100PQ x) r ∧ 1 - 5 / 10 ^ 5 ≤ (r : ℝ) ∧ (r : ℝ) ≤ 2 := by
  have h0r : (10000 : ℝ) ≤ X := by exact_mod_cast h0
  have h1r : (X : ℝ) ≤ 36000 := by exact_mod_cast h1
  simp only [encodeTransfer, pqEncode]
  obtain ⟨hm, hgm⟩ := max_is hf hx hg
  rw [max_eq_left (by linarith)] at hm
  generalize ar.max x (FOps.lit 0.0) = m at *
  obtain ⟨c, hc, hce⟩ := F32.is_div hm is_pqL (by norm_num) (by
    rw [abs_of_nonneg (by linarith)]; linarith)
  have hgd : Good (F32.div m Pq.L) := good_div hgm (good_lit _)
  have hcr := err_real hce (B := 36 / 10) (by push_cast; rw [abs_of_nonneg (by linarith)]; linarith)
  push_cast at hcr
  rw [abs_le] at hcr
  have c0 : (999999 / 1000000 : ℝ) ≤ c := by norm_num at hcr ⊢; linarith [hcr.1]
  have c1 : (c : ℝ) ≤ 361 / 100 := by norm_num at hcr ⊢; linarith [hcr.2]
  have c1' : 1 - 25 / 10 ^ 8 ≤ (c : ℝ) := by norm_num at hcr ⊢; linarith [hcr.1]
  have c0q : 0 ≤ c := by
    have : (0 : ℝ) ≤ c := by linarith
    exact_mod_cast this
  obtain ⟨Y, hY, hcase⟩ := pow_log hf hc hgd c0q (by
      have : (c : ℝ) ≤ 4 := by linarith
      exact_mod_cast this) is_pqM1 (by norm_num) (by norm_num) (by
      intro h
      have := Real.log_le_sub_one_of_pos (show (0 : ℝ) < c by exact_mod_cast h)
      push_cast
      linarith)
  rw [hf.div]
  generalize ar.pow (F32.div m Pq.L) Pq.M1 = y at *
  have hY2 : 1 - 13 / 10 ^ 7 ≤ (Y : ℝ) ∧ (Y : ℝ) ≤ 123 / 100 := by
    rcases hcase with ⟨-, Y0, hYe⟩ | ⟨hs, -⟩
    · have eM : (((1305 / 8192 : ℚ)) : ℝ) = 1305 / 8192 := by push_cast; rfl
      rw [eM] at hYe
      have cp : (0 : ℝ) < c := by linarith
      have lo : 1 - 25 / 10 ^ 8 ≤ (c : ℝ) ^ (1305 / 8192 : ℝ) := by
        rcases le_total 1 (c : ℝ) with h | h
        · exact le_trans (by norm_num) (Real.one_le_rpow h (by norm_num))
        · refine c1'.trans ?_
          have := Real.rpow_le_rpow_of_exponent_ge cp h (show (1305 / 8192 : ℝ) ≤ 1 by norm_num)
          rwa [Real.rpow_one] at this
      have hi : (c : ℝ) ^ (1305 / 8192 : ℝ) ≤ 1229 / 1000 := by
        have a : (361 / 100 : ℝ) ^ (4 / 25 : ℝ) < 1229 / 1000 := by
          rw [rpow_lt_iff (m := 4) (n := 25) (by norm_num) (by norm_num) (by norm_num) (by norm_num)]; norm_num
        have b := (Real.rpow_le_rpow cp.le c1 (show (0 : ℝ) ≤ 1305 / 8192 by norm_num)).trans
          (Real.rpow_le_rpow_of_exponent_le (show (1 : ℝ) ≤ 361 / 100 by norm_num) (show (1305 / 8192 : ℝ) ≤ 4 / 25 by norm_num))
        linarith
      have hlog : |Real.log c| ≤ 27 / 10 := by
        have l1 := Real.one_sub_inv_le_log_of_pos cp
        have l2 := Real.log_le_sub_one_of_pos cp
        have : (c : ℝ)⁻¹ ≤ 2 := by
          rw [inv_le_comm₀ cp (by norm_num)]; norm_num; linarith
        rw [abs_le]; constructor <;> linarith
      have co : 43 / 10 ^ 8 + 17 / 10 ^ 8 * (1305 / 8192 : ℝ) * (1 + |Real.log c|) ≤ 54 / 10 ^ 8 := by
        norm_num; linarith
      have co2 := mul_le_mul_of_nonneg_right co (by linarith : (0 : ℝ) ≤ (c : ℝ) ^ (1305 / 8192 : ℝ))
      generalize (c : ℝ) ^ (1305 / 8192 : ℝ) = W at *
      rw [abs_le] at hYe
      norm_num at hYe co2 lo hi ⊢
      constructor <;> linarith [hYe.1, hYe.2]
    · exfalso
      have : ((c : ℚ) : ℝ) < (((2 : ℚ) ^ (-126 : Int) : ℚ) : ℝ) := by exact_mod_cast hs
      push_cast at this
      norm_num at this
      linarith
  obtain ⟨y0, y1⟩ := hY2
  have y0' : -3 / 10 ^ 6 ≤ (Y : ℝ) := by norm_num at y0 ⊢; linarith
  rw [hf.add, hf.mul]
  obtain ⟨b, hb, hgb, hbF⟩ := pq_base hY y0' y1
  obtain ⟨f0, f1⟩ := pqF_wide y0' y1
  have hF : 1 ≤ pqF Y := by
    unfold pqF
    rw [one_le_div₀ (by norm_num at y0 ⊢; linarith)]
    norm_num at y0 ⊢
    linarith
  have hp := pq_second_rel hf hb hgb f0 f1 hbF
  have W0 : 1 ≤ pqF Y ^ (78.84375 : ℝ) := Real.one_le_rpow hF (by norm_num)
  have W1 : pqF Y ^ (78.84375 : ℝ) ≤ 12 / 10 := by
    calc pqF Y ^ (78.84375 : ℝ) ≤ (1 + 2 / 1000) ^ (78.84375 : ℝ) := Real.rpow_le_rpow (by linarith) f1 (by norm_num)
      _ ≤ (1 + 2 / 1000) ^ ((79 : ℕ) : ℝ) := Real.rpow_le_rpow_of_exponent_le (by norm_num) (by norm_num)
      _ = (1 + 2 / 1000) ^ (79 : ℕ) := Real.rpow_natCast _ _
      _ ≤ _ := by norm_num
  obtain ⟨r, hr, hre⟩ := hp.is
  refine ⟨r, hr, ?_⟩
  generalize pqF Y ^ (78.84375 : ℝ) = W at *
  rw [abs_le] at hre
  norm_num at hre ⊢
  constructor <;> linarith [hre.1, hre.2]

theorem enc_pqF (l : ℝ) : encodeTransfer rr .BT2100PQ l = pqF ((max l 0 / 10000) ^ (0.15930176 : ℝ)) ^ (78.84375 : ℝ) := by
  rw [enc_pq he]; rfl

theorem enc_pq_over {l : ℝ} (h : 10000 ≤ l) : 1 ≤ encodeTransfer rr .BT2100PQ l := by
  rw [enc_pqF he, max_eq_left (by linarith)]
  have t : 1 ≤ (l / 10000) ^ (0.15930176 : ℝ) := Real.one_le_rpow (by linarith) (by norm_num)
  refine Real.one_le_rpow ?_ (by norm_num)
  unfold pqF
  rw [one_le_div₀ (by norm_num; linarith)]
  norm_num
  linarith

theorem enc_pq_range {l : ℝ} (h1 : l ≤ 10000) : 0 ≤ encodeTransfer rr .BT2100PQ l ∧ encodeTransfer rr .BT2100PQ l ≤ 2 := by
  rw [enc_pqF he]
  have t0 : 0 ≤ (max l 0 / 10000) ^ (0.15930176 : ℝ) := Real.rpow_nonneg (div_nonneg (le_max_right _ _) (by norm_num)) _
  have t1 : (max l 0 / 10000) ^ (0.15930176 : ℝ) ≤ 1 :=
    Real.rpow_le_one (div_nonneg (le_max_right _ _) (by norm_num)) (by
      rw [div_le_one (by norm_num)]; exact max_le h1 (by norm_num)) (by norm_num)
  obtain ⟨f0, f1⟩ := pqF_wide (y := (max l 0 / 10000) ^ (0.15930176 : ℝ)) (by norm_num; linarith) (by linarith)
  refine ⟨Real.rpow_nonneg (by linarith) _, ?_⟩
  calc pqF _ ^ (78.84375 : ℝ) ≤ (1 + 2 / 1000) ^ (78.84375 : ℝ) := Real.rpow_le_rpow (by linarith) f1 (by norm_num)
    _ ≤ (1 + 2 / 1000) ^ ((79 : ℕ) : ℝ) := Real.rpow_le_rpow_of_exponent_le (by norm_num) (by norm_num)
    _ = (1 + 2 / 1000) ^ (79 : ℕ) := Real.rpow_natCast _ _
    _ ≤ _ := by norm_num

/-- The PQ encoder, for any light that is not beyond the brightest. -/
theorem enc_pq_near (hf : Floats ar) {x : F32} {X : ℚ} (hx : Is x X) (hg : Good x) (h1 : X ≤ 10000) :
    App (encodeTransfer ar .BT2100PQ x) (encodeTransfer rr .BT2100PQ X) (5 / 10 ^ 5) := by
  obtain ⟨hm, hgm⟩ := max_is hf hx hg
  have := enc_pq_max hf hm hgm (le_max_right _ _) (max_le h1 (by norm_num))
  rw [enc_pqF he]
  push_cast at this
  exact this

/-- How the PQ encoder moves with the light. -/
theorem enc_pq_cont {u v : ℝ} (hu : 0 ≤ u) (huv : u ≤ v) (hv : v ≤ 3) (hd : v - u ≤ 12 / 10 ^ 6) :
    |encodeTransfer rr .BT2100PQ v - encodeTransfer rr .BT2100PQ u| ≤ 23 / 10 ^ 4 := by
  rw [enc_pqF he, enc_pqF he, max_eq_left hu, max_eq_left (hu.trans huv)]
  have hexp : ∀ {a c : ℝ}, 0 < a → a ≤ 1 → 0 ≤ c → a ^ 7 < c ^ 44 → a ^ (0.15930176 : ℝ) ≤ c := by
    intro a c h0 h1 hc h
    refine (Real.rpow_le_rpow_of_exponent_ge h0 h1 (show (7 / 44 : ℝ) ≤ 0.15930176 by norm_num)).trans ?_
    exact ((rpow_lt_iff (m := 7) (n := 44) (by norm_num) (by norm_num) hc h0.le).mpr h).le
  have t0 : 0 ≤ (u / 10000) ^ (0.15930176 : ℝ) := Real.rpow_nonneg (by linarith) _
  have tuv : (u / 10000) ^ (0.15930176 : ℝ) ≤ (v / 10000) ^ (0.15930176 : ℝ) :=
    Real.rpow_le_rpow (by linarith) (by linarith) (by norm_num)
  have tn : (-3 / 10 ^ 6 : ℝ) ≤ (u / 10000) ^ (0.15930176 : ℝ) := le_trans (by norm_num) t0
  have tv1 : (v / 10000) ^ (0.15930176 : ℝ) ≤ 1 := Real.rpow_le_one (by linarith) (by linarith) (by norm_num)
  have f0 := (pqF_bounds tn (by norm_num; linarith)).1
  have hmono := Real.rpow_le_rpow (by linarith) (pqF_mono tn tuv) (show (0 : ℝ) ≤ 78.84375 by norm_num)
  rw [abs_of_nonneg (by linarith)]
  rcases lt_or_ge u (12 / 10 ^ 5) with h | h
  · have h1 : (v / 10000) ^ (0.15930176 : ℝ) ≤ 56 / 1000 := by
      refine (Real.rpow_le_rpow (by linarith) (show v / 10000 ≤ 132 / 10 ^ 10 by norm_num at *; linarith) (by norm_num)).trans ?_
      exact hexp (by norm_num) (by norm_num) (by norm_num) (by norm_num)
    have h2 : pqF ((v / 10000) ^ (0.15930176 : ℝ)) ≤ 925 / 1000 := by
      refine (pqF_mono (tn.trans tuv) h1).trans ?_
      unfold pqF; norm_num
    have h3 : pqF ((v / 10000) ^ (0.15930176 : ℝ)) ^ (78.84375 : ℝ) ≤ 23 / 10 ^ 4 := by
      have f1 := (pqF_bounds (tn.trans tuv) (by norm_num; linarith)).1
      refine (Real.rpow_le_rpow (by linarith) h2 (by norm_num)).trans ?_
      refine (Real.rpow_le_rpow_of_exponent_ge (by norm_num) (by norm_num) (show ((78 : ℕ) : ℝ) ≤ 78.84375 by norm_num)).trans ?_
      rw [Real.rpow_natCast]
      norm_num
    have h4 : 0 ≤ pqF ((u / 10000) ^ (0.15930176 : ℝ)) ^ (78.84375 : ℝ) := Real.rpow_nonneg (by linarith) _
    linarith
  · have h1 := root_lip (T := 12 / 10 ^ 9) (Z := 0.15930176) (a := u / 10000) (b := v / 10000) (by norm_num)
      (by norm_num at *; linarith) (by linarith) (by norm_num) (by norm_num)
    have h2 : (12 / 10 ^ 9 : ℝ) ^ (0.15930176 : ℝ) ≤ 551 / 10000 := hexp (by norm_num) (by norm_num) (by norm_num) (by norm_num)
    have h3 : (0.15930176 : ℝ) * ((12 / 10 ^ 9 : ℝ) ^ (0.15930176 : ℝ) / (12 / 10 ^ 9)) * (v / 10000 - u / 10000) ≤ 88 / 10 ^ 5 := by
      calc _ ≤ (0.15930176 : ℝ) * (551 / 10000 / (12 / 10 ^ 9)) * (12 / 10 ^ 10) := by
            have : v / 10000 - u / 10000 ≤ 12 / 10 ^ 10 := by norm_num at *; linarith
            have h0 : 0 ≤ v / 10000 - u / 10000 := by linarith
            gcongr
        _ ≤ 88 / 10 ^ 5 := by norm_num
    have h4 := pq_slope tn tuv (by norm_num; linarith) (by norm_num at *; linarith)
    norm_num at h1 h3 h4 ⊢
    linarith

theorem enc_pq_gap {a b : ℝ} (ha : 0 ≤ a) (hb : 0 ≤ b) (ha3 : a ≤ 3) (hb3 : b ≤ 3) (hd : |a - b| ≤ 12 / 10 ^ 6) :
    |encodeTransfer rr .BT2100PQ a - encodeTransfer rr .BT2100PQ b| ≤ 23 / 10 ^ 4 := by
  rw [abs_le] at hd
  rcases le_total a b with h | h
  · rw [abs_sub_comm]; exact enc_pq_cont he ha h hb3 (by linarith [hd.1])
  · exact enc_pq_cont he hb h ha3 (by linarith [hd.2])

/-! ## All of it -/

/-- The error of an encoder. -/
noncomputable def encodeError (t : ColorTransfer) : ℝ := if t = .BT2100PQ then 5 / 10 ^ 5 else 21 / 10 ^ 7

/-- The encoded signal `v`, multiplied by 255 and stored, is that of the light `l`, clamped to what can be stored. -/
def EncodesTo (rr : Arith ℝ) (t : ColorTransfer) (v : F32) (l : ℝ) : Prop :=
  (v = .nan ∧ encodeTransfer rr t l = 0) ∨
  (∃ r, App v r (encodeError t) ∧ r ≤ 10 ∧ -20 ≤ r ∧ max 0 r = max 0 (encodeTransfer rr t l)) ∨
  (∃ q : ℚ, Is v q ∧ q ≤ -1 ∧ -300000 ≤ q ∧ encodeTransfer rr t l = 0) ∨
  (∃ q : ℚ, Is v q ∧ 1 - encodeError t ≤ (q : ℝ) ∧ (q : ℝ) ≤ 19900 ∧ (t ≠ .Linear → (q : ℝ) ≤ 110) ∧ (t = .Linear → (q : ℝ) = l) ∧
    1 ≤ encodeTransfer rr t l)

theorem Encodes.to {t : ColorTransfer} (ht : t ≠ .BT2100PQ) {v : F32} {l : ℝ} (h : Encodes rr t v l) : EncodesTo rr t v l := by
  rcases h with ⟨h, rfl⟩ | h
  · exact Or.inl ⟨h, enc_zero he ht⟩
  · refine Or.inr (Or.inl ?_)
    rw [encodeError, if_neg ht]
    exact h

/-- Light below 0 is encoded as 0. -/
theorem enc_under (hf : Floats ar) {t : ColorTransfer} (ht : t ≠ .BT2100PQ) {x : F32} {X : ℚ} (hx : Is x X) (hg : Good x)
    (h1 : X < -1) (h2 : -19900 ≤ X) : EncodesTo rr t (encodeTransfer ar t x) 0 := by
  have hX1 : (X : ℝ) < -1 := by exact_mod_cast h1
  have hX2 : (-19900 : ℝ) ≤ X := by exact_mod_cast h2
  have h0 : X < 0 := by linarith
  have hX0 : (X : ℝ) < 0 := by linarith
  have hr := (hg.is hx).1
  rw [abs_of_neg h0] at hr
  have zero : ∀ {v : F32} {r : ℝ}, App v r (21 / 10 ^ 7) → r ≤ 0 → -20 ≤ r → EncodesTo rr t v 0 := by
    intro v r h1 h2 h3
    refine Or.inr (Or.inl ⟨r, ?_, by linarith, h3, by rw [enc_zero he ht, max_self, max_eq_left h2]⟩)
    rw [encodeError, if_neg ht]
    exact h1
  have below : ∀ {v : F32} {r e : ℝ}, App v r e → r + e ≤ -1 → -300000 ≤ r - e → EncodesTo rr t v 0 := by
    intro v r e h1 h2 h3
    obtain ⟨q, hq, hqe⟩ := h1.is
    rw [abs_le] at hqe
    have a : (q : ℝ) ≤ -1 := by linarith [hqe.2]
    have b : (-300000 : ℝ) ≤ q := by linarith [hqe.1]
    exact Or.inr (Or.inr (Or.inl ⟨q, hq, by exact_mod_cast a, by exact_mod_cast b, enc_zero he ht⟩))
  have root : ∀ {c : F32} {C : ℚ}, Is c C → 1 / 3 ≤ C → C ≤ 1 / 2 → (ar.pow x c = .nan ∨
      App (ar.pow x c) 0 (1 / 10 ^ 11)) := by
    intro c C hc hC hC2
    obtain rfl := hx.neg_eq h0
    rcases hf.lib.roots hr (by linarith) (by norm_num; linarith) hc hC hC2 with h | ⟨r, h, r0, r1⟩
    · exact Or.inl h
    · refine Or.inr ?_
      have r0' : (0 : ℝ) ≤ r := by exact_mod_cast r0
      refine ⟨false, r, h, r0, ?_⟩
      simp only [signed, Bool.false_eq_true, if_false, sub_zero]
      rw [abs_of_nonneg r0']
      exact r1
  have power : ∀ {a b c : F32} {A B C : ℚ}, Is a A → |(A : ℝ)| ≤ 11 / 10 → Is b B → 0 ≤ (B : ℝ) → (B : ℝ) ≤ 1 / 10 → Is c C → 1 / 3 ≤ C →
      C ≤ 1 / 2 → EncodesTo rr t (ar.sub (ar.mul a (ar.pow x c)) b) 0 := by
    intro a b c A B C ha hA hb hB hB2 hc hC hC2
    rw [hf.sub, hf.mul]
    rcases root hc hC hC2 with h | h
    · refine Or.inl ⟨?_, enc_zero he ht⟩
      rw [h, mul_nan]
      cases b <;> rfl
    · have s1 := app_mul (B := 1 / 10 ^ 5) ha.app h hA (C := 0) (by simp) (by norm_num) (by norm_num) (by norm_num)
      have s2 := app_sub (B := 2 / 10) s1 hb.app (by
        rw [mul_zero, zero_sub, abs_neg, abs_of_nonneg hB]; norm_num; linarith) (by norm_num) (by norm_num)
      rw [mul_zero, zero_sub] at s2
      exact zero (s2.mono (by norm_num)) (by linarith) (by linarith)
  cases t with
  | Linear => exact below (e := 0) hx.app (by linarith) (by linarith)
  | Gamma22 =>
    rcases root is_i22 (by norm_num) (by norm_num) with h | h
    · exact Or.inl ⟨h, enc_zero he ht⟩
    · exact zero (h.mono (by norm_num)) (le_refl _) (by norm_num)
  | Gamma28 =>
    rcases root is_i28 (by norm_num) (by norm_num) with h | h
    · exact Or.inl ⟨h, enc_zero he ht⟩
    · exact zero (h.mono (by norm_num)) (le_refl _) (by norm_num)
  | SRGB =>
    simp only [encodeTransfer]
    split
    · rw [hf.mul]
      have hs : App (lit 12.92 : F32) 12.92 (1 / 10 ^ 7 * 4) := by
        refine (is_1292.app.shift (d := 1 / 10 ^ 7 * 4) ?_).mono (by norm_num)
        rw [abs_le]; constructor <;> norm_num
      have := app_mul (B := 260000) hx.app hs (A := 19900) (C := 12.92) (by rw [abs_of_neg hX0]; linarith)
        (by rw [abs_of_nonneg] <;> norm_num) (by norm_num) (by norm_num) (by norm_num)
      exact below this (by norm_num; linarith) (by norm_num; linarith)
    · exact power is_1055 (by rw [abs_le]; constructor <;> norm_num) is_0055 (by norm_num) (by norm_num) is_i24 (by norm_num) (by norm_num)
  | SDR =>
    simp only [encodeTransfer]
    split
    · rw [hf.mul]
      have := app_mul (B := 100000) is_45.app hx.app (A := 45 / 10) (C := 19900) (by
        push_cast; rw [abs_of_nonneg] <;> norm_num) (by rw [abs_of_neg hX0]; linarith)
        (by norm_num) (by norm_num) (by norm_num)
      exact below this (by push_cast; norm_num; linarith) (by push_cast; norm_num; linarith)
    · exact power is_1099 (by rw [abs_le]; constructor <;> norm_num) is_0099 (by norm_num) (by norm_num) is_045 (by norm_num) (by norm_num)
  | BT2100PQ => exact absurd rfl ht
  | BT2100HLG =>
    simp only [encodeTransfer, hlgEncode]
    obtain ⟨hm, hgm⟩ := max_is hf hx hg
    rw [max_eq_right h0.le] at hm
    generalize ar.max x (lit 0.0) = m at *
    rw [hf.le hm is_112 (le_refl _) (by norm_num), if_pos (by norm_num), hf.mul]
    have low := sqrt3_app hf hm hgm (le_refl _) (by norm_num)
    rw [Rat.cast_zero, zero_mul, Real.sqrt_zero] at low
    exact zero (low.mono (by norm_num)) (le_refl _) (by norm_num)

/-- The PQ encoder, for any light. -/
theorem enc_pq_any (hf : Floats ar) {x : F32} {X : ℚ} (hx : Is x X) (hg : Good x) (h2 : X ≤ 36000) :
    EncodesTo rr .BT2100PQ (encodeTransfer ar .BT2100PQ x) (max 0 (X : ℝ)) := by
  rcases le_or_gt X 10000 with h | h
  · have hr : (X : ℝ) ≤ 10000 := by exact_mod_cast h
    refine Or.inr (Or.inl ⟨encodeTransfer rr .BT2100PQ X, ?_, ?_, ?_, ?_⟩)
    · rw [encodeError, if_pos rfl]; exact enc_pq_near he hf hx hg h
    · linarith [(enc_pq_range he hr).2]
    · linarith [(enc_pq_range he hr).1]
    · congr 1
      rw [enc_pqF he, enc_pqF he, max_comm 0 (X : ℝ), max_eq_left (le_max_right _ _)]
  · have hr : (10000 : ℝ) < X := by exact_mod_cast h
    obtain ⟨r, e, r1, r2⟩ := pq_over hf hx hg h.le h2
    rw [max_eq_right (by linarith)]
    refine Or.inr (Or.inr (Or.inr ⟨r, e, ?_, by linarith, fun _ => by linarith, nofun, enc_pq_over he hr.le⟩))
    rw [encodeError, if_pos rfl]; exact r1

/-- Every encoder, for any light. -/
theorem enc_any (hf : Floats ar) (t : ColorTransfer) {x : F32} {X : ℚ} (hx : Is x X) (hg : Good x) (h1 : -19900 ≤ X) (h2 : X ≤ 19900) :
    ∃ l, 0 ≤ l ∧ |l - max 0 (X : ℝ)| ≤ 1 / 10 ^ 8 ∧ EncodesTo rr t (encodeTransfer ar t x) l := by
  have hX2 : (X : ℝ) ≤ 19900 := by exact_mod_cast h2
  by_cases ht : t = .BT2100PQ
  · subst ht
    exact ⟨max 0 (X : ℝ), le_max_left _ _, by simp, enc_pq_any he hf hx hg (h2.trans (by norm_num))⟩
  rcases lt_or_ge X (-1) with h | h
  · have hr : (X : ℝ) < -1 := by exact_mod_cast h
    exact ⟨0, le_refl _, by rw [max_eq_left (by linarith), sub_self, abs_zero]; norm_num, enc_under he hf ht hx hg h h1⟩
  rcases le_or_gt X 2 with h3 | h3
  · obtain ⟨l, l0, l1, l2⟩ := enc_near hf he ht hx hg h h3
    exact ⟨l, l0, l1, l2.to he ht⟩
  · have hr : (2 : ℝ) < X := by exact_mod_cast h3
    obtain ⟨e1, r, e, r1, r2, r3⟩ := enc_over he hf ht hx hg h3.le h2
    refine ⟨X, by linarith, by rw [max_eq_right (by linarith), sub_self, abs_zero]; norm_num, Or.inr (Or.inr (Or.inr
      ⟨r, e, ?_, ?_, r2, fun h => by rw [r3 h], e1⟩))⟩
    · rw [encodeError, if_neg ht]; norm_num; linarith
    · by_cases hl : t = .Linear
      · rw [r3 hl]; exact hX2
      · linarith [r2 hl]

end
end Ezk

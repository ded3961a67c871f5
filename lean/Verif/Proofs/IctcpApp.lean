import Verif.Proofs.ChangePq
import Verif.Proofs.IctcpReal

/-!
# Binary32 ICtCp

Errors relative to the brightest component of the light: both curves are steep near black, so absolute errors of the light say
nothing about the signal.
-/

namespace Ezk
open F32 FOps Spec

variable {ar : Arith F32} {rr : Arith ℝ}

/-! ## Matrices -/

/-- A product of a row and a column, of arguments known up to `d` and coefficients known up to `e`. -/
theorem dot_near (hi : IsIeee ar) {x a y b z c : F32} {X A Y B Z C : ℚ} (hx : Is x X) (ha : Is a A) (hy : Is y Y) (hb : Is b B)
    (hz : Is z Z) (hc : Is c C) {x' a' y' b' z' c' d e : ℝ} (x1 y1 z1 a1 b1 c1 : ℝ) (E : ℝ)
    (dx : |(X : ℝ) - x'| ≤ d ∧ |x'| ≤ x1) (dy : |(Y : ℝ) - y'| ≤ d ∧ |y'| ≤ y1) (dz : |(Z : ℝ) - z'| ≤ d ∧ |z'| ≤ z1)
    (da : |(A : ℝ) - a'| ≤ e ∧ |a'| ≤ a1) (db : |(B : ℝ) - b'| ≤ e ∧ |b'| ≤ b1) (dc : |(C : ℝ) - c'| ≤ e ∧ |c'| ≤ c1)
    (s1 : (x1 + d) * (a1 + e) ≤ 10 ^ 8) (s2 : (y1 + d) * (b1 + e) ≤ 10 ^ 8) (s3 : (z1 + d) * (c1 + e) ≤ 10 ^ 8)
    (hE : (x1 + y1 + z1 + 3 * d) * e + (a1 + b1 + c1) * d +
      2 / 10 ^ 7 * ((x1 + d) * (a1 + e) + (y1 + d) * (b1 + e) + (z1 + d) * (c1 + e)) + 1 / 10 ^ 38 ≤ E) :
    ∃ R : ℚ, Is (dot ar x a y b z c) R ∧ |(R : ℝ) - (x' * a' + y' * b' + z' * c')| ≤ E := by
  -- exact products
  have prod : ∀ {U V : ℚ} {u v u1 v1 : ℝ}, |(U : ℝ) - u| ≤ d ∧ |u| ≤ u1 → |(V : ℝ) - v| ≤ e ∧ |v| ≤ v1 →
      |(U : ℝ) * V| ≤ (u1 + d) * (v1 + e) ∧ |(U : ℝ) * V - u * v| ≤ (u1 + d) * e + v1 * d := by
    intro U V u v u1 v1 hu hv
    have d0 := (abs_nonneg _).trans hu.1
    have e0 := (abs_nonneg _).trans hv.1
    have hU : |(U : ℝ)| ≤ u1 + d := by
      have := abs_sub_abs_le_abs_sub (U : ℝ) u; linarith [hu.1, hu.2]
    have hV : |(V : ℝ)| ≤ v1 + e := by
      have := abs_sub_abs_le_abs_sub (V : ℝ) v; linarith [hv.1, hv.2]
    refine ⟨by rw [abs_mul]; exact mul_le_mul hU hV (abs_nonneg _) ((abs_nonneg _).trans hU), ?_⟩
    have eq : (U : ℝ) * V - u * v = U * (V - v) + v * (U - u) := by ring
    rw [eq]
    refine (abs_add_le _ _).trans (add_le_add ?_ ?_)
    · rw [abs_mul]; exact mul_le_mul hU hv.1 (abs_nonneg _) ((abs_nonneg _).trans hU)
    · rw [abs_mul]; exact mul_le_mul hv.2 hu.1 (abs_nonneg _) ((abs_nonneg _).trans hv.2)
  obtain ⟨p1, q1⟩ := prod dx da
  obtain ⟨p2, q2⟩ := prod dy db
  obtain ⟨p3, q3⟩ := prod dz dc
  have big : ∀ {v : ℚ} {B : ℝ}, |(v : ℝ)| ≤ B → B ≤ 10 ^ 9 → |v| ≤ 2 ^ 100 := by
    intro v B h h2
    have : ((|v| : ℚ) : ℝ) ≤ ((2 ^ 100 : ℚ) : ℝ) := by push_cast; refine h.trans (h2.trans (by norm_num))
    exact_mod_cast this
  set P1 := (x1 + d) * (a1 + e)
  set P2 := (y1 + d) * (b1 + e)
  set P3 := (z1 + d) * (c1 + e)
  have P10 := (abs_nonneg _).trans p1
  have P20 := (abs_nonneg _).trans p2
  have P30 := (abs_nonneg _).trans p3
  norm_num at s1 s2 s3
  obtain ⟨m1, i1, f1⟩ := is_mul hx ha (big (by push_cast; exact p1) (by norm_num; linarith))
  obtain ⟨m2, i2, f2⟩ := is_mul hy hb (big (by push_cast; exact p2) (by norm_num; linarith))
  obtain ⟨m3, i3, f3⟩ := is_mul hz hc (big (by push_cast; exact p3) (by norm_num; linarith))
  have g1 := err_real f1 (B := P1) (by push_cast; exact p1)
  have g2 := err_real f2 (B := P2) (by push_cast; exact p2)
  have g3 := err_real f3 (B := P3) (by push_cast; exact p3)
  push_cast at g1 g2 g3
  rw [abs_le] at g1 g2 g3 q1 q2 q3 p1 p2 p3
  obtain ⟨g11, g12⟩ := g1
  obtain ⟨g21, g22⟩ := g2
  obtain ⟨g31, g32⟩ := g3
  obtain ⟨q11, q12⟩ := q1
  obtain ⟨q21, q22⟩ := q2
  obtain ⟨q31, q32⟩ := q3
  obtain ⟨p11, p12⟩ := p1
  obtain ⟨p21, p22⟩ := p2
  obtain ⟨p31, p32⟩ := p3
  norm_num at g11 g12 g21 g22 g31 g32
  have t1 : |(m1 : ℝ) + m2| ≤ (P1 + P2) * (1 + 1 / 10 ^ 7) + 1 / 10 ^ 39 := by
    rw [abs_le]; norm_num; constructor <;> linarith
  obtain ⟨n1, j1, k1⟩ := is_add i1 i2 (big (by push_cast; exact t1) (by norm_num; linarith))
  have l1 := err_real k1 (B := (P1 + P2) * (1 + 1 / 10 ^ 7) + 1 / 10 ^ 39) (by push_cast; exact t1)
  push_cast at l1
  rw [abs_le] at l1
  obtain ⟨l11, l12⟩ := l1
  norm_num at l11 l12
  have t2 : |(n1 : ℝ) + m3| ≤ (P1 + P2 + P3) * (1 + 2 / 10 ^ 7) + 2 / 10 ^ 39 := by
    rw [abs_le]; norm_num; constructor <;> linarith
  obtain ⟨n2, j2, k2⟩ := is_add j1 i3 (big (by push_cast; exact t2) (by norm_num; linarith))
  have l2 := err_real k2 (B := (P1 + P2 + P3) * (1 + 2 / 10 ^ 7) + 2 / 10 ^ 39) (by push_cast; exact t2)
  push_cast at l2
  rw [abs_le] at l2
  obtain ⟨l21, l22⟩ := l2
  norm_num at l21 l22 hE
  refine ⟨n2, by simp only [dot, hi.add, hi.mul]; exact j2, ?_⟩
  rw [abs_le]
  constructor <;> linarith

/-- Light as XYZ, with its rounding errors. -/
theorem xyz_round (hi : IsIeee ar) (he : Exact rr) {p : C3 F32} {r g b : ℚ} (h1 : Is p.1 r) (h2 : Is p.2.1 g) (h3 : Is p.2.2 b) {S : ℝ}
    (b1 : |(r : ℝ)| ≤ S) (b2 : |(g : ℝ)| ≤ S) (b3 : |(b : ℝ)| ≤ S) (hS : S ≤ 20000) :
    let f := rowMul ar p ColorPrimaries.BT2020.rgbToXyzMat
    let c := rowMul rr ((r : ℝ), (g : ℝ), (b : ℝ)) ColorPrimaries.BT2020.rgbToXyzMat
    ∃ X Y Z : ℚ, Is f.1 X ∧ Is f.2.1 Y ∧ Is f.2.2 Z ∧ |(X : ℝ) - c.1| ≤ 35 / 10 ^ 8 * S + 1 / 10 ^ 38 ∧
      |(Y : ℝ) - c.2.1| ≤ 35 / 10 ^ 8 * S + 1 / 10 ^ 38 ∧ |(Z : ℝ) - c.2.2| ≤ 35 / 10 ^ 8 * S + 1 / 10 ^ 38 ∧
      |c.1| ≤ 122 / 100 * S ∧ |c.2.1| ≤ 108 / 100 * S ∧ |c.2.2| ≤ 122 / 100 * S := by
  intro f c
  have S0 : 0 ≤ S := (abs_nonneg _).trans b1
  have M := xyz_mat_app .BT2020
  obtain ⟨le00, le10, le20, le01, le11, le21, le02, le12, le22⟩ := xyz_mat_le .BT2020
  simp only [f, c, rowMul, dot_real he]
  generalize (ColorPrimaries.BT2020.rgbToXyzMat : Mat F32) = mf at *
  generalize (ColorPrimaries.BT2020.rgbToXyzMat : Mat ℝ) = mr at *
  obtain ⟨A00, i00, d00⟩ := M.m00.1.is
  obtain ⟨A10, i10, d10⟩ := M.m10.1.is
  obtain ⟨A20, i20, d20⟩ := M.m20.1.is
  obtain ⟨A01, i01, d01⟩ := M.m01.1.is
  obtain ⟨A11, i11, d11⟩ := M.m11.1.is
  obtain ⟨A21, i21, d21⟩ := M.m21.1.is
  obtain ⟨A02, i02, d02⟩ := M.m02.1.is
  obtain ⟨A12, i12, d12⟩ := M.m12.1.is
  obtain ⟨A22, i22, d22⟩ := M.m22.1.is
  have x0 : |(r : ℝ) - r| ≤ 0 ∧ |(r : ℝ)| ≤ S := ⟨by simp, b1⟩
  have y0 : |(g : ℝ) - g| ≤ 0 ∧ |(g : ℝ)| ≤ S := ⟨by simp, b2⟩
  have z0 : |(b : ℝ) - b| ≤ 0 ∧ |(b : ℝ)| ≤ S := ⟨by simp, b3⟩
  obtain ⟨X, hX, dX⟩ := dot_near hi h1 i00 h2 i10 h3 i20 S S S (64 / 100) (38 / 100) (20 / 100) (35 / 10 ^ 8 * S + 1 / 10 ^ 38)
    x0 y0 z0 ⟨d00, le00⟩ ⟨d10, le10⟩ ⟨d20, le20⟩ (by norm_num; linarith) (by norm_num; linarith) (by norm_num; linarith)
    (by norm_num; linarith)
  obtain ⟨Y, hY, dY⟩ := dot_near hi h1 i01 h2 i11 h3 i21 S S S (27 / 100) (72 / 100) (9 / 100) (35 / 10 ^ 8 * S + 1 / 10 ^ 38)
    x0 y0 z0 ⟨d01, le01⟩ ⟨d11, le11⟩ ⟨d21, le21⟩ (by norm_num; linarith) (by norm_num; linarith) (by norm_num; linarith)
    (by norm_num; linarith)
  obtain ⟨Z, hZ, dZ⟩ := dot_near hi h1 i02 h2 i12 h3 i22 S S S (3 / 100) (12 / 100) (107 / 100) (35 / 10 ^ 8 * S + 1 / 10 ^ 38)
    x0 y0 z0 ⟨d02, le02⟩ ⟨d12, le12⟩ ⟨d22, le22⟩ (by norm_num; linarith) (by norm_num; linarith) (by norm_num; linarith)
    (by norm_num; linarith)
  have sum : ∀ {k1 k2 k3 c1 c2 c3 : ℝ}, |k1| ≤ c1 → |k2| ≤ c2 → |k3| ≤ c3 → |(r : ℝ) * k1 + g * k2 + b * k3| ≤ S * c1 + S * c2 + S * c3 := by
    intro k1 k2 k3 c1 c2 c3 l1 l2 l3
    refine (abs_add_le _ _).trans (add_le_add ((abs_add_le _ _).trans (add_le_add ?_ ?_)) ?_) <;> rw [abs_mul]
    · exact mul_le_mul b1 l1 (abs_nonneg _) S0
    · exact mul_le_mul b2 l2 (abs_nonneg _) S0
    · exact mul_le_mul b3 l3 (abs_nonneg _) S0
  refine ⟨X, Y, Z, hX, hY, hZ, dX, dY, dZ, (sum le00 le10 le20).trans (by linarith), (sum le01 le11 le21).trans (by linarith),
    (sum le02 le12 le22).trans (by linarith)⟩

/-- A constant of the code. -/
theorem lit_near {q e : ℚ} (h : closeTo (FOps.lit q : F32) q e = true) :
    ∃ A : ℚ, Is (FOps.lit q : F32) A ∧ |(A : ℝ) - (FOps.lit q : ℝ)| ≤ (e : ℝ) := by
  have : App (FOps.lit q : F32) (FOps.lit q : ℝ) e := app_const h (lit_real q).symm le_rfl
  exact this.is

/-- Cone responses of light, with their rounding errors. -/
theorem lms_round (hi : IsIeee ar) (he : Exact rr) {p : C3 F32} {r g b : ℚ} (h1 : Is p.1 r) (h2 : Is p.2.1 g) (h3 : Is p.2.2 b) {S : ℝ}
    (b1 : |(r : ℝ)| ≤ S) (b2 : |(g : ℝ)| ≤ S) (b3 : |(b : ℝ)| ≤ S) (hS : S ≤ 20000) :
    let f := toLms ar (rowMul ar p ColorPrimaries.BT2020.rgbToXyzMat)
    let c := toLms rr (rowMul rr ((r : ℝ), (g : ℝ), (b : ℝ)) ColorPrimaries.BT2020.rgbToXyzMat)
    ∃ L M N : ℚ, Is f.1 L ∧ Is f.2.1 M ∧ Is f.2.2 N ∧ |(L : ℝ) - c.1| ≤ 12 / 10 ^ 7 * S + 1 / 10 ^ 36 ∧
      |(M : ℝ) - c.2.1| ≤ 12 / 10 ^ 7 * S + 1 / 10 ^ 36 ∧ |(N : ℝ) - c.2.2| ≤ 12 / 10 ^ 7 * S + 1 / 10 ^ 36 := by
  intro f c
  have S0 : 0 ≤ S := (abs_nonneg _).trans b1
  obtain ⟨X, Y, Z, hX, hY, hZ, dX, dY, dZ, bX, bY, bZ⟩ := xyz_round hi he h1 h2 h3 b1 b2 b3 hS
  simp only [f, c, toLms, dot_real he]
  generalize rowMul ar p ColorPrimaries.BT2020.rgbToXyzMat = q at *
  generalize rowMul rr ((r : ℝ), (g : ℝ), (b : ℝ)) ColorPrimaries.BT2020.rgbToXyzMat = w at *
  obtain ⟨A00, i00, d00⟩ := lit_near (q := 0.3593) (e := 6 / 10 ^ 8) (by decide +kernel)
  obtain ⟨A01, i01, d01⟩ := lit_near (q := 0.6976) (e := 6 / 10 ^ 8) (by decide +kernel)
  obtain ⟨A02, i02, d02⟩ := lit_near (q := -0.0359) (e := 6 / 10 ^ 8) (by decide +kernel)
  obtain ⟨A10, i10, d10⟩ := lit_near (q := -0.1921) (e := 6 / 10 ^ 8) (by decide +kernel)
  obtain ⟨A11, i11, d11⟩ := lit_near (q := 1.1005) (e := 6 / 10 ^ 8) (by decide +kernel)
  obtain ⟨A12, i12, d12⟩ := lit_near (q := 0.0754) (e := 6 / 10 ^ 8) (by decide +kernel)
  obtain ⟨A20, i20, d20⟩ := lit_near (q := 0.0071) (e := 6 / 10 ^ 8) (by decide +kernel)
  obtain ⟨A21, i21, d21⟩ := lit_near (q := 0.0748) (e := 6 / 10 ^ 8) (by decide +kernel)
  obtain ⟨A22, i22, d22⟩ := lit_near (q := 0.8433) (e := 6 / 10 ^ 8) (by decide +kernel)
  simp only [lit_real] at *
  push_cast at d00 d01 d02 d10 d11 d12 d20 d21 d22
  obtain ⟨L, hL, dL⟩ := dot_near hi hX i00 hY i01 hZ i02 (122 / 100 * S) (108 / 100 * S) (122 / 100 * S) (36 / 100) (70 / 100) (4 / 100)
    (12 / 10 ^ 7 * S + 1 / 10 ^ 36) ⟨dX, bX⟩ ⟨dY, bY⟩ ⟨dZ, bZ⟩ ⟨d00, by norm_num [abs_le, Rat.cast_ofScientific]⟩
    ⟨d01, by norm_num [abs_le, Rat.cast_ofScientific]⟩ ⟨d02, by norm_num [abs_le, Rat.cast_ofScientific]⟩
    (by norm_num; linarith) (by norm_num; linarith) (by norm_num; linarith) (by norm_num; linarith)
  obtain ⟨M, hM, dM⟩ := dot_near hi hX i10 hY i11 hZ i12 (122 / 100 * S) (108 / 100 * S) (122 / 100 * S) (20 / 100) (111 / 100) (8 / 100)
    (12 / 10 ^ 7 * S + 1 / 10 ^ 36) ⟨dX, bX⟩ ⟨dY, bY⟩ ⟨dZ, bZ⟩ ⟨d10, by norm_num [abs_le, Rat.cast_ofScientific]⟩
    ⟨d11, by norm_num [abs_le, Rat.cast_ofScientific]⟩ ⟨d12, by norm_num [abs_le, Rat.cast_ofScientific]⟩
    (by norm_num; linarith) (by norm_num; linarith) (by norm_num; linarith) (by norm_num; linarith)
  obtain ⟨N, hN, dN⟩ := dot_near hi hX i20 hY i21 hZ i22 (122 / 100 * S) (108 / 100 * S) (122 / 100 * S) (1 / 100) (8 / 100) (85 / 100)
    (12 / 10 ^ 7 * S + 1 / 10 ^ 36) ⟨dX, bX⟩ ⟨dY, bY⟩ ⟨dZ, bZ⟩ ⟨d20, by norm_num [abs_le, Rat.cast_ofScientific]⟩
    ⟨d21, by norm_num [abs_le, Rat.cast_ofScientific]⟩ ⟨d22, by norm_num [abs_le, Rat.cast_ofScientific]⟩
    (by norm_num; linarith) (by norm_num; linarith) (by norm_num; linarith) (by norm_num; linarith)
  refine ⟨L, M, N, hL, hM, hN, ?_, ?_, ?_⟩ <;> push_cast <;> assumption

/-- Cone responses of light known up to `ρ` of itself and `τ`, in exact arithmetic, against those of BT.2100. -/
theorem lms_light (he : Exact rr) {r g b r' g' b' ρ τ : ℝ} (r0 : 0 ≤ r') (g0 : 0 ≤ g') (b0 : 0 ≤ b') (ρ0 : 0 ≤ ρ) (τ0 : 0 ≤ τ)
    (hr : |r - r'| ≤ ρ * r' + τ) (hg : |g - g'| ≤ ρ * g' + τ) (hb : |b - b'| ≤ ρ * b' + τ) :
    let c := toLms rr (rowMul rr (r, g, b) ColorPrimaries.BT2020.rgbToXyzMat)
    let s := Standard.lms (r', g', b')
    |c.1 - s.1| ≤ (1001 / 1000 * ρ + 33 / 10 ^ 5) * s.1 + 1001 / 1000 * τ ∧
    |c.2.1 - s.2.1| ≤ (1001 / 1000 * ρ + 33 / 10 ^ 5) * s.2.1 + 1001 / 1000 * τ ∧
    |c.2.2 - s.2.2| ≤ (1001 / 1000 * ρ + 33 / 10 ^ 5) * s.2.2 + 1001 / 1000 * τ := by
  have p1 := mul_nonneg ρ0 r0
  have p2 := mul_nonneg ρ0 g0
  have p3 := mul_nonneg ρ0 b0
  rw [abs_le] at hr hg hb
  obtain ⟨hr1, hr2⟩ := hr
  obtain ⟨hg1, hg2⟩ := hg
  obtain ⟨hb1, hb2⟩ := hb
  simp only [toLms, rowMul, dot_real he, lit_real, ColorPrimaries.rgbToXyzMat, BT2020_RGB_TO_XYZ, Standard.lms]
  norm_num [Rat.cast_ofScientific]
  refine ⟨?_, ?_, ?_⟩ <;> rw [abs_le] <;> constructor <;> linarith

/-- The cone responses of the brightest component alone. -/
theorem lms_low {r g b S : ℝ} (r0 : 0 ≤ r) (g0 : 0 ≤ g) (b0 : 0 ≤ b) (h : S ≤ r ∨ S ≤ g ∨ S ≤ b) (S0 : 0 ≤ S) :
    let s := Standard.lms (r, g, b)
    S ≤ 414 / 10 * s.1 ∧ S ≤ 414 / 10 * s.2.1 ∧ S ≤ 414 / 10 * s.2.2 := by
  simp only [Standard.lms]
  refine ⟨?_, ?_, ?_⟩ <;> rcases h with h | h | h <;> norm_num <;> linarith

/-- Cone responses of light known up to `ρ` of itself and `τ`. -/
theorem lms_app (hi : IsIeee ar) (he : Exact rr) {p : C3 F32} {r g b ρ τ κ S : ℝ} (r0 : 0 ≤ r) (g0 : 0 ≤ g) (b0 : 0 ≤ b) (ρ0 : 0 ≤ ρ)
    (ρ1 : ρ ≤ 1 / 1000) (h1 : App p.1 r (ρ * r + τ)) (h2 : App p.2.1 g (ρ * g + τ)) (h3 : App p.2.2 b (ρ * b + τ))
    (hr : r ≤ S) (hg : g ≤ S) (hb : b ≤ S) (hS : S ≤ r ∨ S ≤ g ∨ S ≤ b) (S1 : S ≤ 11000) (hS6 : 1 / 10 ^ 6 ≤ S)
    (τ0 : 0 ≤ τ) (hτ : τ ≤ κ * S) (hκ : κ ≤ 1 / 1000) :
    let f := toLms ar (rowMul ar p ColorPrimaries.BT2020.rgbToXyzMat)
    let s := Standard.lms (r, g, b)
    ∃ L M N : ℚ, Is f.1 L ∧ Is f.2.1 M ∧ Is f.2.2 N ∧
      |(L : ℝ) - s.1| ≤ (1001 / 1000 * ρ + 42 * κ + 39 / 10 ^ 5) * s.1 ∧
      |(M : ℝ) - s.2.1| ≤ (1001 / 1000 * ρ + 42 * κ + 39 / 10 ^ 5) * s.2.1 ∧
      |(N : ℝ) - s.2.2| ≤ (1001 / 1000 * ρ + 42 * κ + 39 / 10 ^ 5) * s.2.2 := by
  intro f s
  have S0 : 0 < S := lt_of_lt_of_le (by norm_num) hS6
  have κ0 : 0 ≤ κ := by
    by_contra h
    have := mul_neg_of_neg_of_pos (not_le.mp h) S0
    linarith
  obtain ⟨R, iR, dR⟩ := h1.is
  obtain ⟨G, iG, dG⟩ := h2.is
  obtain ⟨B, iB, dB⟩ := h3.is
  have kS := mul_le_mul_of_nonneg_right hκ S0.le
  have bound : ∀ {X : ℚ} {x : ℝ}, 0 ≤ x → x ≤ S → |(X : ℝ) - x| ≤ ρ * x + τ → |(X : ℝ)| ≤ 1003 / 1000 * S := by
    intro X x x0 x1 d
    have := abs_sub_abs_le_abs_sub (X : ℝ) x
    rw [abs_of_nonneg x0] at this
    have := mul_le_mul ρ1 x1 x0 (by norm_num)
    linarith
  obtain ⟨L, M, N, iL, iM, iN, dL, dM, dN⟩ := lms_round hi he iR iG iB (bound r0 hr dR) (bound g0 hg dG) (bound b0 hb dB) (by linarith)
  obtain ⟨e1, e2, e3⟩ := lms_light he r0 g0 b0 ρ0 τ0 dR dG dB
  obtain ⟨l1, l2, l3⟩ := lms_low r0 g0 b0 hS S0.le
  refine ⟨L, M, N, iL, iM, iN, ?_⟩
  have key : ∀ {X : ℚ} {c s : ℝ}, |(X : ℝ) - c| ≤ 12 / 10 ^ 7 * (1003 / 1000 * S) + 1 / 10 ^ 36 →
      |c - s| ≤ (1001 / 1000 * ρ + 33 / 10 ^ 5) * s + 1001 / 1000 * τ → S ≤ 414 / 10 * s →
      |(X : ℝ) - s| ≤ (1001 / 1000 * ρ + 42 * κ + 39 / 10 ^ 5) * s := by
    intro X c s d1 d2 hs
    have ks := mul_le_mul_of_nonneg_left hs κ0
    have ks0 := mul_nonneg κ0 S0.le
    have tri := abs_sub_le (X : ℝ) c s
    norm_num at *
    linarith
  exact ⟨key dL e1 l1, key dM e2 l2, key dN e3 l3⟩

end Ezk

import Verif.Proofs.EncodeApp
import Verif.Proofs.Accuracy

/-!
# A change of transfer function and primaries as computed, compared with the exact formulas
-/

namespace Ezk
open F32 FOps Spec

attribute [local instance] ratOps

section
variable {ar : Arith F32} (hf : Floats ar) {rr : Arith ℝ} (he : Exact rr)
include hf

/-! ## Samples of the source -/

theorem sample_is {n : Nat} (hn : n ≤ 255) : ∃ V : ℚ, Is (ar.div (FOps.ofNat n) (FOps.ofNat 255)) V ∧
    Good (ar.div (FOps.ofNat n) (FOps.ofNat 255)) ∧ 0 ≤ V ∧ V ≤ 1 ∧ |(V : ℝ) - (n : ℝ) / 255| ≤ 61 / 10 ^ 9 := by
  rw [hf.div, ofNat_eq (by omega), ofNat_eq (by norm_num)]
  have e : F32.div (fin false (n : ℚ)) (fin false ((255 : Nat) : ℚ)) = F32.round false ((n : ℚ) / 255) := by
    simp only [F32.div]
    norm_num
  have h0 : (0 : ℚ) ≤ (n : ℚ) / 255 := by positivity
  have h1 : (n : ℚ) / 255 ≤ 1 := by
    rw [div_le_one (by norm_num)]; exact_mod_cast hn
  have r1 : rnd ((n : ℚ) / 255) ≤ 1 := by
    have := rnd_mono h0 h1
    rwa [rnd_rep (q := 1) ⟨1, 0, by norm_num, by norm_num, by norm_num⟩] at this
  have r0 := rnd_nonneg h0
  have hgood := good_round false h0
  rw [← e] at hgood
  have happ := app_div_nat (B := 1) (ofNat_eq (n := n) (by omega) ▸ app_nat (n := n) (by omega)) (n := 255) (by norm_num) (by norm_num) (by
    rw [add_zero, abs_of_nonneg (by positivity : (0 : ℝ) ≤ n), div_le_one (by norm_num)]; exact_mod_cast hn) (by norm_num) (by norm_num)
  refine ⟨rnd ((n : ℚ) / 255), ?_, hgood, r0, r1, ?_⟩
  · rw [e, round_eq, if_neg]
    · exact is_fin (s := false) r0
    · rw [limit_eq, not_le]
      exact lt_of_le_of_lt r1 (by norm_num)
  · obtain ⟨q, hq, hq2⟩ := happ.is
    have h3 : Is (F32.div (fin false (n : ℚ)) (fin false ((255 : Nat) : ℚ))) (rnd ((n : ℚ) / 255)) := by
      rw [e, round_eq, if_neg]
      · exact is_fin (s := false) r0
      · rw [limit_eq, not_le]
        exact lt_of_le_of_lt r1 (by norm_num)
    rw [h3.unique hq]
    refine le_trans ?_ (hq2.trans (by norm_num))
    norm_num

include he

/-- Light of a source sample. -/
theorem light_app {t : ColorTransfer} (ht : t ≠ .BT2100PQ) {n : Nat} (hn : n ≤ 255) :
    App (decodeTransfer ar t (ar.div (FOps.ofNat n) (FOps.ofNat 255))) (decodeTransfer rr t ((n : ℝ) / 255)) (3 / 10 ^ 6) ∧
      0 ≤ decodeTransfer rr t ((n : ℝ) / 255) ∧ decodeTransfer rr t ((n : ℝ) / 255) ≤ 1001 / 1000 := by
  obtain ⟨V, hV, hg, V0, V1, hd⟩ := sample_is hf hn
  generalize ar.div (FOps.ofNat n) (FOps.ofNat 255) = v at *
  have n0 : (0 : ℝ) ≤ (n : ℝ) / 255 := by positivity
  have n1 : (n : ℝ) / 255 ≤ 1 := by rw [div_le_one (by norm_num)]; exact_mod_cast hn
  have V0r : (0 : ℝ) ≤ V := by exact_mod_cast V0
  have V1r : (V : ℝ) ≤ 1 := by exact_mod_cast V1
  have hd1 := (abs_le.mp hd).1
  have hd2 := (abs_le.mp hd).2
  have power : ∀ Y : ℝ, 1 ≤ Y → Y ≤ 3 → |(V : ℝ) ^ Y - ((n : ℝ) / 255) ^ Y| ≤ 2 / 10 ^ 7 := by
    intro Y h1 h3
    refine (rpow_lip (K := 3) V0r n0 h1 ?_).trans (by norm_num at hd ⊢; linarith)
    rintro c hc
    have c0 : 0 ≤ c := by rcases hc with rfl | rfl <;> assumption
    have c1 : c ≤ 1 := by rcases hc with rfl | rfl <;> assumption
    have := mul_le_mul h3 (Real.rpow_le_one c0 c1 (by linarith : 0 ≤ Y - 1)) (Real.rpow_nonneg c0 _) (by norm_num)
    linarith
  cases t with
  | Linear =>
    refine ⟨(hV.app.shift hd).mono (by norm_num), n0, ?_⟩
    simp only [decodeTransfer]; linarith
  | Gamma22 =>
    rw [dec_gamma22 he]
    refine ⟨((dec_gamma22_app hf hV hg V0 V1).shift (power 2.2 (by norm_num) (by norm_num))).mono (by norm_num), by positivity, ?_⟩
    have := Real.rpow_le_one n0 n1 (show (0 : ℝ) ≤ 2.2 by norm_num); linarith
  | Gamma28 =>
    rw [dec_gamma28 he]
    refine ⟨((dec_gamma28_app hf hV hg V0 V1).shift (power 2.8 (by norm_num) (by norm_num))).mono (by norm_num), by positivity, ?_⟩
    have := Real.rpow_le_one n0 n1 (show (0 : ℝ) ≤ 2.8 by norm_num); linarith
  | SRGB =>
    rw [dec_srgb he]
    have h := dec_srgb_app hf hV hg V0 V1
    rcases Nat.lt_or_ge 10 n with hb | hb
    · have hb' : (11 : ℝ) ≤ n := by exact_mod_cast hb
      rw [if_neg (by rw [not_le]; norm_num at hd1 ⊢; linarith)] at h
      rw [if_neg (by rw [not_le]; norm_num; linarith)]
      have b0 : 0 ≤ ((n : ℝ) / 255 + 0.055) / 1.055 := by positivity
      have b1 : ((n : ℝ) / 255 + 0.055) / 1.055 ≤ 1 := by rw [div_le_one (by norm_num)]; norm_num; linarith
      refine ⟨(h.shift (d := 3 / 10 ^ 7) ?_).mono (by norm_num), by positivity, ?_⟩
      · refine (rpow_lip (K := 3) (by positivity) b0 (by norm_num) ?_).trans ?_
        · rintro c hc
          have c0 : 0 ≤ c := by rcases hc with rfl | rfl <;> positivity
          have c1 : c ≤ 1 := by
            rcases hc with rfl | rfl
            · rw [div_le_one (by norm_num)]; norm_num; linarith
            · exact b1
          have := Real.rpow_le_one c0 c1 (show (0 : ℝ) ≤ 2.4 - 1 by norm_num)
          linarith
        · have : |((V : ℝ) + 0.055) / 1.055 - ((n : ℝ) / 255 + 0.055) / 1.055| ≤ 1 / 10 ^ 7 := by
            rw [abs_le]; norm_num at hd1 hd2 ⊢; constructor <;> linarith
          norm_num at this ⊢; linarith
      · have := Real.rpow_le_one b0 b1 (show (0 : ℝ) ≤ 2.4 by norm_num); linarith
    · have hb' : (n : ℝ) ≤ 10 := by exact_mod_cast hb
      rw [if_pos (by norm_num at hd2 ⊢; linarith)] at h
      rw [if_pos (by norm_num; linarith)]
      refine ⟨(h.shift (d := 1 / 10 ^ 8) ?_).mono (by norm_num), by positivity, by norm_num; linarith⟩
      rw [abs_le]; norm_num at hd1 hd2 ⊢; constructor <;> linarith
  | SDR =>
    rw [dec_sdr he]
    have h := dec_sdr_app hf hV hg V0 V1
    rcases Nat.lt_or_ge 20 n with hb | hb
    · have hb' : (21 : ℝ) ≤ n := by exact_mod_cast hb
      rw [if_neg (by rw [not_lt]; norm_num at hd1 ⊢; linarith)] at h
      rw [if_neg (by rw [not_lt]; norm_num; linarith)]
      have b0 : 0 ≤ ((n : ℝ) / 255 + 0.0993) / 1.099 := by positivity
      have b1 : ((n : ℝ) / 255 + 0.0993) / 1.099 ≤ 10003 / 10000 := by rw [div_le_iff₀ (by norm_num)]; norm_num; linarith
      have up : ∀ c : ℝ, 0 ≤ c → c ≤ 10003 / 10000 → ∀ Y : ℝ, 0 ≤ Y → Y ≤ 3 → c ^ Y ≤ 1001 / 1000 := by
        intro c c0 c1 Y Y0 Y3
        calc c ^ Y ≤ (10003 / 10000 : ℝ) ^ Y := Real.rpow_le_rpow c0 c1 Y0
          _ ≤ (10003 / 10000 : ℝ) ^ (3 : ℝ) := Real.rpow_le_rpow_of_exponent_le (by norm_num) Y3
          _ = (10003 / 10000 : ℝ) ^ (3 : ℕ) := by rw [← Real.rpow_natCast]; norm_num
          _ ≤ _ := by norm_num
      refine ⟨(h.shift (d := 3 / 10 ^ 7) ?_).mono (by norm_num), by positivity, ?_⟩
      · refine (rpow_lip (K := 3) (by positivity) b0 (by norm_num) ?_).trans ?_
        · rintro c hc
          have c0 : 0 ≤ c := by rcases hc with rfl | rfl <;> positivity
          have c1 : c ≤ 10003 / 10000 := by
            rcases hc with rfl | rfl
            · rw [div_le_iff₀ (by norm_num)]; norm_num; linarith
            · exact b1
          have := up c c0 c1 (1 / 0.45 - 1) (by norm_num) (by norm_num)
          norm_num at this ⊢; linarith
        · have : |((V : ℝ) + 0.0993) / 1.099 - ((n : ℝ) / 255 + 0.0993) / 1.099| ≤ 1 / 10 ^ 7 := by
            rw [abs_le]; norm_num at hd1 hd2 ⊢; constructor <;> linarith
          norm_num at this ⊢; linarith
      · exact up _ b0 b1 _ (by norm_num) (by norm_num)
    · have hb' : (n : ℝ) ≤ 20 := by exact_mod_cast hb
      rw [if_pos (by norm_num at hd2 ⊢; linarith)] at h
      rw [if_pos (by norm_num; linarith)]
      refine ⟨(h.shift (d := 1 / 10 ^ 7) ?_).mono (by norm_num), by positivity, by norm_num; linarith⟩
      rw [abs_le]; norm_num at hd1 hd2 ⊢; constructor <;> linarith
  | BT2100PQ => exact absurd rfl ht
  | BT2100HLG =>
    rw [dec_hlg he, max_eq_left n0]
    have h := dec_hlg_app hf hV hg V0 V1
    rcases Nat.lt_or_ge 127 n with hb | hb
    · have hb' : (128 : ℝ) ≤ n := by exact_mod_cast hb
      rw [if_neg (by rw [not_le]; norm_num at hd1 ⊢; linarith)] at h
      rw [if_neg (by rw [not_le]; norm_num; linarith)]
      have hdt : |((V : ℝ) - 0.5599107) / 0.17883277 - ((n : ℝ) / 255 - 0.5599107) / 0.17883277| ≤ 35 / 10 ^ 8 := by
        rw [abs_le]; norm_num at hd1 hd2 ⊢; constructor <;> linarith
      set t := ((n : ℝ) / 255 - 0.5599107) / 0.17883277 with ht
      have ht1 : t ≤ 24612 / 10000 := by rw [ht, div_le_iff₀ (by norm_num)]; norm_num; linarith
      have hcl := exp_close hdt (by norm_num)
      have hexp : Real.exp t ≤ 1172 / 100 := by
        refine (Real.exp_le_exp.mpr ht1).trans ?_
        have e1 : Real.exp (24612 / 10000) = Real.exp (6153 / 10000) ^ 4 := by rw [← Real.exp_nat_mul]; norm_num
        have e2 : Real.exp (6153 / 10000) ≤ (185022 / 100000 : ℝ) := by
          refine exp_le (by rw [abs_le]; norm_num) ?_
          rw [abs_of_pos (by norm_num)]; norm_num
        rw [e1]
        exact (pow_le_pow_left₀ (Real.exp_pos _).le e2 4).trans (by norm_num)
      have hexp0 := Real.exp_pos t
      refine ⟨(h.shift (d := 4 / 10 ^ 7) ?_).mono (by norm_num), by positivity, by norm_num; linarith⟩
      have h4 := hcl.trans (mul_le_mul_of_nonneg_left hexp (by norm_num))
      rw [abs_le] at h4 ⊢
      have h5 := h4.1
      have h6 := h4.2
      norm_num at h5 h6 ⊢
      constructor <;> linarith
    · have hb' : (n : ℝ) ≤ 127 := by exact_mod_cast hb
      rw [if_pos (by norm_num at hd2 ⊢; linarith)] at h
      rw [if_pos (by norm_num; linarith)]
      refine ⟨(h.shift (d := 1 / 10 ^ 7) ?_).mono (by norm_num), by positivity, ?_⟩
      · have e : (V : ℝ) ^ 2 / 3 - ((n : ℝ) / 255) ^ 2 / 3 = (V - (n : ℝ) / 255) * ((V + (n : ℝ) / 255) / 3) := by ring
        rw [e, abs_mul]
        have : |((V : ℝ) + (n : ℝ) / 255) / 3| ≤ 1 := by rw [abs_le]; constructor <;> linarith
        exact (mul_le_mul hd this (abs_nonneg _) (by norm_num)).trans (by norm_num)
      · nlinarith

/-! ## Matrices -/

omit hf in
/-- Rounding errors of a sum of three products: the arguments have errors `d`, the coefficients `e`. -/
theorem dot_bound (hi : IsIeee ar) {x a y b z c : F32} {x' a' y' b' z' c' d e : ℝ} (x1 y1 z1 a1 b1 c1 : ℝ) (E : ℝ)
    (hx : App x x' d ∧ |x'| ≤ x1) (hy : App y y' d ∧ |y'| ≤ y1) (hz : App z z' d ∧ |z'| ≤ z1)
    (ha : App a a' e ∧ |a'| ≤ a1) (hb : App b b' e ∧ |b'| ≤ b1) (hc : App c c' e ∧ |c'| ≤ c1) (hd : d ≤ 1 / 10 ^ 5)
    (hE' : e ≤ 1 / 10 ^ 5) (hbig : x1 ≤ 10 ∧ y1 ≤ 10 ∧ z1 ≤ 10 ∧ a1 ≤ 10 ∧ b1 ≤ 10 ∧ c1 ≤ 10)
    (hE : (x1 + y1 + z1) * e + (a1 + b1 + c1) * d + (3 * (x1 * a1 + y1 * b1) + 2 * (z1 * c1)) * (6 / 10 ^ 8) + 1 / 10 ^ 9 ≤ E) :
    App (dot ar x a y b z c) (dot rr x' a' y' b' z' c') E := by
  have d0 := hx.1.nonneg
  have e0 := ha.1.nonneg
  have x0 := (abs_nonneg _).trans hx.2
  have y0 := (abs_nonneg _).trans hy.2
  have z0 := (abs_nonneg _).trans hz.2
  have a0 := (abs_nonneg _).trans ha.2
  have b0 := (abs_nonneg _).trans hb.2
  have c0 := (abs_nonneg _).trans hc.2
  have p1 := mul_nonneg x0 a0
  have p2 := mul_nonneg y0 b0
  have p3 := mul_nonneg z0 c0
  have de : d * e ≤ 1 / 10 ^ 10 := by
    have := mul_le_mul hd hE' e0 (by norm_num); norm_num at this ⊢; linarith
  have small : ∀ {u v : ℝ}, u ≤ 10 → v ≤ 10 → 0 ≤ u → 0 ≤ v → u * e + v * d + d * e ≤ 21 / 10 ^ 5 := by
    intro u v h1 h2 h3 h4
    have := mul_le_mul h1 hE' e0 (by norm_num)
    have := mul_le_mul h2 hd d0 (by norm_num)
    norm_num at *; linarith
  have prod : ∀ {u v : ℝ}, u ≤ 10 → v ≤ 10 → 0 ≤ u → 0 ≤ v → u * v ≤ 100 := by
    intro u v h1 h2 h3 h4
    have := mul_le_mul h1 h2 h4 (by norm_num); linarith
  obtain ⟨g1, g2, g3, g4, g5, g6⟩ := hbig
  have t1 := small g1 g4 x0 a0
  have t2 := small g2 g5 y0 b0
  have t3 := small g3 g6 z0 c0
  have u1 := prod g1 g4 x0 a0
  have u2 := prod g2 g5 y0 b0
  have u3 := prod g3 g6 z0 c0
  have q1 := app_mul (B := x1 * a1 + 3 / 10 ^ 4) hx.1 ha.1 hx.2 ha.2 (by norm_num at t1 ⊢; linarith) (by norm_num at p1 ⊢; linarith)
    (by norm_num; linarith)
  have q2 := app_mul (B := y1 * b1 + 3 / 10 ^ 4) hy.1 hb.1 hy.2 hb.2 (by norm_num at t2 ⊢; linarith) (by norm_num at p2 ⊢; linarith)
    (by norm_num; linarith)
  have q3 := app_mul (B := z1 * c1 + 3 / 10 ^ 4) hz.1 hc.1 hz.2 hc.2 (by norm_num at t3 ⊢; linarith) (by norm_num at p3 ⊢; linarith)
    (by norm_num; linarith)
  have v1 : |x' * a'| ≤ x1 * a1 := by rw [abs_mul]; exact mul_le_mul hx.2 ha.2 (abs_nonneg _) x0
  have v2 : |y' * b'| ≤ y1 * b1 := by rw [abs_mul]; exact mul_le_mul hy.2 hb.2 (abs_nonneg _) y0
  have v3 : |z' * c'| ≤ z1 * c1 := by rw [abs_mul]; exact mul_le_mul hz.2 hc.2 (abs_nonneg _) z0
  have s1 := abs_add_le (x' * a') (y' * b')
  have s2 := abs_add_le (x' * a' + y' * b') (z' * c')
  have r1 := app_add (B := x1 * a1 + y1 * b1 + 5 / 10 ^ 4) q1 q2 (by norm_num at t1 t2 ⊢; linarith) (by norm_num; linarith)
    (by norm_num; linarith)
  have r2 := app_add (B := x1 * a1 + y1 * b1 + z1 * c1 + 8 / 10 ^ 4) r1 q3 (by norm_num at t1 t2 t3 ⊢; linarith)
    (by norm_num; linarith) (by norm_num; linarith)
  simp only [dot, hi.add, hi.mul, he.add, he.mul]
  refine r2.mono (le_trans ?_ hE)
  norm_num at *
  linarith

omit hf he in
theorem xyz_mat_app (sp : ColorPrimaries) : MatApp sp.rgbToXyzMat sp.rgbToXyzMat (31 / 10 ^ 9) 2 := by
  have key : MatApp sp.rgbToXyzMat (sp.rgbToXyzMat : Mat ℚ).cast ((31 / 10 ^ 9 : ℚ) : ℝ) ((2 : ℚ) : ℝ) := by
    apply matApp_of
    cases sp <;> decide +kernel
  push_cast at key
  convert key using 1
  cases sp <;> rfl

omit hf he in
theorem rgb_mat_app (dp : ColorPrimaries) : MatApp dp.xyzToRgbMat dp.xyzToRgbMat (12 / 10 ^ 8) 4 := by
  have key : MatApp dp.xyzToRgbMat (dp.xyzToRgbMat : Mat ℚ).cast ((12 / 10 ^ 8 : ℚ) : ℝ) ((4 : ℚ) : ℝ) := by
    apply matApp_of
    cases dp <;> decide +kernel
  push_cast at key
  convert key using 1
  cases dp <;> rfl

omit hf he in
/-- Bounds of the entries of the matrices. -/
theorem xyz_mat_le (sp : ColorPrimaries) :
    |(sp.rgbToXyzMat : Mat ℝ).m00| ≤ 64 / 100 ∧ |(sp.rgbToXyzMat : Mat ℝ).m10| ≤ 38 / 100 ∧
    |(sp.rgbToXyzMat : Mat ℝ).m20| ≤ 20 / 100 ∧ |(sp.rgbToXyzMat : Mat ℝ).m01| ≤ 27 / 100 ∧
    |(sp.rgbToXyzMat : Mat ℝ).m11| ≤ 72 / 100 ∧ |(sp.rgbToXyzMat : Mat ℝ).m21| ≤ 9 / 100 ∧
    |(sp.rgbToXyzMat : Mat ℝ).m02| ≤ 3 / 100 ∧ |(sp.rgbToXyzMat : Mat ℝ).m12| ≤ 12 / 100 ∧
    |(sp.rgbToXyzMat : Mat ℝ).m22| ≤ 107 / 100 := by
  cases sp <;> simp only [ColorPrimaries.rgbToXyzMat, ST240_RGB_TO_XYZ, BT709_RGB_TO_XYZ, BT2020_RGB_TO_XYZ, lit_real] <;>
    (push_cast; norm_num [Rat.cast_ofScientific, abs_le])

omit hf he in
theorem rgb_mat_le (dp : ColorPrimaries) :
    |(dp.xyzToRgbMat : Mat ℝ).m00| ≤ 351 / 100 ∧ |(dp.xyzToRgbMat : Mat ℝ).m10| ≤ 174 / 100 ∧
    |(dp.xyzToRgbMat : Mat ℝ).m20| ≤ 55 / 100 ∧ |(dp.xyzToRgbMat : Mat ℝ).m01| ≤ 101 / 100 ∧
    |(dp.xyzToRgbMat : Mat ℝ).m11| ≤ 193 / 100 ∧ |(dp.xyzToRgbMat : Mat ℝ).m21| ≤ 5 / 100 ∧
    |(dp.xyzToRgbMat : Mat ℝ).m02| ≤ 6 / 100 ∧ |(dp.xyzToRgbMat : Mat ℝ).m12| ≤ 21 / 100 ∧
    |(dp.xyzToRgbMat : Mat ℝ).m22| ≤ 107 / 100 := by
  cases dp <;> simp only [ColorPrimaries.xyzToRgbMat, ST240_XYZ_TO_RGB, BT709_XYZ_TO_RGB, BT2020_XYZ_TO_RGB, lit_real] <;>
    (push_cast; norm_num [Rat.cast_ofScientific, abs_le])

omit hf in
/-- Light in the primaries `sp`, as XYZ. -/
theorem xyz_range (sp : ColorPrimaries) {p : C3 ℝ} (h1 : |p.1| ≤ 10011 / 10000) (h2 : |p.2.1| ≤ 10011 / 10000)
    (h3 : |p.2.2| ≤ 10011 / 10000) : |(rowMul rr p sp.rgbToXyzMat).1| ≤ 96 / 100 ∧
      |(rowMul rr p sp.rgbToXyzMat).2.1| ≤ 101 / 100 ∧ |(rowMul rr p sp.rgbToXyzMat).2.2| ≤ 110 / 100 := by
  rw [abs_le] at h1 h2 h3
  simp only [rowMul, dot, he.add, he.mul, abs_le]
  have := h1.1
  have := h1.2
  have := h2.1
  have := h2.2
  have := h3.1
  have := h3.2
  cases sp <;> simp only [ColorPrimaries.rgbToXyzMat, ST240_RGB_TO_XYZ, BT709_RGB_TO_XYZ, BT2020_RGB_TO_XYZ, lit_real] <;>
    norm_num [Rat.cast_ofScientific] at * <;> refine ⟨⟨?_, ?_⟩, ⟨?_, ?_⟩, ?_, ?_⟩ <;> linarith

omit hf in
/-- Errors of light in one set of primaries, in another. -/
theorem mix_lipschitz (sp dp : ColorPrimaries) {p q : C3 ℝ} {e : ℝ} (h1 : |p.1 - q.1| ≤ e) (h2 : |p.2.1 - q.2.1| ≤ e)
    (h3 : |p.2.2 - q.2.2| ≤ e) :
    |(rowMul rr (rowMul rr p sp.rgbToXyzMat) dp.xyzToRgbMat).1 - (rowMul rr (rowMul rr q sp.rgbToXyzMat) dp.xyzToRgbMat).1| ≤
      26 / 10 * e ∧
    |(rowMul rr (rowMul rr p sp.rgbToXyzMat) dp.xyzToRgbMat).2.1 - (rowMul rr (rowMul rr q sp.rgbToXyzMat) dp.xyzToRgbMat).2.1| ≤
      26 / 10 * e ∧
    |(rowMul rr (rowMul rr p sp.rgbToXyzMat) dp.xyzToRgbMat).2.2 - (rowMul rr (rowMul rr q sp.rgbToXyzMat) dp.xyzToRgbMat).2.2| ≤
      26 / 10 * e := by
  rw [abs_le] at h1 h2 h3
  simp only [rowMul, dot, he.add, he.mul, abs_le]
  have := h1.1
  have := h1.2
  have := h2.1
  have := h2.2
  have := h3.1
  have := h3.2
  cases sp <;> cases dp <;> simp only [ColorPrimaries.rgbToXyzMat, ST240_RGB_TO_XYZ, BT709_RGB_TO_XYZ, BT2020_RGB_TO_XYZ,
    ColorPrimaries.xyzToRgbMat, ST240_XYZ_TO_RGB, BT709_XYZ_TO_RGB, BT2020_XYZ_TO_RGB, lit_real] <;>
    norm_num [Rat.cast_ofScientific] at * <;> refine ⟨⟨?_, ?_⟩, ⟨?_, ?_⟩, ?_, ?_⟩ <;> linarith

omit hf in
/-- Light of an image, in other primaries. -/
theorem mix_range (sp dp : ColorPrimaries) {p : C3 ℝ} (h1 : 0 ≤ p.1 ∧ p.1 ≤ 1001 / 1000) (h2 : 0 ≤ p.2.1 ∧ p.2.1 ≤ 1001 / 1000)
    (h3 : 0 ≤ p.2.2 ∧ p.2.2 ≤ 1001 / 1000) :
    (-8 / 10 ≤ (rowMul rr (rowMul rr p sp.rgbToXyzMat) dp.xyzToRgbMat).1 ∧
      (rowMul rr (rowMul rr p sp.rgbToXyzMat) dp.xyzToRgbMat).1 ≤ 19 / 10) ∧
    (-8 / 10 ≤ (rowMul rr (rowMul rr p sp.rgbToXyzMat) dp.xyzToRgbMat).2.1 ∧
      (rowMul rr (rowMul rr p sp.rgbToXyzMat) dp.xyzToRgbMat).2.1 ≤ 19 / 10) ∧
    (-8 / 10 ≤ (rowMul rr (rowMul rr p sp.rgbToXyzMat) dp.xyzToRgbMat).2.2 ∧
      (rowMul rr (rowMul rr p sp.rgbToXyzMat) dp.xyzToRgbMat).2.2 ≤ 19 / 10) := by
  simp only [rowMul, dot, he.add, he.mul]
  have := h1.1
  have := h1.2
  have := h2.1
  have := h2.2
  have := h3.1
  have := h3.2
  cases sp <;> cases dp <;> simp only [ColorPrimaries.rgbToXyzMat, ST240_RGB_TO_XYZ, BT709_RGB_TO_XYZ, BT2020_RGB_TO_XYZ,
    ColorPrimaries.xyzToRgbMat, ST240_XYZ_TO_RGB, BT709_XYZ_TO_RGB, BT2020_XYZ_TO_RGB, lit_real] <;>
    norm_num [Rat.cast_ofScientific] at * <;> refine ⟨⟨?_, ?_⟩, ⟨?_, ?_⟩, ?_, ?_⟩ <;> linarith

omit hf he in
theorem good_add_any (x y : F32) : Good (F32.add x y) := by
  cases x <;> cases y <;> simp only [F32.add] <;> first | trivial | exact good_ofRat _ _ | (split <;> trivial)

omit hf he in
theorem good_dot (hi : IsIeee ar) {x a y b z c : F32} : Good (dot ar x a y b z c) := by
  rw [dot, hi.add]; exact good_add_any _ _

omit hf in
/-- Rounding errors of a change of primaries. -/
theorem mix_round (hi : IsIeee ar) (sp dp : ColorPrimaries) {p : C3 F32} {q : C3 ℝ} (h1 : App p.1 q.1 0) (h2 : App p.2.1 q.2.1 0)
    (h3 : App p.2.2 q.2.2 0) (b1 : |q.1| ≤ 10011 / 10000) (b2 : |q.2.1| ≤ 10011 / 10000) (b3 : |q.2.2| ≤ 10011 / 10000) :
    App (rowMul ar (rowMul ar p sp.rgbToXyzMat) dp.xyzToRgbMat).1 (rowMul rr (rowMul rr q sp.rgbToXyzMat) dp.xyzToRgbMat).1
      (318 / 10 ^ 8) ∧
    App (rowMul ar (rowMul ar p sp.rgbToXyzMat) dp.xyzToRgbMat).2.1
      (rowMul rr (rowMul rr q sp.rgbToXyzMat) dp.xyzToRgbMat).2.1 (318 / 10 ^ 8) ∧
    App (rowMul ar (rowMul ar p sp.rgbToXyzMat) dp.xyzToRgbMat).2.2
      (rowMul rr (rowMul rr q sp.rgbToXyzMat) dp.xyzToRgbMat).2.2 (318 / 10 ^ 8) := by
  have M := xyz_mat_app sp
  have N := rgb_mat_app dp
  obtain ⟨m1, m2, m3, m4, m5, m6, m7, m8, m9⟩ := xyz_mat_le sp
  obtain ⟨n1, n2, n3, n4, n5, n6, n7, n8, n9⟩ := rgb_mat_le dp
  obtain ⟨r1, r2, r3⟩ := xyz_range he sp b1 b2 b3
  have X := dot_bound he hi _ _ _ _ _ _ (31 / 10 ^ 8) ⟨h1, b1⟩ ⟨h2, b2⟩ ⟨h3, b3⟩ ⟨M.m00.1, m1⟩ ⟨M.m10.1, m2⟩ ⟨M.m20.1, m3⟩
    (by norm_num) (by norm_num) (by norm_num) (by norm_num)
  have Y := dot_bound he hi _ _ _ _ _ _ (31 / 10 ^ 8) ⟨h1, b1⟩ ⟨h2, b2⟩ ⟨h3, b3⟩ ⟨M.m01.1, m4⟩ ⟨M.m11.1, m5⟩ ⟨M.m21.1, m6⟩
    (by norm_num) (by norm_num) (by norm_num) (by norm_num)
  have Z := dot_bound he hi _ _ _ _ _ _ (31 / 10 ^ 8) ⟨h1, b1⟩ ⟨h2, b2⟩ ⟨h3, b3⟩ ⟨M.m02.1, m7⟩ ⟨M.m12.1, m8⟩ ⟨M.m22.1, m9⟩
    (by norm_num) (by norm_num) (by norm_num) (by norm_num)
  refine ⟨?_, ?_, ?_⟩
  · exact dot_bound he hi _ _ _ _ _ _ _ ⟨X, r1⟩ ⟨Y, r2⟩ ⟨Z, r3⟩ ⟨N.m00.1, n1⟩ ⟨N.m10.1, n2⟩ ⟨N.m20.1, n3⟩
      (by norm_num) (by norm_num) (by norm_num) (by norm_num)
  · exact dot_bound he hi _ _ _ _ _ _ _ ⟨X, r1⟩ ⟨Y, r2⟩ ⟨Z, r3⟩ ⟨N.m01.1, n4⟩ ⟨N.m11.1, n5⟩ ⟨N.m21.1, n6⟩
      (by norm_num) (by norm_num) (by norm_num) (by norm_num)
  · exact dot_bound he hi _ _ _ _ _ _ _ ⟨X, r1⟩ ⟨Y, r2⟩ ⟨Z, r3⟩ ⟨N.m02.1, n7⟩ ⟨N.m12.1, n8⟩ ⟨N.m22.1, n9⟩
      (by norm_num) (by norm_num) (by norm_num) (by norm_num)

omit hf in
/-- A change of primaries of approximate light. -/
theorem mix_app (hi : IsIeee ar) (sp dp : ColorPrimaries) {p : C3 F32} {q : C3 ℝ} (h1 : App p.1 q.1 (3 / 10 ^ 6))
    (h2 : App p.2.1 q.2.1 (3 / 10 ^ 6)) (h3 : App p.2.2 q.2.2 (3 / 10 ^ 6)) (b1 : 0 ≤ q.1 ∧ q.1 ≤ 1001 / 1000)
    (b2 : 0 ≤ q.2.1 ∧ q.2.1 ≤ 1001 / 1000) (b3 : 0 ≤ q.2.2 ∧ q.2.2 ≤ 1001 / 1000) :
    App (rowMul ar (rowMul ar p sp.rgbToXyzMat) dp.xyzToRgbMat).1 (rowMul rr (rowMul rr q sp.rgbToXyzMat) dp.xyzToRgbMat).1
      (11 / 10 ^ 6) ∧
    App (rowMul ar (rowMul ar p sp.rgbToXyzMat) dp.xyzToRgbMat).2.1
      (rowMul rr (rowMul rr q sp.rgbToXyzMat) dp.xyzToRgbMat).2.1 (11 / 10 ^ 6) ∧
    App (rowMul ar (rowMul ar p sp.rgbToXyzMat) dp.xyzToRgbMat).2.2
      (rowMul rr (rowMul rr q sp.rgbToXyzMat) dp.xyzToRgbMat).2.2 (11 / 10 ^ 6) := by
  obtain ⟨x, i1, e1⟩ := h1.is
  obtain ⟨y, i2, e2⟩ := h2.is
  obtain ⟨z, i3, e3⟩ := h3.is
  have small : ∀ {x : ℚ} {q : ℝ}, |(x : ℝ) - q| ≤ 3 / 10 ^ 6 → 0 ≤ q ∧ q ≤ 1001 / 1000 → |(x : ℝ)| ≤ 10011 / 10000 := by
    intro x q h hq
    rw [abs_le] at h ⊢
    have h1 := h.1
    have h2 := h.2
    norm_num at h1 h2 ⊢
    constructor <;> linarith [hq.1, hq.2]
  obtain ⟨r1, r2, r3⟩ := mix_round he hi sp dp (q := ((x : ℝ), (y : ℝ), (z : ℝ))) i1.app i2.app i3.app (small e1 b1) (small e2 b2)
    (small e3 b3)
  obtain ⟨s1, s2, s3⟩ := mix_lipschitz he sp dp (p := ((x : ℝ), (y : ℝ), (z : ℝ))) e1 e2 e3
  exact ⟨(r1.shift s1).mono (by norm_num), (r2.shift s2).mono (by norm_num), (r3.shift s3).mono (by norm_num)⟩

/-! ## Encoding -/

/-- The encoded signal `v` is that of the light `l`; values below 0 count as 0. -/
def Encodes (rr : Arith ℝ) (t : ColorTransfer) (v : F32) (l : ℝ) : Prop :=
  (v = .nan ∧ l = 0) ∨ ∃ r, App v r (21 / 10 ^ 7) ∧ r ≤ 10 ∧ -20 ≤ r ∧ max 0 r = max 0 (encodeTransfer rr t l)

omit he in
/-- A root of a negative number, times `a` less `b`. -/
theorem neg_root {x a b c : F32} {X C A B : ℚ} {A' B' : ℝ} (hx : Is x X) (hg : Good x) (h0 : X < 0) (h2 : -1 ≤ X) (hc : Is c C)
    (hC : 1 / 3 ≤ C) (hC2 : C ≤ 1 / 2)
    (ha : Is a A) (hA : |(A : ℝ) - A'| ≤ 6 / 10 ^ 8) (hA' : |A'| ≤ 11 / 10) (hb : Is b B) (hB : |(B : ℝ) - B'| ≤ 1 / 10 ^ 8)
    (hB' : |B'| ≤ 1 / 10) : ar.sub (ar.mul a (ar.pow x c)) b = .nan ∨
      App (ar.sub (ar.mul a (ar.pow x c)) b) (-B') (2 / 10 ^ 6) := by
  have hr := (hg.is hx).1
  rw [abs_of_neg h0] at hr
  obtain rfl := hx.neg_eq h0
  rw [hf.sub, hf.mul]
  rcases hf.lib.roots hr (by linarith) (by norm_num; linarith) hc hC hC2 with h | ⟨r, h, r0, r1⟩
  · left
    change F32.sub (F32.mul a (ar.pow _ c)) b = _
    simp only at h
    rw [h, mul_nan]
    cases b <;> rfl
  · right
    simp only at h
    rw [h]
    have r0' : (0 : ℝ) ≤ r := by exact_mod_cast r0
    have hz : App (fin false r) 0 (1 / 10 ^ 11) := by
      refine ⟨false, r, rfl, r0, ?_⟩
      simp only [signed, Bool.false_eq_true, if_false, sub_zero]
      rwa [abs_of_nonneg r0']
    have s1 := app_mul (B := 1 / 10 ^ 5) (ha.app.shift hA) hz hA' (C := 0) (by simp)
      (by norm_num) (by norm_num) (by norm_num)
    have s2 := app_sub (B := 2 / 10) s1 (hb.app.shift hB) (by
      rw [mul_zero, zero_sub, abs_neg]; norm_num at hB' ⊢; linarith) (by norm_num) (by norm_num)
    rw [mul_zero, zero_sub] at s2
    exact s2.mono (by norm_num)

omit hf in
theorem enc_bounds {t : ColorTransfer} (ht : t ≠ .BT2100PQ) {l : ℝ} (h0 : 0 ≤ l) (h2 : l ≤ 2) :
    encodeTransfer rr t l ≤ 10 ∧ -20 ≤ encodeTransfer rr t l := by
  have pw : ∀ Z : ℝ, 0 ≤ Z → Z ≤ 1 → 0 ≤ l ^ Z ∧ l ^ Z ≤ 2 := fun Z h3 h4 =>
    ⟨Real.rpow_nonneg h0 _, rpow_le_two h0 h2 h3 h4⟩
  cases t with
  | Linear => simp only [encodeTransfer]; constructor <;> linarith
  | Gamma22 => rw [enc_gamma22 he]; have := pw (1 / 2.2) (by norm_num) (by norm_num); constructor <;> linarith [this.1, this.2]
  | Gamma28 => rw [enc_gamma28 he]; have := pw (1 / 2.8) (by norm_num) (by norm_num); constructor <;> linarith [this.1, this.2]
  | SRGB =>
    rw [enc_srgb he]
    have := pw (1 / 2.4) (by norm_num) (by norm_num)
    split
    · rename_i h; norm_num at h ⊢; constructor <;> linarith
    · obtain ⟨a, b⟩ := this
      generalize l ^ (1 / 2.4 : ℝ) = q at *
      norm_num; constructor <;> linarith
  | SDR =>
    rw [enc_sdr he]
    have := pw 0.45 (by norm_num) (by norm_num)
    split
    · rename_i h; norm_num at h ⊢; constructor <;> linarith
    · obtain ⟨a, b⟩ := this
      generalize l ^ (0.45 : ℝ) = q at *
      norm_num; constructor <;> linarith
  | BT2100PQ => exact absurd rfl ht
  | BT2100HLG =>
    rw [enc_hlg he, max_eq_left h0]
    split
    · rename_i h
      have h1 := Real.sqrt_nonneg (l * 3)
      have h3 : Real.sqrt (l * 3) ≤ 1 := Real.sqrt_le_one.mpr (by linarith)
      constructor <;> linarith
    · rename_i h
      rw [not_le] at h
      have p : (7 / 10 : ℝ) ≤ 12 * l - 0.28466892 := by norm_num; linarith
      have l1 := Real.log_le_sub_one_of_pos (show 0 < 12 * l - 0.28466892 by linarith)
      have l2 := Real.one_sub_inv_le_log_of_pos (show 0 < 12 * l - 0.28466892 by linarith)
      have l3 : (12 * l - 0.28466892)⁻¹ ≤ (7 / 10 : ℝ)⁻¹ := inv_anti₀ (by norm_num) p
      generalize Real.log (12 * l - 0.28466892) = L at *
      generalize (12 * l - 0.28466892)⁻¹ = I at *
      norm_num at *
      constructor <;> linarith

theorem enc_near {t : ColorTransfer} (ht : t ≠ .BT2100PQ) {x : F32} {X : ℚ} (hx : Is x X) (hg : Good x) (h1 : -1 ≤ X) (h2 : X ≤ 2) :
    ∃ l, 0 ≤ l ∧ |l - max 0 (X : ℝ)| ≤ 1 / 10 ^ 8 ∧ Encodes rr t (encodeTransfer ar t x) l := by
  have hX1 : (-1 : ℝ) ≤ X := by exact_mod_cast h1
  have hX2 : (X : ℝ) ≤ 2 := by exact_mod_cast h2
  rcases le_or_gt 0 X with h0 | h0
  · have hX0 : (0 : ℝ) ≤ X := by exact_mod_cast h0
    -- at the threshold of `SDR` the light is taken to be the number of the source
    by_cases hs : t = .SDR ∧ X = 9692651 / 536870912
    · obtain ⟨rfl, hs⟩ := hs
      have hXr : (X : ℝ) = 9692651 / 536870912 := by rw [hs]; push_cast; rfl
      refine ⟨0.01805397, by norm_num, ?_, Or.inr ⟨encodeTransfer rr .SDR 0.01805397, ?_, ?_⟩⟩
      · rw [max_eq_right hX0, hXr, abs_le]; norm_num
      · have h3 := enc_sdr_branch hf hx hg h0 h2
        rw [if_neg (by rw [hs]; exact lt_irrefl _)] at h3
        refine (h3.shift (d := 1 / 10 ^ 7) ?_).mono (by norm_num)
        rw [enc_sdr he, if_neg (by norm_num)]
        have l1 : (0.16423197 : ℝ) ≤ (X : ℝ) ^ (0.45 : ℝ) := by
          rw [le_rpow_iff (m := 9) (n := 20) (by norm_num) (by norm_num) (by norm_num) hX0, hXr]; norm_num
        have l2 : (0.01805397 : ℝ) ^ (0.45 : ℝ) < 0.16423198 := by
          rw [rpow_lt_iff (m := 9) (n := 20) (by norm_num) (by norm_num) (by norm_num) (by norm_num)]; norm_num
        have l3 : (X : ℝ) ^ (0.45 : ℝ) ≤ (0.01805397 : ℝ) ^ (0.45 : ℝ) :=
          Real.rpow_le_rpow hX0 (by rw [hXr]; norm_num) (by norm_num)
        generalize (X : ℝ) ^ (0.45 : ℝ) = a at *
        generalize (0.01805397 : ℝ) ^ (0.45 : ℝ) = b at *
        rw [abs_le]
        norm_num at *
        constructor <;> linarith
      · have := enc_bounds he (t := .SDR) nofun (l := 0.01805397) (by norm_num) (by norm_num)
        exact ⟨this.1, this.2, rfl⟩
    · have := enc_bounds he ht hX0 hX2
      refine ⟨X, hX0, by rw [max_eq_right hX0, sub_self, abs_zero]; norm_num, Or.inr ⟨_, ?_, this.1, this.2, rfl⟩⟩
      cases t with
      | Linear => exact hx.app.mono (by norm_num)
      | Gamma22 => rw [enc_gamma22 he]; exact (enc_gamma22_app hf hx hg h0 h2).mono (by norm_num)
      | Gamma28 => rw [enc_gamma28 he]; exact (enc_gamma28_app hf hx hg h0 h2).mono (by norm_num)
      | SRGB => rw [enc_srgb he]; exact (enc_srgb_app hf hx hg h0 h2).mono (by norm_num)
      | SDR => rw [enc_sdr he]; exact (enc_sdr_app hf hx hg h0 h2 (fun h => hs ⟨rfl, h⟩)).mono (by norm_num)
      | BT2100PQ => exact absurd rfl ht
      | BT2100HLG => rw [enc_hlg he, max_eq_left hX0]; exact (enc_hlg_app hf hx hg h0 h2).mono (by norm_num)
  · have hX0 : (X : ℝ) < 0 := by exact_mod_cast h0
    refine ⟨0, le_refl _, by rw [max_eq_left hX0.le, sub_self, abs_zero]; norm_num, ?_⟩
    have hr := (hg.is hx).1
    rw [abs_of_neg h0] at hr
    have zero : ∀ {v : F32} {r : ℝ}, App v r (21 / 10 ^ 7) → r ≤ 0 → -20 ≤ r → Encodes rr t v 0 := by
      intro v r h1 h2 h3
      exact Or.inr ⟨r, h1, by linarith, h3, by rw [enc_zero he ht, max_self, max_eq_left h2]⟩
    have root : ∀ {c : F32} {C : ℚ}, Is c C → 1 / 3 ≤ C → C ≤ 1 / 2 → Encodes rr t (ar.pow x c) 0 := by
      intro c C hc hC hC2
      obtain rfl := hx.neg_eq h0
      rcases hf.lib.roots hr (by linarith) (by norm_num; linarith) hc hC hC2 with h | ⟨r, h, r0, r1⟩
      · exact Or.inl ⟨h, rfl⟩
      · refine zero (r := 0) ?_ (le_refl _) (by norm_num)
        have r0' : (0 : ℝ) ≤ r := by exact_mod_cast r0
        refine ⟨false, r, h, r0, ?_⟩
        simp only [signed, Bool.false_eq_true, if_false, sub_zero]
        rw [abs_of_nonneg r0']
        norm_num at r1 ⊢; linarith
    cases t with
    | Linear => exact zero (hx.app.mono (by norm_num)) hX0.le (by linarith)
    | Gamma22 => exact root is_i22 (by norm_num) (by norm_num)
    | Gamma28 => exact root is_i28 (by norm_num) (by norm_num)
    | SRGB =>
      simp only [encodeTransfer]
      split
      · refine zero (r := (X : ℝ) * 12.92) ?_ (by norm_num; linarith) (by norm_num; linarith)
        rw [hf.mul]
        have hs : App (lit 12.92 : F32) 12.92 (1 / 10 ^ 7 * 4) := by
          refine (is_1292.app.shift (d := 1 / 10 ^ 7 * 4) ?_).mono (by norm_num)
          rw [abs_le]; constructor <;> norm_num
        have := app_mul (B := 13) hx.app hs (A := 1) (C := 12.92) (by rw [abs_of_neg hX0]; linarith)
          (by rw [abs_of_nonneg] <;> norm_num) (by norm_num) (by norm_num) (by norm_num)
        exact this.mono (by norm_num)
      · rcases neg_root hf hx hg h0 h1 is_i24 (by norm_num) (by norm_num) is_1055 (A' := 1.055) (by rw [abs_le]; constructor <;> norm_num)
          (by rw [abs_le]; constructor <;> norm_num) is_0055 (B' := 0.055) (by rw [abs_le]; constructor <;> norm_num)
          (by rw [abs_le]; constructor <;> norm_num) with h | h
        · exact Or.inl ⟨h, rfl⟩
        · exact zero (h.mono (by norm_num)) (by norm_num) (by norm_num)
    | SDR =>
      simp only [encodeTransfer]
      split
      · refine zero (r := 4.5 * (X : ℝ)) ?_ (by norm_num; linarith) (by norm_num; linarith)
        rw [hf.mul]
        have := app_mul (B := 5) is_45.app hx.app (A := 45 / 10) (C := 1) (by
          push_cast; rw [abs_of_nonneg] <;> norm_num) (by rw [abs_of_neg hX0]; linarith)
          (by norm_num) (by norm_num) (by norm_num)
        refine (this.shift (d := 0) ?_).mono (by norm_num)
        push_cast
        rw [abs_le]; constructor <;> norm_num
      · rcases neg_root hf hx hg h0 h1 is_045 (by norm_num) (by norm_num) is_1099 (A' := 1.099) (by rw [abs_le]; constructor <;> norm_num)
          (by rw [abs_le]; constructor <;> norm_num) is_0099 (B' := 0.099) (by rw [abs_le]; constructor <;> norm_num)
          (by rw [abs_le]; constructor <;> norm_num) with h | h
        · exact Or.inl ⟨h, rfl⟩
        · exact zero (h.mono (by norm_num)) (by norm_num) (by norm_num)
    | BT2100PQ => exact absurd rfl ht
    | BT2100HLG =>
      simp only [encodeTransfer, hlgEncode]
      obtain ⟨hm, hgm⟩ := max_is hf hx hg
      rw [max_eq_right h0.le] at hm
      generalize ar.max x (lit 0.0) = m at *
      rw [hf.le hm is_112 (le_refl _) (by norm_num), if_pos (by norm_num), hf.mul]
      have low := sqrt3_app hf hm hgm (le_refl _) (by norm_num)
      refine zero (r := 0) ?_ (le_refl _) (by norm_num)
      rw [Rat.cast_zero, zero_mul, Real.sqrt_zero] at low
      exact low.mono (by norm_num)

end
end Ezk

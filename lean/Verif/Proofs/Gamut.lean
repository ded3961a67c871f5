import Verif.Proofs.ChangeApp

/-!
# Mixes of BT.709, SMPTE 240M and BT.2020

Lemmas for C80 (`Verif/Props/Gamut.lean`).
-/

namespace Ezk
open F32 FOps Spec

/-- The smaller set of primaries and the larger one: all colours of the first are colours of the second. -/
def Wider (sp dp : ColorPrimaries) : Prop := (sp = .BT709 ∨ sp = .ST240) ∧ dp = .BT2020

section
variable {rr : Arith ℝ} (he : Exact rr)
include he

/-- Every component in the larger set of primaries is a mean of those in the smaller one. -/
theorem wider_range {sp dp : ColorPrimaries} (h : Wider sp dp) {p : C3 ℝ} {M : ℝ} (h1 : 0 ≤ p.1 ∧ p.1 ≤ M) (h2 : 0 ≤ p.2.1 ∧ p.2.1 ≤ M)
    (h3 : 0 ≤ p.2.2 ∧ p.2.2 ≤ M) :
    (0 ≤ (rowMul rr (rowMul rr p sp.rgbToXyzMat) dp.xyzToRgbMat).1 ∧
      (rowMul rr (rowMul rr p sp.rgbToXyzMat) dp.xyzToRgbMat).1 ≤ (1 + 3 / 10 ^ 7) * M) ∧
    (0 ≤ (rowMul rr (rowMul rr p sp.rgbToXyzMat) dp.xyzToRgbMat).2.1 ∧
      (rowMul rr (rowMul rr p sp.rgbToXyzMat) dp.xyzToRgbMat).2.1 ≤ (1 + 3 / 10 ^ 7) * M) ∧
    (0 ≤ (rowMul rr (rowMul rr p sp.rgbToXyzMat) dp.xyzToRgbMat).2.2 ∧
      (rowMul rr (rowMul rr p sp.rgbToXyzMat) dp.xyzToRgbMat).2.2 ≤ (1 + 3 / 10 ^ 7) * M) := by
  simp only [rowMul, dot, he.add, he.mul]
  obtain ⟨a, b, c⟩ := p
  obtain ⟨a0, a1⟩ := h1
  obtain ⟨b0, b1⟩ := h2
  obtain ⟨c0, c1⟩ := h3
  obtain ⟨rfl | rfl, rfl⟩ := h <;> simp only [ColorPrimaries.rgbToXyzMat, ST240_RGB_TO_XYZ, BT709_RGB_TO_XYZ,
    ColorPrimaries.xyzToRgbMat, BT2020_XYZ_TO_RGB, lit_real] <;>
    norm_num [Rat.cast_ofScientific] at * <;> refine ⟨⟨?_, ?_⟩, ⟨?_, ?_⟩, ?_, ?_⟩ <;> linarith

/-- The way back: what rounded codes of the larger set of primaries mean in the smaller one. -/
theorem wider_back {sp dp : ColorPrimaries} (h : Wider sp dp) {p q : C3 ℝ} {d u : ℝ} (hd : 0 ≤ d) (hu : 0 ≤ u)
    (b1 : 0 ≤ p.1 ∧ p.1 ≤ 255) (b2 : 0 ≤ p.2.1 ∧ p.2.1 ≤ 255) (b3 : 0 ≤ p.2.2 ∧ p.2.2 ≤ 255)
    (h1 : -d ≤ q.1 - (rowMul rr (rowMul rr p sp.rgbToXyzMat) dp.xyzToRgbMat).1 ∧
      q.1 - (rowMul rr (rowMul rr p sp.rgbToXyzMat) dp.xyzToRgbMat).1 ≤ u)
    (h2 : -d ≤ q.2.1 - (rowMul rr (rowMul rr p sp.rgbToXyzMat) dp.xyzToRgbMat).2.1 ∧
      q.2.1 - (rowMul rr (rowMul rr p sp.rgbToXyzMat) dp.xyzToRgbMat).2.1 ≤ u)
    (h3 : -d ≤ q.2.2 - (rowMul rr (rowMul rr p sp.rgbToXyzMat) dp.xyzToRgbMat).2.2 ∧
      q.2.2 - (rowMul rr (rowMul rr p sp.rgbToXyzMat) dp.xyzToRgbMat).2.2 ≤ u) :
    (-(178 / 100 * d + 78 / 100 * u + 2 / 10 ^ 3) ≤ (rowMul rr (rowMul rr q dp.rgbToXyzMat) sp.xyzToRgbMat).1 - p.1 ∧
      (rowMul rr (rowMul rr q dp.rgbToXyzMat) sp.xyzToRgbMat).1 - p.1 ≤ 178 / 100 * u + 78 / 100 * d + 2 / 10 ^ 3) ∧
    (-(178 / 100 * d + 78 / 100 * u + 2 / 10 ^ 3) ≤ (rowMul rr (rowMul rr q dp.rgbToXyzMat) sp.xyzToRgbMat).2.1 - p.2.1 ∧
      (rowMul rr (rowMul rr q dp.rgbToXyzMat) sp.xyzToRgbMat).2.1 - p.2.1 ≤ 178 / 100 * u + 78 / 100 * d + 2 / 10 ^ 3) ∧
    (-(178 / 100 * d + 78 / 100 * u + 2 / 10 ^ 3) ≤ (rowMul rr (rowMul rr q dp.rgbToXyzMat) sp.xyzToRgbMat).2.2 - p.2.2 ∧
      (rowMul rr (rowMul rr q dp.rgbToXyzMat) sp.xyzToRgbMat).2.2 - p.2.2 ≤ 178 / 100 * u + 78 / 100 * d + 2 / 10 ^ 3) := by
  revert h1 h2 h3
  simp only [rowMul, dot, he.add, he.mul]
  obtain ⟨a, b, c⟩ := p
  obtain ⟨a', b', c'⟩ := q
  obtain ⟨a0, a1⟩ := b1
  obtain ⟨b0, b1⟩ := b2
  obtain ⟨c0, c1⟩ := b3
  obtain ⟨rfl | rfl, rfl⟩ := h <;> simp only [ColorPrimaries.rgbToXyzMat, ST240_RGB_TO_XYZ, BT709_RGB_TO_XYZ, BT2020_RGB_TO_XYZ,
    ColorPrimaries.xyzToRgbMat, BT2020_XYZ_TO_RGB, ST240_XYZ_TO_RGB, BT709_XYZ_TO_RGB, lit_real] <;>
    norm_num [Rat.cast_ofScientific] at * <;> intro h1 h2 h3 h4 h5 h6 <;> refine ⟨⟨?_, ?_⟩, ⟨?_, ?_⟩, ?_, ?_⟩ <;> linarith

/-- More light of the source is not less light in the larger set of primaries. -/
theorem wider_mono {sp dp : ColorPrimaries} (h : sp = dp ∨ Wider sp dp) {p q : C3 ℝ} (h1 : 0 ≤ p.1 ∧ p.1 ≤ q.1 ∧ q.1 ≤ 1001 / 1000)
    (h2 : 0 ≤ p.2.1 ∧ p.2.1 ≤ q.2.1 ∧ q.2.1 ≤ 1001 / 1000) (h3 : 0 ≤ p.2.2 ∧ p.2.2 ≤ q.2.2 ∧ q.2.2 ≤ 1001 / 1000) :
    (rowMul rr (rowMul rr p sp.rgbToXyzMat) dp.xyzToRgbMat).1 ≤
      (rowMul rr (rowMul rr q sp.rgbToXyzMat) dp.xyzToRgbMat).1 + 2 / 10 ^ 6 ∧
    (rowMul rr (rowMul rr p sp.rgbToXyzMat) dp.xyzToRgbMat).2.1 ≤
      (rowMul rr (rowMul rr q sp.rgbToXyzMat) dp.xyzToRgbMat).2.1 + 2 / 10 ^ 6 ∧
    (rowMul rr (rowMul rr p sp.rgbToXyzMat) dp.xyzToRgbMat).2.2 ≤
      (rowMul rr (rowMul rr q sp.rgbToXyzMat) dp.xyzToRgbMat).2.2 + 2 / 10 ^ 6 := by
  simp only [rowMul, dot, he.add, he.mul]
  obtain ⟨a, b, c⟩ := p
  obtain ⟨a', b', c'⟩ := q
  obtain ⟨a0, a1, a2⟩ := h1
  obtain ⟨b0, b1, b2⟩ := h2
  obtain ⟨c0, c1, c2⟩ := h3
  rcases h with rfl | ⟨rfl | rfl, rfl⟩
  · cases sp <;> simp only [ColorPrimaries.rgbToXyzMat, ST240_RGB_TO_XYZ, BT709_RGB_TO_XYZ, BT2020_RGB_TO_XYZ,
      ColorPrimaries.xyzToRgbMat, ST240_XYZ_TO_RGB, BT709_XYZ_TO_RGB, BT2020_XYZ_TO_RGB, lit_real] <;>
      norm_num [Rat.cast_ofScientific] at * <;> refine ⟨?_, ?_, ?_⟩ <;> linarith
  all_goals
    simp only [ColorPrimaries.rgbToXyzMat, ST240_RGB_TO_XYZ, BT709_RGB_TO_XYZ, BT2020_RGB_TO_XYZ,
      ColorPrimaries.xyzToRgbMat, ST240_XYZ_TO_RGB, BT709_XYZ_TO_RGB, BT2020_XYZ_TO_RGB, lit_real]
    norm_num [Rat.cast_ofScientific] at *
    refine ⟨?_, ?_, ?_⟩ <;> linarith

/-- The decoders keep the order. -/
theorem dec_mono {t : ColorTransfer} (ht : t ≠ .BT2100PQ) {a b : ℝ} (h0 : 0 ≤ a) (h : a ≤ b) : decodeTransfer rr t a ≤ decodeTransfer rr t b := by
  cases t with
  | Linear => simpa only [decodeTransfer] using h
  | Gamma22 => rw [dec_gamma22 he, dec_gamma22 he]; exact Real.rpow_le_rpow h0 h (by norm_num)
  | Gamma28 => rw [dec_gamma28 he, dec_gamma28 he]; exact Real.rpow_le_rpow h0 h (by norm_num)
  | SRGB => exact dec_srgb_mono he h0 h
  | SDR => exact dec_sdr_mono he h0 h
  | BT2100PQ => exact absurd rfl ht
  | BT2100HLG => exact dec_hlg_mono he h

end

end Ezk

import Verif.Proofs.ChangePq
import Verif.Proofs.EncodeCont

/-!
# Greys under a change of transfer function or primaries

The three components of a grey stay close together, relative to their size.
-/

namespace Ezk
open FOps Spec F32

section
variable {rr : Arith ℝ} (he : Exact rr)
include he

/-- All primaries have the same white. -/
theorem mix_grey (sp dp : ColorPrimaries) (q : ℝ) :
    |(rowMul rr (rowMul rr (q, q, q) sp.rgbToXyzMat) dp.xyzToRgbMat).1 - q| ≤ 3 / 10 ^ 7 * |q| ∧
    |(rowMul rr (rowMul rr (q, q, q) sp.rgbToXyzMat) dp.xyzToRgbMat).2.1 - q| ≤ 3 / 10 ^ 7 * |q| ∧
    |(rowMul rr (rowMul rr (q, q, q) sp.rgbToXyzMat) dp.xyzToRgbMat).2.2 - q| ≤ 3 / 10 ^ 7 * |q| := by
  have lin : ∀ M N : Mat ℝ, rowMul rr (rowMul rr (q, q, q) M) N = (q * (rowMul rr (rowMul rr (1, 1, 1) M) N).1,
      q * (rowMul rr (rowMul rr (1, 1, 1) M) N).2.1, q * (rowMul rr (rowMul rr (1, 1, 1) M) N).2.2) := by
    intro M N
    simp only [rowMul, dot, he.add, he.mul, Prod.mk.injEq]
    refine ⟨?_, ?_, ?_⟩ <;> ring
  have key : ∀ {k : ℝ}, |k - 1| ≤ 3 / 10 ^ 7 → |q * k - q| ≤ 3 / 10 ^ 7 * |q| := by
    intro k h2
    have : q * k - q = (k - 1) * q := by ring
    rw [this, abs_mul]
    exact mul_le_mul_of_nonneg_right h2 (abs_nonneg _)
  rw [lin]
  refine ⟨key ?_, key ?_, key ?_⟩ <;> cases sp <;> cases dp <;>
    (simp only [rowMul, dot, he.add, he.mul, ColorPrimaries.rgbToXyzMat, ColorPrimaries.xyzToRgbMat, ST240_RGB_TO_XYZ, BT709_RGB_TO_XYZ,
        BT2020_RGB_TO_XYZ, ST240_XYZ_TO_RGB, BT709_XYZ_TO_RGB, BT2020_XYZ_TO_RGB, lit_real]
     norm_num [abs_le])

/-- Lights that are close, or close relative to their size, have close encodings: 0.8 of a code. -/
theorem enc_up_grey {t : ColorTransfer} (ht : t ≠ .BT2100PQ) {a b : ℝ} (h0 : 0 ≤ a) (hab : a ≤ b)
    (hd : b ≤ a + 21 / 10 ^ 9 ∨ 99 / 10 ^ 6 ≤ a ∧ b ≤ a + 8 / 10 ^ 6) :
    encodeTransfer rr t b ≤ encodeTransfer rr t a + 3 / 1000 := by
  have hb : 0 ≤ b := h0.trans hab
  have hd' : b ≤ a + 12 / 10 ^ 6 := by
    rcases hd with h | h
    · norm_num at h ⊢; linarith
    · have := h.2; norm_num at this ⊢; linarith
  have hu := enc_up he ht h0 hab hd'
  have root : ∀ {Z T : ℝ}, 1 / 3 ≤ Z → Z ≤ 1 / 2 → (21 / 10 ^ 9 : ℝ) ^ Z ≤ 3 / 1000 → (99 / 10 ^ 6 : ℝ) ^ Z ≤ 7 / 100 →
      b ^ Z ≤ a ^ Z + 3 / 1000 := by
    intro Z T z1 z2 h1 h2
    rcases hd with h | ⟨h, h'⟩
    · have := root_sub h0 h (by norm_num) hb (show 0 < Z by linarith) (by linarith)
      linarith
    · have := root_lip (by norm_num) h hab (show 0 ≤ Z by linarith) (by linarith)
      have h3 : Z * ((99 / 10 ^ 6 : ℝ) ^ Z / (99 / 10 ^ 6)) * (b - a) ≤ 1 / 2 * (7 / 100 / (99 / 10 ^ 6)) * (8 / 10 ^ 6) := by
        have : 0 ≤ (99 / 10 ^ 6 : ℝ) ^ Z := by positivity
        have : 0 ≤ b - a := by linarith
        have : b - a ≤ 8 / 10 ^ 6 := by linarith
        gcongr
      norm_num at h3 ⊢
      norm_num at this
      linarith
  cases t with
  | Linear => simp only [encodeGap] at hu; norm_num at hu ⊢; linarith
  | SRGB => simp only [encodeGap] at hu; norm_num at hu ⊢; linarith
  | SDR => simp only [encodeGap] at hu; norm_num at hu ⊢; linarith
  | BT2100PQ => exact absurd rfl ht
  | Gamma22 =>
    rw [enc_gamma22 he, enc_gamma22 he]
    refine root (T := 0) (by norm_num) (by norm_num) (le_of_lt ?_) (le_of_lt ?_)
    · rw [rpow_lt_iff (m := 5) (n := 11) (by norm_num) (by norm_num) (by norm_num) (by norm_num)]; norm_num
    · rw [rpow_lt_iff (m := 5) (n := 11) (by norm_num) (by norm_num) (by norm_num) (by norm_num)]; norm_num
  | Gamma28 =>
    rw [enc_gamma28 he, enc_gamma28 he]
    refine root (T := 0) (by norm_num) (by norm_num) (le_of_lt ?_) (le_of_lt ?_)
    · rw [rpow_lt_iff (m := 5) (n := 14) (by norm_num) (by norm_num) (by norm_num) (by norm_num)]; norm_num
    · rw [rpow_lt_iff (m := 5) (n := 14) (by norm_num) (by norm_num) (by norm_num) (by norm_num)]; norm_num
  | BT2100HLG =>
    rw [enc_hlg he, enc_hlg he, max_eq_left h0, max_eq_left hb]
    have low : ∀ {u v : ℝ}, 0 ≤ u → u ≤ v → (v ≤ u + 21 / 10 ^ 9 ∨ 99 / 10 ^ 6 ≤ u ∧ v ≤ u + 8 / 10 ^ 6) →
        Real.sqrt (v * 3) ≤ Real.sqrt (u * 3) + 2 / 10 ^ 3 := by
      intro u v h1 h2 h3
      apply Real.sqrt_le_iff.mpr
      have s0 := Real.sqrt_nonneg (u * 3)
      have s1 := Real.mul_self_sqrt (show 0 ≤ u * 3 by linarith)
      have s2 : 99 / 10 ^ 6 ≤ u → (17 / 1000 : ℝ) ≤ Real.sqrt (u * 3) := by
        intro h
        apply Real.le_sqrt_of_sq_le
        norm_num at h ⊢; linarith
      generalize Real.sqrt (u * 3) = r at *
      norm_num at h3 ⊢
      refine ⟨by linarith, ?_⟩
      rcases h3 with h | ⟨h, h'⟩
      · nlinarith
      · have := s2 (by norm_num; exact h)
        nlinarith
    have high : ∀ {u v : ℝ}, 1 / 12 ≤ u → u ≤ v → v ≤ u + 12 / 10 ^ 6 →
        0.17883277 * Real.log (12 * v - 0.28466892) + 0.5599107 ≤
          0.17883277 * Real.log (12 * u - 0.28466892) + 0.5599107 + 1 / 10 ^ 4 := by
      intro u v h1 h2 h3
      have u0 : (7 / 10 : ℝ) ≤ 12 * u - 0.28466892 := by norm_num; linarith
      have v0 : (7 / 10 : ℝ) ≤ 12 * v - 0.28466892 := by linarith
      have h4 : Real.log (12 * v - 0.28466892) - Real.log (12 * u - 0.28466892) ≤
          (12 * v - 0.28466892) / (12 * u - 0.28466892) - 1 := by
        rw [← Real.log_div (by linarith) (by linarith)]
        exact Real.log_le_sub_one_of_pos (by apply div_pos <;> linarith)
      have h5 : (12 * v - 0.28466892) / (12 * u - 0.28466892) - 1 ≤ 3 / 10 ^ 4 := by
        rw [sub_le_iff_le_add, div_le_iff₀ (by linarith)]
        norm_num at *
        linarith
      generalize Real.log (12 * v - 0.28466892) = A at *
      generalize Real.log (12 * u - 0.28466892) = B at *
      norm_num at *
      linarith
    have top : (0.17883277 : ℝ) * Real.log (12 * (1 / 12) - 0.28466892) + 0.5599107 ≤ 5001 / 10 ^ 4 := by
      have : Real.log (12 * (1 / 12) - 0.28466892) ≤ (0.5001 - 0.5599107) / 0.17883277 := by
        rw [Real.log_le_iff_le_exp (by norm_num)]
        refine le_trans (b := (0.71569 : ℝ)) (by norm_num) (le_exp (by rw [abs_le]; norm_num) ?_)
        rw [abs_of_neg (by norm_num)]; norm_num
      norm_num at this ⊢
      linarith
    by_cases hB : b ≤ 1 / 12
    · rw [if_pos hB, if_pos (hab.trans hB)]
      have := low h0 hab hd
      norm_num at this ⊢; linarith
    · rw [if_neg hB]
      rw [not_le] at hB
      clear hu root
      by_cases hA : a ≤ 1 / 12
      · rw [if_pos hA]
        have g1 := high (le_refl _) hB.le (by linarith)
        have g2 : (0.499 : ℝ) ≤ Real.sqrt (a * 3) := by
          apply Real.le_sqrt_of_sq_le
          norm_num at hd' hB ⊢
          linarith
        norm_num at *
        linarith
      · rw [if_neg hA]
        rw [not_le] at hA
        have := high hA.le hab hd'
        norm_num at this ⊢
        linarith

/-- The same for both directions and all transfer functions. -/
theorem enc_close_grey (t : ColorTransfer) {a b : ℝ} (h0 : 0 ≤ a) (h1 : 0 ≤ b) (ha : a ≤ 3) (hb : b ≤ 3)
    (hd : |a - b| ≤ 21 / 10 ^ 9 ∨ (99 / 10 ^ 6 ≤ a ∧ 99 / 10 ^ 6 ≤ b) ∧ |a - b| ≤ 8 / 10 ^ 6) :
    |encodeTransfer rr t a - encodeTransfer rr t b| ≤ 31 / 10 ^ 4 := by
  by_cases ht : t = .BT2100PQ
  · rw [ht]
    refine (enc_pq_gap he h0 h1 ha hb ?_).trans (by norm_num)
    rcases hd with h | h
    · exact h.trans (by norm_num)
    · exact h.2.trans (by norm_num)
  · have hd2 : ∀ {u v : ℝ}, |u - v| ≤ 21 / 10 ^ 9 ∨ (99 / 10 ^ 6 ≤ u ∧ 99 / 10 ^ 6 ≤ v) ∧ |u - v| ≤ 8 / 10 ^ 6 →
        v ≤ u + 21 / 10 ^ 9 ∨ 99 / 10 ^ 6 ≤ u ∧ v ≤ u + 8 / 10 ^ 6 := by
      intro u v h
      rcases h with h | h
      · left; linarith [(abs_le.mp h).1]
      · right; exact ⟨h.1.1, by linarith [(abs_le.mp h.2).1]⟩
    rcases le_total a b with h | h
    · have u := enc_up_grey he ht h0 h (hd2 hd)
      have d := enc_down he ht h0 h
      rw [abs_le]; norm_num at u d ⊢; constructor <;> linarith
    · have u := enc_up_grey he ht h1 h (hd2 (by rw [abs_sub_comm, and_comm (a := 99 / 10 ^ 6 ≤ b)]; exact hd))
      have d := enc_down he ht h1 h
      rw [abs_le]; norm_num at u d ⊢; constructor <;> linarith

/-- The light of a grey, in other primaries: the three components as computed. -/
theorem mix_grey_app {ar : Arith F32} (hi : IsIeee ar) (sp dp : ColorPrimaries) {L : F32} {q : ℚ} (hL : Is L q) {S : ℝ}
    (hS1 : 1 / 10 ^ 4 ≤ S) (hS2 : S ≤ 20000) (hq : |(q : ℝ)| ≤ S) :
    App (rowMul ar (rowMul ar (L, L, L) sp.rgbToXyzMat) dp.xyzToRgbMat).1 q (35 / 10 ^ 7 * S) ∧
    App (rowMul ar (rowMul ar (L, L, L) sp.rgbToXyzMat) dp.xyzToRgbMat).2.1 q (35 / 10 ^ 7 * S) ∧
    App (rowMul ar (rowMul ar (L, L, L) sp.rgbToXyzMat) dp.xyzToRgbMat).2.2 q (35 / 10 ^ 7 * S) := by
  have hb : |(q : ℝ)| ≤ 10011 / 10000 * S := by
    have : 0 ≤ S := (abs_nonneg _).trans hq
    linarith
  obtain ⟨a1, a2, a3⟩ := mix_round_scaled he hi sp dp (p := (L, L, L)) (q := ((q : ℝ), (q : ℝ), (q : ℝ))) hS1 hS2 hL.app hL.app hL.app hb hb hb
  obtain ⟨b1, b2, b3⟩ := mix_grey he sp dp (q : ℝ)
  have hk : 318 / 10 ^ 8 * S + 3 / 10 ^ 7 * |(q : ℝ)| ≤ 35 / 10 ^ 7 * S := by
    norm_num; linarith
  exact ⟨(a1.shift b1).mono hk, (a2.shift b2).mono hk, (a3.shift b3).mono hk⟩

end
end Ezk

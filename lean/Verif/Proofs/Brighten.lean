import Mathlib.Analysis.Convex.SpecificFunctions.Basic
import Verif.Proofs.LinearTrip

/-!
# Encoded light is brighter than linear light
-/

namespace Ezk
open F32 FOps Spec

/-- A convex function that is below the diagonal at both ends (but for `d`) is below it in between. -/
theorem below_chord {f : ℝ → ℝ} {S : Set ℝ} (hf : ConvexOn ℝ S f) {g : ℝ → ℝ} (hg : ∀ s u v : ℝ, g ((1 - s) * u + s * v) = (1 - s) * g u + s * g v)
    {T v d : ℝ} (hT : g T ∈ S) (h1 : g 1 ∈ S) (hT1 : T < 1) (hv : T ≤ v) (hv1 : v ≤ 1) (d0 : 0 ≤ d) (lo : f (g T) ≤ T) (hi : f (g 1) ≤ 1 + d) :
    f (g v) ≤ v + d := by
  have w0 : 0 < 1 - T := by linarith
  obtain ⟨s, hs⟩ : ∃ s, s = (v - T) / (1 - T) := ⟨_, rfl⟩
  have s0 : 0 ≤ s := by rw [hs]; exact div_nonneg (by linarith) w0.le
  have s1 : s ≤ 1 := by rw [hs, div_le_one w0]; linarith
  have e : (1 - s) * T + s * 1 = v := by
    have : s * (1 - T) = v - T := by rw [hs, div_mul_cancel₀ _ w0.ne']
    linarith
  have h := hf.2 hT h1 (by linarith : 0 ≤ 1 - s) s0 (by ring)
  simp only [smul_eq_mul] at h
  rw [← hg, e] at h
  nlinarith [mul_le_mul_of_nonneg_left lo (by linarith : 0 ≤ 1 - s), mul_le_mul_of_nonneg_left hi s0]

/-- The same for the powers of the decoders. -/
theorem below_power {A B C T v d : ℝ} (hB : 0 < B) (hA : 0 ≤ A) (hC : 2 ≤ C) (hT0 : 0 ≤ T) (hT1 : T < 1) (hv : T ≤ v) (hv1 : v ≤ 1) (d0 : 0 ≤ d)
    (hb : 0 < (T + A) / B) (hb1 : (T + A) / B ≤ 1) (lo : ((T + A) / B) ^ 2 ≤ T) (hi : ((1 + A) / B) ^ C ≤ 1 + d) : ((v + A) / B) ^ C ≤ v + d := by
  refine below_chord (f := fun z => z ^ C) (g := fun u => (u + A) / B) (convexOn_rpow (by linarith)) (fun s u v => by field_simp; ring)
    (Set.mem_Ici.mpr hb.le) (Set.mem_Ici.mpr (by positivity)) hT1 hv hv1 d0 ?_ hi
  have := Real.rpow_le_rpow_of_exponent_ge hb hb1 hC
  rw [Real.rpow_two] at this
  exact this.trans lo

/-- By how much the light of a signal may be above the signal: that of SDR is a little above for white. -/
noncomputable def brightError (t : ColorTransfer) : ℝ := if t = .SDR then 12 / 10 ^ 4 else 2 / 10 ^ 4

theorem brightError_pos (t : ColorTransfer) : 0 ≤ brightError t := by unfold brightError; split_ifs <;> norm_num

variable {rr : Arith ℝ} (he : Exact rr)
include he

/-- The light of white. -/
theorem dec_white {t : ColorTransfer} (ht : t ≠ .BT2100PQ) : decodeTransfer rr t 1 ≤ 1 + brightError t := by
  have h1 := trip_inverse he ht zero_le_one le_rfl
  have h2 := trip_white he ht
  have h3 := trip_nonneg he ht zero_le_one
  have h2' : |encodeTransfer rr t 1 - 1| ≤ 2 / 10 ^ 5 := h2.trans (by split_ifs <;> norm_num)
  have h1' : |decodeTransfer rr t (encodeTransfer rr t 1) - 1| ≤ brightError t - 15 / 10 ^ 5 := h1.trans (by unfold brightError; split_ifs <;> norm_num)
  have h4 := trip_lip he ht h3 zero_le_one (by linarith [(abs_le.mp h2').2]) (by norm_num)
  have hK : tripSlope t ≤ 55 / 10 := by cases t <;> simp only [tripSlope] <;> norm_num
  have h5 := mul_le_mul hK h2' (abs_nonneg _) (by norm_num)
  have := (abs_le.mp h4).1
  have := (abs_le.mp h1').2
  generalize decodeTransfer rr t (encodeTransfer rr t 1) = A at *
  norm_num at *
  linarith

/-- Decoding darkens. -/
theorem dec_below {t : ColorTransfer} (ht : t ≠ .BT2100PQ) {v : ℝ} (h0 : 0 ≤ v) (h1 : v ≤ 1) : decodeTransfer rr t v ≤ v + brightError t := by
  have hw := dec_white he ht
  have hE := brightError_pos t
  have gam : ∀ C : ℝ, 1 ≤ C → v ^ C ≤ v + brightError t := by
    intro C hC
    rcases h0.eq_or_lt with h | h
    · rw [← h, Real.zero_rpow (by linarith)]; linarith
    · have := Real.rpow_le_rpow_of_exponent_ge h h1 hC
      rw [Real.rpow_one] at this
      linarith
  cases t with
  | Linear => show v ≤ _; linarith
  | BT2100PQ => exact absurd rfl ht
  | Gamma22 => rw [dec_gamma22 he]; exact gam _ (by norm_num)
  | Gamma28 => rw [dec_gamma28 he]; exact gam _ (by norm_num)
  | SRGB =>
    rw [dec_srgb he] at hw ⊢
    rw [if_neg (by norm_num)] at hw
    split_ifs with h
    · have : v / 12.92 ≤ v := div_le_self h0 (by norm_num)
      linarith
    · exact below_power (T := 0.04045) (by norm_num) (by norm_num) (by norm_num) (by norm_num) (by norm_num) (not_le.mp h).le h1 hE
        (by norm_num) (by norm_num) (by norm_num) hw
  | SDR =>
    rw [dec_sdr he] at hw ⊢
    rw [if_neg (by norm_num)] at hw
    split_ifs with h
    · have : v / 4.5 ≤ v := div_le_self h0 (by norm_num)
      linarith
    · exact below_power (T := 0.081490956) (by norm_num) (by norm_num) (by norm_num) (by norm_num) (by norm_num) (not_lt.mp h) h1 hE
        (by norm_num) (by norm_num) (by norm_num) hw
  | BT2100HLG =>
    rw [dec_hlg he] at hw ⊢
    rw [max_eq_left zero_le_one, if_neg (by norm_num)] at hw
    rw [max_eq_left h0]
    split_ifs with h
    · nlinarith
    · have hj := (abs_le.mp hlg_join).1
      have hc : ConvexOn ℝ Set.univ (fun z => (Real.exp z + 0.28466892) / 12) := by
        have := (convexOn_exp.add_const (0.28466892 : ℝ)).smul (c := (1 / 12 : ℝ)) (by norm_num)
        refine this.congr fun z _ => ?_
        simp only [Pi.smul_apply, Pi.add_apply, smul_eq_mul]
        ring
      refine below_chord (f := fun z => (Real.exp z + 0.28466892) / 12) (g := fun u => (u - 0.5599107) / 0.17883277) hc (fun s u v => by ring)
        (T := 1 / 2) trivial trivial (by norm_num) (not_le.mp h).le h1 hE ?_ hw
      show (Real.exp ((1 / 2 - 0.5599107) / 0.17883277) + 0.28466892) / 12 ≤ 1 / 2
      linarith

/-- SDR signals are above their light, up to white. -/
theorem enc_sdr_above {a : ℝ} (h0 : 0 ≤ a) : min a 1 ≤ encodeTransfer rr .SDR a := by
  rw [enc_sdr he]
  split_ifs with h
  · exact (min_le_left _ _).trans (by linarith)
  · have h := not_lt.mp h
    rcases le_total a 1 with h1 | h1
    · rw [min_eq_left h1]
      have h2 := Real.rpow_le_rpow_of_exponent_ge (by linarith : 0 < a) h1 (by norm_num : (0.45 : ℝ) ≤ 1 / 2)
      rw [← Real.sqrt_eq_rpow] at h2
      have h3 := Real.sq_sqrt h0
      have h4 : Real.sqrt a ≤ 1 := Real.sqrt_le_one.mpr h1
      have h5 : (1 / 10 : ℝ) ≤ Real.sqrt a := Real.le_sqrt_of_sq_le (by norm_num at h ⊢; linarith)
      nlinarith [mul_nonneg (sub_nonneg.mpr h4) (sub_nonneg.mpr h5)]
    · rw [min_eq_right h1]
      have := Real.one_le_rpow h1 (by norm_num : (0 : ℝ) ≤ 0.45)
      linarith

/-- Encoding brightens: the signal of a light near a code, in codes. -/
theorem enc_above {t : ColorTransfer} (ht : t ≠ .BT2100PQ) {a n : ℝ} (a0 : 0 ≤ a) (n1 : n ≤ 1) (ha : |a - n| ≤ 132 / 10 ^ 7) :
    255 * n - 13 / 100 ≤ clamp255 (encodeTransfer rr t a * 255) := by
  by_cases h : t = .SDR
  · subst h
    have h1 := enc_sdr_above he a0
    have h2 := (abs_le.mp ha).1
    have h3 : n - 132 / 10 ^ 7 ≤ min a 1 := le_min (by linarith) (by linarith)
    exact le_max_of_le_right (le_min (by linarith) (by linarith))
  · have h1 := trip_clamp he ht a0 n1 ha
    rw [if_neg h] at h1
    have h2 : |255 * decodeTransfer rr t (clamp255 (encodeTransfer rr t a * 255) / 255) - 255 * n| ≤ 7 / 100 := h1.trans (by split_ifs <;> norm_num)
    have c0 : 0 ≤ clamp255 (encodeTransfer rr t a * 255) := le_max_left _ _
    have c1 : clamp255 (encodeTransfer rr t a * 255) ≤ 255 := max_le (by norm_num) (min_le_left _ _)
    have h3 := dec_below he ht (v := clamp255 (encodeTransfer rr t a * 255) / 255) (by positivity) (by rw [div_le_one (by norm_num)]; exact c1)
    rw [brightError, if_neg h] at h3
    have := (abs_le.mp h2).1
    generalize clamp255 (encodeTransfer rr t a * 255) = C at *
    linarith

end Ezk

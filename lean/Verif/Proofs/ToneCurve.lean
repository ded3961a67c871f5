import Verif.Proofs.EncodeLip
import Verif.Proofs.GreyOrder

/-!
# Lights of single channels

Lemmas for C79 (`Verif/Props/ToneCurve.lean`).
-/

namespace Ezk
open Ezk.F32 Ezk.Spec

/-- Lights of two codes of a channel, known up to the errors of the mix with the other channels. -/
theorem brighter_channel {L L' X X' : ℝ} {n n' : Nat} (hn : 1 ≤ n) (hlt : n < n') (h255 : n' ≤ 255)
    (hl : 303 / 10 ^ 6 * (n : ℝ) ≤ L) (hs : L * n' ≤ L' * n) (hL' : L' ≤ 1001 / 1000) (hX : |X - L| ≤ 132 / 10 ^ 7)
    (hX' : |X' - L'| ≤ 132 / 10 ^ 7) : Brighter' X X' := by
  have n1 : (1 : ℝ) ≤ n := by exact_mod_cast hn
  have n2 : (n : ℝ) + 1 ≤ n' := by exact_mod_cast hlt
  have n3 : (n' : ℝ) ≤ 255 := by exact_mod_cast h255
  have L0 : 303 / 10 ^ 6 ≤ L := by norm_num at hl ⊢; linarith
  have L0' : 0 ≤ L := le_trans (by norm_num) L0
  -- steps are at least `L / n`
  have step : L ≤ (L' - L) * n := by nlinarith
  have s1 : 303 / 10 ^ 6 ≤ L' - L := by
    by_contra hc
    have : (L' - L) * n < 303 / 10 ^ 6 * n := mul_lt_mul_of_pos_right (not_le.mp hc) (by linarith)
    linarith
  have s0 : 0 ≤ L' - L := le_trans (by norm_num) s1
  have s2 : L ≤ (L' - L) * 254 := le_trans step (mul_le_mul_of_nonneg_left (by linarith) s0)
  obtain ⟨a1, a2⟩ := abs_le.mp hX
  obtain ⟨b1, b2⟩ := abs_le.mp hX'
  norm_num at a1 a2 b1 b2 L0 s1
  refine ⟨by norm_num; linarith, by linarith, by linarith, fun h => ?_⟩
  norm_num at h
  linarith

section
variable {rr : Arith ℝ} (he : Exact rr)
include he

/-- Light of the codes 1 and above is encoded well above the traces that other channels leave. -/
theorem enc_apart {t : ColorTransfer} (ht : t ≠ .BT2100PQ) {a a' : ℝ} (h0 : 0 ≤ a) (h1 : a ≤ 134 / 10 ^ 7) (h2 : 289 / 10 ^ 6 ≤ a') :
    encodeTransfer rr t a ≤ 4 / 100 ∧ encodeTransfer rr t a + 27 / 10 ^ 5 ≤ encodeTransfer rr t a' := by
  have gam : ∀ {z : ℝ}, 0 ≤ z → (134 / 10 ^ 7 : ℝ) ^ z ≤ 2 / 100 → 22 / 1000 ≤ (289 / 10 ^ 6 : ℝ) ^ z →
      a ^ z ≤ 4 / 100 ∧ a ^ z + 27 / 10 ^ 5 ≤ a' ^ z := by
    intro z hz g1 g2
    have g3 := Real.rpow_le_rpow h0 h1 hz
    have g4 := Real.rpow_le_rpow (by norm_num) h2 hz
    generalize (134 / 10 ^ 7 : ℝ) ^ z = A at *
    generalize (289 / 10 ^ 6 : ℝ) ^ z = B at *
    norm_num at g1 g2 ⊢
    constructor <;> linarith
  cases t with
  | Linear => simp only [encodeTransfer]; norm_num at *; constructor <;> linarith
  | Gamma22 =>
    rw [enc_gamma22 he, enc_gamma22 he]
    refine gam (by norm_num) (le_of_lt ?_) ?_
    · rw [rpow_lt_iff (m := 5) (n := 11) (by norm_num) (by norm_num) (by norm_num) (by norm_num)]; norm_num
    · rw [le_rpow_iff (m := 5) (n := 11) (by norm_num) (by norm_num) (by norm_num) (by norm_num)]; norm_num
  | Gamma28 =>
    rw [enc_gamma28 he, enc_gamma28 he]
    refine gam (by norm_num) (le_of_lt ?_) ?_
    · rw [rpow_lt_iff (m := 5) (n := 14) (by norm_num) (by norm_num) (by norm_num) (by norm_num)]; norm_num
    · rw [le_rpow_iff (m := 5) (n := 14) (by norm_num) (by norm_num) (by norm_num) (by norm_num)]; norm_num
  | SRGB =>
    have h := enc_srgb_mono he (by norm_num) h2
    rw [enc_srgb he (289 / 10 ^ 6), if_pos (by norm_num)] at h
    rw [enc_srgb he a, if_pos (by norm_num at *; linarith)]
    norm_num at *
    constructor <;> linarith
  | SDR =>
    have h := enc_sdr_mono he (by norm_num) h2
    rw [enc_sdr he (289 / 10 ^ 6), if_pos (by norm_num)] at h
    rw [enc_sdr he a, if_pos (by norm_num at *; linarith)]
    norm_num at *
    constructor <;> linarith
  | BT2100PQ => exact absurd rfl ht
  | BT2100HLG =>
    have h := enc_hlg_mono he h2
    rw [enc_hlg he (289 / 10 ^ 6), max_eq_left (by norm_num), if_pos (by norm_num)] at h
    rw [enc_hlg he a, max_eq_left h0, if_pos (by norm_num at *; linarith)]
    have s1 : Real.sqrt (a * 3) ≤ 2 / 100 := by
      rw [Real.sqrt_le_left (by norm_num)]; norm_num at *; linarith
    have s2 : 22 / 1000 ≤ Real.sqrt (289 / 10 ^ 6 * 3) := Real.le_sqrt_of_sq_le (by norm_num)
    generalize Real.sqrt (289 / 10 ^ 6 * 3) = B at *
    norm_num at *
    constructor <;> linarith

end

end Ezk

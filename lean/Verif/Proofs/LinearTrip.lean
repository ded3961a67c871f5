import Verif.Proofs.DecodeInRange
import Verif.Proofs.EncodeCont
import Verif.Proofs.Gamut
import Verif.Spec.Ideal

/-!
# Linear light through another transfer function and back
-/

namespace Ezk
open F32 FOps Spec

/-- The steepest slope of a decoder up to white. -/
noncomputable def tripSlope : ColorTransfer → ℝ
  | .Gamma28 => 281 / 100
  | .BT2100HLG => 55 / 10
  | _ => 23 / 10

/-- How far the light of a signal may be off, in codes of linear light, before the signal is rounded. -/
noncomputable def tripError : ColorTransfer → ℝ
  | .SDR => 270 / 1000
  | .BT2100HLG => 8 / 100
  | _ => 12 / 1000

/-- Powers of the decoders. -/
theorem trip_power {A B C K a b : ℝ} (hB : 0 < B) (hC : 1 ≤ C) (hC2 : C ≤ 3) (ha : 0 ≤ (a + A) / B) (hb : 0 ≤ (b + A) / B)
    (ha2 : (a + A) / B ≤ 10005 / 10000) (hb2 : (b + A) / B ≤ 10005 / 10000) (hK : C * (10011 / 10000) ≤ K * B) :
    |((a + A) / B) ^ C - ((b + A) / B) ^ C| ≤ K * |a - b| := by
  have top : ∀ c : ℝ, 0 ≤ c → c ≤ 10005 / 10000 → C * c ^ (C - 1) ≤ K * B := by
    intro c c0 c1
    refine le_trans (mul_le_mul_of_nonneg_left ?_ (by linarith)) hK
    rcases le_total c 1 with h | h
    · exact (Real.rpow_le_one c0 h (by linarith)).trans (by norm_num)
    · have h1 : c ^ (C - 1) ≤ c ^ (2 : ℝ) := Real.rpow_le_rpow_of_exponent_le h (by linarith)
      rw [Real.rpow_two] at h1
      refine h1.trans ((pow_le_pow_left₀ c0 c1 2).trans (by norm_num))
  have hl := rpow_lip (K := K * B) ha hb hC (by
    rintro c (rfl | rfl)
    · exact top _ ha ha2
    · exact top _ hb hb2)
  refine hl.trans (le_of_eq ?_)
  have e : (a + A) / B - (b + A) / B = (a - b) / B := by ring
  rw [e, abs_div, abs_of_pos hB]
  field_simp

/-- A function given by a line below a threshold and by a power above. -/
theorem trip_split {A B C D K T J : ℝ} {lo : ℝ → Prop} [DecidablePred lo] (hlo : ∀ z, lo z → z ≤ T) (hhi : ∀ z, ¬ lo z → T ≤ z)
    (hB : 0 < B) (hC : 1 ≤ C) (hC2 : C ≤ 3) (hD : 1 ≤ D) (hK1 : 1 ≤ K) (hTA : 0 ≤ T + A) (hT : |((T + A) / B) ^ C - T / D| ≤ J)
    (hJ : 0 ≤ J) (hK : C * (10011 / 10000) ≤ K * B) {a b : ℝ} (ha : (a + A) / B ≤ 10005 / 10000) (hb : (b + A) / B ≤ 10005 / 10000) :
    |(if lo a then a / D else ((a + A) / B) ^ C) - (if lo b then b / D else ((b + A) / B) ^ C)| ≤ K * |a - b| + J := by
  have hD0 : 0 < D := by linarith
  have nn : ∀ z, T ≤ z → 0 ≤ (z + A) / B := fun z hz => div_nonneg (by linarith) hB.le
  have mixed : ∀ {a b : ℝ}, lo a → ¬ lo b → (b + A) / B ≤ 10005 / 10000 → |a / D - ((b + A) / B) ^ C| ≤ K * |a - b| + J := by
    intro a b h1 h2 hb
    have l1 := hlo a h1
    have l2 := hhi b h2
    have hTb : (T + A) / B ≤ (b + A) / B := div_le_div_of_nonneg_right (by linarith) hB.le
    have e1 := trip_power hB hC hC2 (nn T le_rfl) (nn b l2) (hTb.trans hb) hb hK
    have e2 : |a / D - T / D| ≤ K * (T - a) := by
      rw [← sub_div, abs_div, abs_of_pos hD0, abs_of_nonpos (by linarith)]
      refine (div_le_self (by linarith) hD).trans ?_
      have := mul_le_mul_of_nonneg_right hK1 (show 0 ≤ T - a by linarith)
      linarith
    have e3 := abs_sub_le (a / D) (T / D) (((b + A) / B) ^ C)
    have e4 := abs_sub_le (T / D) (((T + A) / B) ^ C) (((b + A) / B) ^ C)
    rw [abs_of_nonpos (by linarith : T - b ≤ 0)] at e1
    rw [abs_of_nonpos (by linarith : a - b ≤ 0)]
    rw [abs_sub_comm (T / D) (((T + A) / B) ^ C)] at e4
    linarith
  by_cases h1 : lo a <;> by_cases h2 : lo b
  · rw [if_pos h1, if_pos h2, ← sub_div, abs_div, abs_of_pos hD0]
    have h3 := div_le_self (abs_nonneg (a - b)) hD
    have h4 := mul_le_mul_of_nonneg_right hK1 (abs_nonneg (a - b))
    linarith
  · rw [if_pos h1, if_neg h2]; exact mixed h1 h2 hb
  · rw [if_neg h1, if_pos h2, abs_sub_comm, abs_sub_comm a]; exact mixed h2 h1 ha
  · rw [if_neg h1, if_neg h2]
    have := trip_power hB hC hC2 (nn a (hhi a h1)) (nn b (hhi b h2)) ha hb hK
    linarith

/-- The slope of the upper part of the HLG decoder. -/
theorem trip_hlg_high {a b : ℝ} (ha : a ≤ 10001 / 10000) (hb : b ≤ 10001 / 10000) :
    |(Real.exp ((a - 0.5599107) / 0.17883277) + 0.28466892) / 12 - (Real.exp ((b - 0.5599107) / 0.17883277) + 0.28466892) / 12| ≤
      55 / 10 * |a - b| := by
  have top : ∀ {a b : ℝ}, b ≤ a → a ≤ 10001 / 10000 →
      (Real.exp ((a - 0.5599107) / 0.17883277) + 0.28466892) / 12 - (Real.exp ((b - 0.5599107) / 0.17883277) + 0.28466892) / 12 ≤
        55 / 10 * (a - b) := by
    intro a b hab ha
    set u := (a - 0.5599107) / 0.17883277 with hu
    set v := (b - 0.5599107) / 0.17883277 with hv
    have huv : u - v = (a - b) / 0.17883277 := by rw [hu, hv]; ring
    have hu1 : u ≤ 2462 / 1000 := by rw [hu, div_le_iff₀ (by norm_num)]; norm_num at ha ⊢; linarith
    have hexp : Real.exp u ≤ 118 / 10 := by
      refine (Real.exp_le_exp.mpr hu1).trans ?_
      have e1 : Real.exp (2462 / 1000) = Real.exp 1 ^ 2 * Real.exp (462 / 1000) := by
        rw [← Real.exp_nat_mul, ← Real.exp_add]; norm_num
      have e2 : Real.exp (462 / 1000) ≤ (1588 / 1000 : ℝ) := by
        refine exp_le (by rw [abs_le]; norm_num) ?_
        rw [abs_of_pos (by norm_num)]; norm_num
      have e3 : Real.exp 1 ^ 2 ≤ 739 / 100 := (pow_le_pow_left₀ (Real.exp_pos 1).le Real.exp_one_lt_d9.le 2).trans (by norm_num)
      rw [e1]
      exact (mul_le_mul e3 e2 (Real.exp_pos _).le (by norm_num)).trans (by norm_num)
    have h1 : Real.exp u - Real.exp v ≤ Real.exp u * (u - v) := by
      have h2 := Real.add_one_le_exp (v - u)
      have h3 : Real.exp v = Real.exp u * Real.exp (v - u) := by rw [← Real.exp_add]; congr 1; ring
      have h4 := mul_le_mul_of_nonneg_left h2 (Real.exp_pos u).le
      rw [← h3] at h4
      linarith
    have h0 : 0 ≤ u - v := by rw [huv]; exact div_nonneg (by linarith) (by norm_num)
    have h5 := h1.trans (mul_le_mul_of_nonneg_right hexp h0)
    rw [huv] at h5
    norm_num at h5 ⊢
    linarith
  rcases le_total b a with h | h
  · rw [abs_of_nonneg (by linarith : 0 ≤ a - b), abs_of_nonneg]
    · exact top h ha
    · rw [sub_nonneg]; gcongr
  · rw [abs_sub_comm, abs_sub_comm a, abs_of_nonneg (by linarith : 0 ≤ b - a), abs_of_nonneg]
    · exact top h hb
    · rw [sub_nonneg]; gcongr

theorem trip_hlg {a b : ℝ} (ha0 : 0 ≤ a) (hb0 : 0 ≤ b) (ha : a ≤ 10001 / 10000) (hb : b ≤ 10001 / 10000) :
    |(if a ≤ 1 / 2 then a ^ 2 / 3 else (Real.exp ((a - 0.5599107) / 0.17883277) + 0.28466892) / 12) -
      (if b ≤ 1 / 2 then b ^ 2 / 3 else (Real.exp ((b - 0.5599107) / 0.17883277) + 0.28466892) / 12)| ≤ 55 / 10 * |a - b| + 1 / 10 ^ 7 := by
  have low : ∀ {a b : ℝ}, 0 ≤ a → 0 ≤ b → a ≤ 1 / 2 → b ≤ 1 / 2 → |a ^ 2 / 3 - b ^ 2 / 3| ≤ 55 / 10 * |a - b| := by
    intro a b ha hb ha1 hb1
    have e : a ^ 2 / 3 - b ^ 2 / 3 = (a - b) * ((a + b) / 3) := by ring
    rw [e, abs_mul, mul_comm]
    refine mul_le_mul_of_nonneg_right ?_ (abs_nonneg _)
    rw [abs_le]; constructor <;> linarith
  have mixed : ∀ {a b : ℝ}, 0 ≤ a → a ≤ 1 / 2 → 1 / 2 < b → b ≤ 10001 / 10000 →
      |a ^ 2 / 3 - (Real.exp ((b - 0.5599107) / 0.17883277) + 0.28466892) / 12| ≤ 55 / 10 * |a - b| + 1 / 10 ^ 7 := by
    intro a b a0 a1 b0 b1
    have h1 := low a0 (show (0 : ℝ) ≤ 1 / 2 by norm_num) a1 le_rfl
    have h2 := trip_hlg_high (a := 1 / 2) (by norm_num) b1
    have h3 := abs_sub_le (a ^ 2 / 3) ((1 / 2 : ℝ) ^ 2 / 3) ((Real.exp ((b - 0.5599107) / 0.17883277) + 0.28466892) / 12)
    have h4 := abs_sub_le ((1 / 2 : ℝ) ^ 2 / 3) ((Real.exp ((1 / 2 - 0.5599107) / 0.17883277) + 0.28466892) / 12)
      ((Real.exp ((b - 0.5599107) / 0.17883277) + 0.28466892) / 12)
    have h5 := hlg_join
    rw [abs_of_nonpos (by linarith : a - 1 / 2 ≤ 0)] at h1
    rw [abs_of_nonpos (by linarith : 1 / 2 - b ≤ 0)] at h2
    rw [abs_of_nonpos (by linarith : a - b ≤ 0)]
    linarith
  by_cases h1 : a ≤ 1 / 2 <;> by_cases h2 : b ≤ 1 / 2
  · rw [if_pos h1, if_pos h2]; exact (low ha0 hb0 h1 h2).trans (by norm_num)
  · rw [if_pos h1, if_neg h2]; exact mixed ha0 h1 (not_le.mp h2) hb
  · rw [if_neg h1, if_pos h2, abs_sub_comm, abs_sub_comm a]; exact mixed hb0 h2 (not_le.mp h1) ha
  · rw [if_neg h1, if_neg h2]; exact (trip_hlg_high ha hb).trans (by norm_num)

section
variable {rr : Arith ℝ} (he : Exact rr)
include he

/-- Decoding magnifies the errors of signals up to white by `tripSlope`. -/
theorem trip_lip {t : ColorTransfer} (ht : t ≠ .BT2100PQ) {a b : ℝ} (a0 : 0 ≤ a) (b0 : 0 ≤ b) (ha : a ≤ 10001 / 10000) (hb : b ≤ 10001 / 10000) :
    |decodeTransfer rr t a - decodeTransfer rr t b| ≤ tripSlope t * |a - b| + 12 / 10 ^ 6 := by
  have hab := abs_nonneg (a - b)
  cases t with
  | Linear =>
    simp only [decodeTransfer, tripSlope]
    norm_num
    linarith
  | Gamma22 =>
    rw [dec_gamma22 he, dec_gamma22 he]
    have := trip_power (A := 0) (B := 1) (C := 2.2) (K := 23 / 10) (a := a) (b := b) (by norm_num) (by norm_num) (by norm_num)
      (by simpa using a0) (by simpa using b0) (by norm_num at *; linarith) (by norm_num at *; linarith) (by norm_num)
    rw [add_zero, add_zero, div_one, div_one] at this
    exact this.trans (le_add_of_nonneg_right (by norm_num))
  | Gamma28 =>
    rw [dec_gamma28 he, dec_gamma28 he]
    have := trip_power (A := 0) (B := 1) (C := 2.8) (K := 281 / 100) (a := a) (b := b) (by norm_num) (by norm_num) (by norm_num)
      (by simpa using a0) (by simpa using b0) (by norm_num at *; linarith) (by norm_num at *; linarith) (by norm_num)
    rw [add_zero, add_zero, div_one, div_one] at this
    exact this.trans (le_add_of_nonneg_right (by norm_num))
  | SRGB =>
    rw [dec_srgb he, dec_srgb he]
    refine trip_split (T := 0.04045) (lo := fun z => z ≤ 0.04045) (K := 23 / 10) (fun z h => h) (fun z h => (not_le.mp h).le) (by norm_num) (by norm_num)
      (by norm_num) (by norm_num) (by norm_num) (by norm_num) ?_ (by norm_num) (by norm_num) ?_ ?_
    · rw [abs_le]
      constructor
      · rw [neg_le_sub_iff_le_add]
        have : (0.00313 : ℝ) ≤ ((0.04045 + 0.055) / 1.055) ^ (2.4 : ℝ) := by
          rw [le_rpow_iff (m := 12) (n := 5) (by norm_num) (by norm_num) (by norm_num) (by norm_num)]; norm_num
        norm_num at this ⊢; linarith
      · rw [sub_le_iff_le_add]
        have : ((0.04045 + 0.055) / 1.055) ^ (2.4 : ℝ) < (0.003132 : ℝ) := by
          rw [rpow_lt_iff (m := 12) (n := 5) (by norm_num) (by norm_num) (by norm_num) (by norm_num)]; norm_num
        norm_num at this ⊢; linarith
    · norm_num at *; linarith
    · norm_num at *; linarith
  | SDR =>
    rw [dec_sdr he, dec_sdr he]
    refine trip_split (T := 0.081490956) (lo := fun z => z < 0.081490956) (K := 23 / 10) (fun z h => h.le) (fun z h => (not_lt.mp h)) (by norm_num) (by norm_num)
      (by norm_num) (by norm_num) (by norm_num) (by norm_num) ?_ (by norm_num) (by norm_num) ?_ ?_
    · rw [abs_le]
      constructor
      · rw [neg_le_sub_iff_le_add]
        have : (0.01812 : ℝ) ≤ ((0.081490956 + 0.0993) / 1.099) ^ (1 / 0.45 : ℝ) := by
          rw [le_rpow_iff (m := 20) (n := 9) (by norm_num) (by norm_num) (by norm_num) (by norm_num)]; norm_num
        norm_num at this ⊢; linarith
      · rw [sub_le_iff_le_add]
        have : ((0.081490956 + 0.0993) / 1.099) ^ (1 / 0.45 : ℝ) < (0.018121 : ℝ) := by
          rw [rpow_lt_iff (m := 20) (n := 9) (by norm_num) (by norm_num) (by norm_num) (by norm_num)]; norm_num
        norm_num at this ⊢; linarith
    · norm_num at *; linarith
    · norm_num at *; linarith
  | BT2100PQ => exact absurd rfl ht
  | BT2100HLG =>
    rw [dec_hlg he, dec_hlg he, max_eq_left a0, max_eq_left b0]
    refine (trip_hlg a0 b0 ha hb).trans ?_
    rw [tripSlope]
    exact add_le_add_right (by norm_num) _

/-- The code of white. -/
theorem trip_white {t : ColorTransfer} (ht : t ≠ .BT2100PQ) :
    |encodeTransfer rr t 1 - 1| ≤ if t = .BT2100HLG then 2 / 10 ^ 5 else 0 := by
  by_cases hh : t = .BT2100HLG
  · subst hh
    rw [if_pos rfl, enc_hlg he, max_eq_left zero_le_one, if_neg (by norm_num)]
    have h1 : Real.log (12 * 1 - 0.28466892) ≤ 246095 / 100000 := by
      rw [Real.log_le_iff_le_exp (by norm_num)]
      have e1 : Real.exp (246095 / 100000) = Real.exp 1 ^ 2 * Real.exp (46095 / 100000) := by
        rw [← Real.exp_nat_mul, ← Real.exp_add]; norm_num
      have e2 : (158557 / 100000 : ℝ) ≤ Real.exp (46095 / 100000) := by
        refine le_exp (by rw [abs_le]; norm_num) ?_
        rw [abs_of_pos (by norm_num)]; norm_num
      have e3 : 2.7182818283 ^ 2 ≤ Real.exp 1 ^ 2 := pow_le_pow_left₀ (by norm_num) Real.exp_one_gt_d9.le 2
      rw [e1]
      exact le_trans (by norm_num) (mul_le_mul e3 e2 (by norm_num) (by positivity))
    have h2 : 246085 / 100000 ≤ Real.log (12 * 1 - 0.28466892) := by
      rw [Real.le_log_iff_exp_le (by norm_num)]
      have e1 : Real.exp (246085 / 100000) = Real.exp 1 ^ 2 * Real.exp (46085 / 100000) := by
        rw [← Real.exp_nat_mul, ← Real.exp_add]; norm_num
      have e2 : Real.exp (46085 / 100000) ≤ (158543 / 100000 : ℝ) := by
        refine exp_le (by rw [abs_le]; norm_num) ?_
        rw [abs_of_pos (by norm_num)]; norm_num
      have e3 : Real.exp 1 ^ 2 ≤ 2.7182818286 ^ 2 := pow_le_pow_left₀ (Real.exp_pos 1).le Real.exp_one_lt_d9.le 2
      rw [e1]
      exact le_trans (mul_le_mul e3 e2 (Real.exp_pos _).le (by norm_num)) (by norm_num)
    generalize Real.log (12 * 1 - 0.28466892) = l at *
    rw [abs_le]
    constructor <;> norm_num at * <;> linarith
  · rw [if_neg hh, enc_one he ht hh, sub_self, abs_zero]

/-- How well decoding undoes encoding up to white. -/
theorem trip_inverse {t : ColorTransfer} (ht : t ≠ .BT2100PQ) {a : ℝ} (h0 : 0 ≤ a) (h1 : a ≤ 1) :
    |decodeTransfer rr t (encodeTransfer rr t a) - a| ≤ if t = .SDR then 1 / 10 ^ 3 else 1 / 10 ^ 7 := by
  cases t with
  | Linear => simp [decodeTransfer, encodeTransfer]
  | Gamma22 => rw [(gamma_inverse he h0).1]; simp
  | Gamma28 => rw [(gamma_inverse he h0).2]; simp
  | SRGB => refine (srgb_near he a).trans ?_; rw [if_neg nofun]; norm_num
  | SDR => refine (sdr_near he h1).trans ?_; norm_num
  | BT2100PQ => exact absurd rfl ht
  | BT2100HLG => refine (hlg_near he h0).trans ?_; rw [if_neg nofun]; norm_num

theorem trip_nonneg {t : ColorTransfer} (ht : t ≠ .BT2100PQ) {a : ℝ} (h0 : 0 ≤ a) : 0 ≤ encodeTransfer rr t a := by
  cases t with
  | Linear => simpa only [encodeTransfer] using h0
  | Gamma22 => rw [enc_gamma22 he]; exact Real.rpow_nonneg h0 _
  | Gamma28 => rw [enc_gamma28 he]; exact Real.rpow_nonneg h0 _
  | SRGB =>
    rcases le_or_gt a 0.0031308 with h | h
    · rw [enc_srgb he, if_pos h]; exact mul_nonneg h0 (by norm_num)
    · have h1 := enc_srgb_mono he (by norm_num) h.le
      rw [enc_srgb he 0.0031308, if_pos le_rfl] at h1
      norm_num at h1 ⊢
      linarith
  | SDR =>
    have h1 := enc_sdr_mono he le_rfl h0
    rwa [enc_zero he (t := .SDR) nofun] at h1
  | BT2100PQ => exact absurd rfl ht
  | BT2100HLG =>
    rcases le_or_gt a (1 / 12) with h | h
    · rw [enc_hlg he, max_eq_left h0, if_pos h]; exact Real.sqrt_nonneg _
    · have h1 := enc_hlg_mono he h.le
      rw [enc_hlg he (1 / 12), max_eq_left (by norm_num), if_pos le_rfl] at h1
      have h2 : (1 / 2 : ℝ) ≤ Real.sqrt (1 / 12 * 3) := Real.le_sqrt_of_sq_le (by norm_num)
      norm_num at h1 h2 ⊢
      linarith

/-- The light of a signal clamped to the range of codes. -/
theorem trip_clamp {t : ColorTransfer} (ht : t ≠ .BT2100PQ) {a n : ℝ} (a0 : 0 ≤ a) (n1 : n ≤ 1) (ha : |a - n| ≤ 132 / 10 ^ 7) :
    |255 * decodeTransfer rr t (clamp255 (encodeTransfer rr t a * 255) / 255) - 255 * n| ≤
      (if t = .SDR then 266 / 1000 else if t = .BT2100HLG then 7 / 100 else 8 / 1000) := by
  have e0 := trip_nonneg he ht a0
  have hw := trip_white he ht
  set s := clamp255 (encodeTransfer rr t a * 255) / 255 with hs
  have hs' : s = min 1 (encodeTransfer rr t a) := by
    rw [hs, clamp255]
    rcases le_total (encodeTransfer rr t a) 1 with h | h
    · rw [min_eq_right (by linarith), min_eq_right h, max_eq_right (by positivity)]; field_simp
    · rw [min_eq_left (by linarith), min_eq_left h, max_eq_right (by norm_num)]; norm_num
  have b0 : 0 ≤ min a 1 := le_min a0 zero_le_one
  have b1 : min a 1 ≤ 1 := min_le_right _ _
  have hi := trip_inverse he ht b0 b1
  have bn : |min a 1 - n| ≤ 132 / 10 ^ 7 := by
    rw [abs_le] at ha ⊢
    rcases le_total a 1 with h | h
    · rw [min_eq_left h]; exact ha
    · rw [min_eq_right h]; constructor <;> linarith [ha.2]
  have f0 := trip_nonneg he ht b0
  have near : |s - encodeTransfer rr t (min a 1)| ≤ 1 / 10 ^ 7 + if t = .BT2100HLG then 2 / 10 ^ 5 else 0 := by
    generalize (if t = .BT2100HLG then 2 / 10 ^ 5 else 0 : ℝ) = w at hw ⊢
    rw [hs']
    rw [abs_le] at hw ⊢
    rcases le_total a 1 with h | h
    · have h1 := enc_down he ht a0 h
      rw [min_eq_left h]
      rcases le_total (encodeTransfer rr t a) 1 with h2 | h2
      · rw [min_eq_right h2, sub_self]; constructor <;> norm_num at * <;> linarith
      · rw [min_eq_left h2]; constructor <;> norm_num at * <;> linarith
    · have h1 := enc_down he ht zero_le_one h
      rw [min_eq_right h]
      rcases le_total (encodeTransfer rr t a) 1 with h2 | h2
      · rw [min_eq_right h2]; constructor <;> norm_num at * <;> linarith
      · rw [min_eq_left h2]; constructor <;> norm_num at * <;> linarith
  have f1 : encodeTransfer rr t (min a 1) ≤ 10001 / 10000 := by
    have h1 := enc_down he ht b0 b1
    have h2 := (abs_le.mp hw).2
    split_ifs at h2 <;> norm_num at * <;> linarith
  have s0 : 0 ≤ s := by rw [hs']; exact le_min zero_le_one e0
  have s1 : s ≤ 1 := by rw [hs']; exact min_le_left _ _
  have hl := trip_lip he ht s0 f0 (s1.trans (by norm_num)) f1
  generalize decodeTransfer rr t s = S at *
  generalize decodeTransfer rr t (encodeTransfer rr t (min a 1)) = A at *
  have hl := hl.trans (add_le_add_left (mul_le_mul_of_nonneg_left near (by cases t <;> simp only [tripSlope] <;> norm_num)) _)
  clear hs hs' hw near e0 f0 f1 s0 s1
  have key : |S - n| ≤ tripSlope t * (1 / 10 ^ 7 + if t = .BT2100HLG then 2 / 10 ^ 5 else 0) + 12 / 10 ^ 6 +
      (if t = .SDR then 1 / 10 ^ 3 else 1 / 10 ^ 7) + 132 / 10 ^ 7 := by
    have h1 := abs_sub_le S A n
    have h2 := abs_sub_le A (min a 1) n
    linarith
  rw [← mul_sub, abs_mul, abs_of_pos (by norm_num)]
  revert key
  generalize |S - n| = z
  intro key
  cases t <;> simp only [tripSlope, reduceCtorEq, if_false, if_true] at key ⊢ <;> norm_num at key ⊢ <;> linarith

/-- The light of a code near a signal. -/
theorem trip_core {t : ColorTransfer} (ht : t ≠ .BT2100PQ) {a n k d u : ℝ} (a0 : 0 ≤ a) (n1 : n ≤ 1) (ha : |a - n| ≤ 132 / 10 ^ 7) (k0 : 0 ≤ k)
    (k1 : k ≤ 1) (d0 : 0 ≤ d) (u0 : 0 ≤ u) (hl : -d ≤ 255 * k - clamp255 (encodeTransfer rr t a * 255))
    (hh : 255 * k - clamp255 (encodeTransfer rr t a * 255) ≤ u) :
    -(tripSlope t * d + tripError t) ≤ 255 * decodeTransfer rr t k - 255 * n ∧
      255 * decodeTransfer rr t k - 255 * n ≤ tripSlope t * u + tripError t := by
  have hc := trip_clamp he ht a0 n1 ha
  have hC0 : 0 ≤ clamp255 (encodeTransfer rr t a * 255) := le_max_left _ _
  have hC1 : clamp255 (encodeTransfer rr t a * 255) ≤ 255 := max_le (by norm_num) (min_le_left _ _)
  generalize clamp255 (encodeTransfer rr t a * 255) = C at *
  have s0 : 0 ≤ C / 255 := by positivity
  have s1 : C / 255 ≤ 1 := by rw [div_le_one (by norm_num)]; exact hC1
  have hK : 0 ≤ tripSlope t := by cases t <;> simp only [tripSlope] <;> norm_num
  have lip := trip_lip he ht k0 s0 (k1.trans (by norm_num)) (s1.trans (by norm_num))
  have hE : (if t = .SDR then 266 / 1000 else if t = .BT2100HLG then 7 / 100 else 8 / 1000 : ℝ) + 255 * (12 / 10 ^ 6) ≤ tripError t := by
    cases t <;> simp only [tripError, reduceCtorEq, if_false, if_true] <;> norm_num
  have hE0 : (0 : ℝ) ≤ 255 * (12 / 10 ^ 6) := by norm_num
  rw [abs_le] at hc
  have hKd := mul_nonneg hK d0
  have hKu := mul_nonneg hK u0
  rcases le_total k (C / 255) with h | h
  · have h1 := dec_mono he ht k0 h
    have h2 : tripSlope t * |k - C / 255| ≤ tripSlope t * (d / 255) := by
      refine mul_le_mul_of_nonneg_left ?_ hK
      rw [abs_of_nonpos (by linarith)]
      linarith
    rw [abs_of_nonpos (by linarith)] at lip
    constructor <;> linarith [hc.1, hc.2]
  · have h1 := dec_mono he ht s0 h
    have h2 : tripSlope t * |k - C / 255| ≤ tripSlope t * (u / 255) := by
      refine mul_le_mul_of_nonneg_left ?_ hK
      rw [abs_of_nonneg (by linarith)]
      linarith
    rw [abs_of_nonneg (by linarith)] at lip
    constructor <;> linarith [hc.1, hc.2]

end
end Ezk

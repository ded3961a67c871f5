import Verif.Proofs.DecodeWide

/-!
# How decoding magnifies errors of the signal
-/

namespace Ezk
open F32 FOps Spec

/-- Transfer functions that are defined for signals below 0. -/
def SignedTransfer (t : ColorTransfer) : Prop := t = .Linear ∨ t = .SRGB ∨ t = .SDR

/-- Powers of the decoders. -/
theorem high_lip {A B C a b : ℝ} (hB : 1 ≤ B) (hC : 2 ≤ C) (hC2 : C ≤ 24 / 10) (ha : 0 ≤ (a + A) / B)
    (hb : 0 ≤ (b + A) / B) (ha2 : (a + A) / B ≤ 214 / 100) (hb2 : (b + A) / B ≤ 214 / 100) :
    |((a + A) / B) ^ C - ((b + A) / B) ^ C| ≤ 7 * |a - b| := by
  have hl := rpow_lip (K := 7) ha hb (show 1 ≤ C by linarith) (by
    rintro c (rfl | rfl)
    · exact power_slope ha ha2 hC hC2
    · exact power_slope hb hb2 hC hC2)
  refine hl.trans (mul_le_mul_of_nonneg_left ?_ (by norm_num))
  have e : (a + A) / B - (b + A) / B = (a - b) / B := by ring
  rw [e, abs_div, abs_of_nonneg (by linarith : (0 : ℝ) ≤ B)]
  exact div_le_self (abs_nonneg _) hB

/-- A function given by a line below a threshold and by a power above. -/
theorem split_lip {A B C D T J : ℝ} {lo : ℝ → Prop} [DecidablePred lo] (hlo : ∀ z, lo z → z ≤ T) (hhi : ∀ z, ¬ lo z → T ≤ z)
    (hB : 1 ≤ B) (hC : 2 ≤ C) (hC2 : C ≤ 24 / 10) (hD : 1 ≤ D) (hTA : 0 ≤ T + A) (hT : |((T + A) / B) ^ C - T / D| ≤ J)
    (hJ : 0 ≤ J) {a b : ℝ} (ha : (a + A) / B ≤ 214 / 100) (hb : (b + A) / B ≤ 214 / 100) :
    |(if lo a then a / D else ((a + A) / B) ^ C) - (if lo b then b / D else ((b + A) / B) ^ C)| ≤ 7 * |a - b| + J := by
  have hB0 : 0 < B := by linarith
  have hD0 : 0 < D := by linarith
  have nn : ∀ z, T ≤ z → 0 ≤ (z + A) / B := fun z hz => div_nonneg (by linarith) hB0.le
  have mixed : ∀ {a b : ℝ}, lo a → ¬ lo b → (b + A) / B ≤ 214 / 100 → |a / D - ((b + A) / B) ^ C| ≤ 7 * |a - b| + J := by
    intro a b h1 h2 hb
    have l1 := hlo a h1
    have l2 := hhi b h2
    have hTb : (T + A) / B ≤ (b + A) / B := div_le_div_of_nonneg_right (by linarith) hB0.le
    have e1 := high_lip hB hC hC2 (nn T le_rfl) (nn b l2) (hTb.trans hb) hb
    have e2 : |a / D - T / D| ≤ T - a := by
      rw [← sub_div, abs_div, abs_of_pos hD0, abs_of_nonpos (by linarith)]
      exact (div_le_self (by linarith) hD).trans (by linarith)
    have e3 := abs_sub_le (a / D) (T / D) (((b + A) / B) ^ C)
    have e4 := abs_sub_le (T / D) (((T + A) / B) ^ C) (((b + A) / B) ^ C)
    rw [abs_of_nonpos (by linarith : T - b ≤ 0)] at e1
    rw [abs_of_nonpos (by linarith : a - b ≤ 0)]
    rw [abs_sub_comm (T / D) (((T + A) / B) ^ C)] at e4
    linarith
  by_cases h1 : lo a <;> by_cases h2 : lo b
  · rw [if_pos h1, if_pos h2, ← sub_div, abs_div, abs_of_pos hD0]
    have := div_le_self (abs_nonneg (a - b)) hD
    linarith [abs_nonneg (a - b)]
  · rw [if_pos h1, if_neg h2]; exact mixed h1 h2 hb
  · rw [if_neg h1, if_pos h2, abs_sub_comm, abs_sub_comm a]; exact mixed h2 h1 ha
  · rw [if_neg h1, if_neg h2]
    have := high_lip hB hC hC2 (nn a (hhi a h1)) (nn b (hhi b h2)) ha hb
    linarith

section
variable {rr : Arith ℝ} (he : Exact rr)
include he

theorem dec_lip {t : ColorTransfer} (ht : SignedTransfer t) {a b : ℝ} (ha : a ≤ 22 / 10) (hb : b ≤ 22 / 10) :
    |decodeTransfer rr t a - decodeTransfer rr t b| ≤ 7 * |a - b| + 12 / 10 ^ 6 := by
  rcases ht with rfl | rfl | rfl
  · simp only [decodeTransfer]
    have := abs_nonneg (a - b)
    norm_num
    linarith
  · rw [dec_srgb he, dec_srgb he]
    refine split_lip (T := 0.04045) (lo := fun z => z ≤ 0.04045) (fun z h => h) (fun z h => (not_le.mp h).le) (by norm_num) (by norm_num)
      (by norm_num) (by norm_num) (by norm_num) ?_ (by norm_num) ?_ ?_
    · rw [abs_le]
      constructor
      · rw [neg_le_sub_iff_le_add]
        have : (0.00313 : ℝ) ≤ ((0.04045 + 0.055) / 1.055) ^ (2.4 : ℝ) := by
          rw [le_rpow_iff (m := 12) (n := 5) (by norm_num) (by norm_num) (by norm_num) (by norm_num)]; norm_num
        norm_num at this ⊢; linarith
      · rw [sub_le_iff_le_add]
        have : ((0.04045 + 0.055) / 1.055) ^ (2.4 : ℝ) < (0.003132 : ℝ) := by
          rw [rpow_lt_iff (m := 12) (n := 5) (by norm_num) (by norm_num) (by norm_num) (by norm_num)]; norm_num
        norm_num at this ⊢; linarith
    · norm_num at *; linarith
    · norm_num at *; linarith
  · rw [dec_sdr he, dec_sdr he]
    refine split_lip (T := 0.081490956) (lo := fun z => z < 0.081490956) (fun z h => h.le) (fun z h => (not_lt.mp h)) (by norm_num) (by norm_num)
      (by norm_num) (by norm_num) (by norm_num) ?_ (by norm_num) ?_ ?_
    · rw [abs_le]
      constructor
      · rw [neg_le_sub_iff_le_add]
        have : (0.01812 : ℝ) ≤ ((0.081490956 + 0.0993) / 1.099) ^ (1 / 0.45 : ℝ) := by
          rw [le_rpow_iff (m := 20) (n := 9) (by norm_num) (by norm_num) (by norm_num) (by norm_num)]; norm_num
        norm_num at this ⊢; linarith
      · rw [sub_le_iff_le_add]
        have : ((0.081490956 + 0.0993) / 1.099) ^ (1 / 0.45 : ℝ) < (0.018121 : ℝ) := by
          rw [rpow_lt_iff (m := 20) (n := 9) (by norm_num) (by norm_num) (by norm_num) (by norm_num)]; norm_num
        norm_num at this ⊢; linarith
    · norm_num at *; linarith
    · norm_num at *; linarith

theorem dec_wide_range {t : ColorTransfer} (ht : SignedTransfer t) {a : ℝ} (h0 : -12 / 10 ≤ a) (ha : a ≤ 22 / 10) :
    |decodeTransfer rr t a| ≤ 67 / 10 := by
  have pw : ∀ {c C : ℝ}, 0 ≤ c → c ≤ 214 / 100 → 2 ≤ C → C ≤ 24 / 10 → |c ^ C| ≤ 67 / 10 := by
    intro c C c0 c1 hC hC2
    rw [abs_of_nonneg (Real.rpow_nonneg c0 _)]
    calc c ^ C ≤ (214 / 100 : ℝ) ^ C := Real.rpow_le_rpow c0 c1 (by linarith)
      _ ≤ (214 / 100 : ℝ) ^ (5 / 2 : ℝ) := Real.rpow_le_rpow_of_exponent_le (by norm_num) (by linarith)
      _ ≤ 67 / 10 := by
        apply le_of_lt
        rw [rpow_lt_iff (m := 5) (n := 2) (by norm_num) (by norm_num) (by norm_num) (by norm_num)]
        norm_num
  rcases ht with rfl | rfl | rfl
  · simp only [decodeTransfer]; rw [abs_le]; constructor <;> linarith
  · rw [dec_srgb he]
    split
    · rw [abs_le]; constructor <;> norm_num at * <;> linarith
    · apply pw <;> norm_num at * <;> linarith
  · rw [dec_sdr he]
    split
    · rw [abs_le]; constructor <;> norm_num at * <;> linarith
    · apply pw <;> norm_num at * <;> linarith

/-- Light of a signal. -/
theorem dec_signed_app {ar : Arith F32} (hf : Floats ar) {t : ColorTransfer} (ht : SignedTransfer t) {x : F32} {X : ℚ} {s : ℝ}
    (hx : Is x X) (hg : Good x) (h0 : -12 / 10 ≤ X) (h1 : X ≤ 22 / 10) (hs : s ≤ 22 / 10) (hd : |(X : ℝ) - s| ≤ 24 / 10 ^ 7)
    (hc : X < 0 → Compares ar X (5429107 / 134217728) ∧ Compares ar X (10937531 / 134217728)) :
    App (decodeTransfer ar t x) (decodeTransfer rr t s) (42 / 10 ^ 6) := by
  have h1r : (X : ℝ) ≤ 22 / 10 := by
    have := (Rat.cast_le (K := ℝ)).mpr h1; push_cast at this; exact this
  have key : App (decodeTransfer ar t x) (decodeTransfer rr t X) (13 / 10 ^ 6) := by
    rcases ht with rfl | rfl | rfl
    · exact hx.app.mono (by norm_num)
    · rw [dec_srgb he]; exact dec_srgb_wide hf hx hg h0 h1 fun h => (hc h).1
    · rw [dec_sdr he]; exact dec_sdr_wide hf hx hg h0 h1 fun h => (hc h).2
  refine (key.shift (dec_lip he ht h1r hs)).mono ?_
  norm_num at hd ⊢
  linarith

end

/-! ## Comparisons -/

/-- On NEON, vector columns compare magnitudes. -/
def Magnitudes (p : Platform) (w x : Nat) : Prop := p = .neon ∧ x < w - w % 8

theorem column_compares (p : Platform) {scalar : Libm} {w x : Nat} {a b : ℚ} (hb : 0 ≤ b) (h : Magnitudes p w x → |a| < b) :
    Compares (Spec.columnArith (p.real scalar) w x) a b := by
  intro u v hu hv
  unfold Spec.columnArith
  split
  · rename_i hcol
    cases p with
    | scalar => exact ⟨hu.lt hv, hu.le hv⟩
    | avx2 => exact ⟨hu.lt hv, hu.le hv⟩
    | avx512 => exact ⟨hu.lt hv, hu.le hv⟩
    | neon =>
      have hab := h ⟨rfl, hcol⟩
      have ha : Is (F32.abs u) |a| := by
        obtain ⟨s, q, rfl, hq, rfl⟩ := hu
        refine ⟨false, q, rfl, hq, ?_⟩
        cases s
        · simp [signed, abs_of_nonneg hq]
        · simp [signed, abs_of_nonneg hq]
      have hv' := is_abs hv hb
      have := (abs_lt.mp hab).2
      exact ⟨(ha.lt hv').trans (by rw [decide_eq_decide]; exact ⟨fun _ => this, fun _ => hab⟩),
        (ha.le hv').trans (by rw [decide_eq_decide]; exact ⟨fun _ => this.le, fun _ => hab.le⟩)⟩
  · cases p <;> exact ⟨hu.lt hv, hu.le hv⟩

end Ezk

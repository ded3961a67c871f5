import Verif.Proofs.EncodeApp
import Verif.Proofs.PqApp
import Verif.Proofs.Standards
import Verif.Props.Accuracy
import Verif.Props.SimdMath

/-!
# C48, C49: the transfer functions

C48 compares what each platform computes in binary32 (its own `ln`, `exp` and `pow` included) with the formulas written in the
source, read over the reals.  C49 compares those formulas with the standards.
-/

namespace Ezk.Props
open Ezk F32 Spec

/-- The vector types `convert` may use on a CPU: that of the platform, and `f32` for the remaining columns. -/
def Uses (p : Platform) (scalar : Libm) (B : Backend F32) : Prop :=
  B = (p.real scalar).vec ∨ B = scalarBackend (p.real scalar).sar

theorem Uses.floats {p : Platform} {scalar : Libm} {B : Backend F32} (h : Uses p scalar B) (ha : scalar.Accurate) :
    Floats B.ar := by
  rcases h with rfl | rfl
  · exact vec_floats p ha
  · cases p <;> exact scalar_floats ha

/-- The number `v` is the real `r`. -/
def IsReal (v : F32) (r : ℝ) : Prop := ∃ s p, v = fin s p ∧ r = ((signed s p : ℚ) : ℝ)

/-- `v` is a number within `e` of `r`. -/
def Near (v : F32) (r e : ℝ) : Prop := ∃ s p, v = fin s p ∧ |((signed s p : ℚ) : ℝ) - r| ≤ e

theorem near_app {v : F32} {r e : ℝ} (h : App v r e) : Near v r e := by
  obtain ⟨s, p, h1, -, h3⟩ := h
  exact ⟨s, p, h1, h3⟩

theorem IsReal.is {v : F32} {r : ℝ} (h : IsReal v r) (hb : HasBits v) : ∃ q : ℚ, Is v q ∧ (q : ℝ) = r ∧ Good v := by
  obtain ⟨s, p, rfl, rfl⟩ := h
  obtain ⟨h1, h2, h3⟩ := hb.rep
  exact ⟨_, is_fin h2, rfl, h2, h1, h3⟩

theorem rat_bounds {q : ℚ} {r : ℝ} (h : (q : ℝ) = r) {n : ℕ} (h0 : 0 ≤ r) (h1 : r ≤ n) : 0 ≤ q ∧ q ≤ n := by
  subst h
  exact ⟨by exact_mod_cast h0, by exact_mod_cast h1⟩

variable {p : Platform} {scalar : Libm} {B : Backend F32} {E : Backend ℝ} {v : B.V} {u : E.V} {i : Fin B.LEN} {j : Fin E.LEN}
  {r : ℝ} {t : ColorTransfer}

/-- **C48**, from signals to light. -/
theorem C48_to_light (ha : scalar.Accurate) (hB : Uses p scalar B) (hE : Exact E.ar) (ht : t ≠ .BT2100PQ) (hv : IsReal (v i) (u j))
    (hb : HasBits (v i)) (h0 : 0 ≤ u j) (h1 : u j ≤ 1) :
    Near (t.scaledToLinearV B v i) (t.scaledToLinearV E u j) (25 / 10 ^ 7) := by
  have hf := hB.floats ha
  obtain ⟨q, hq, e, hg⟩ := hv.is hb
  obtain ⟨q0, q1⟩ := rat_bounds (n := 1) e h0 (by exact_mod_cast h1)
  rw [lane_scaledToLinear, lane_scaledToLinear]
  apply near_app
  cases t with
  | Linear => rw [← e]; exact hq.app.mono (by norm_num)
  | Gamma22 => rw [dec_gamma22 hE, ← e]; exact (dec_gamma22_app hf hq hg q0 (by exact_mod_cast q1)).mono (by norm_num)
  | Gamma28 => rw [dec_gamma28 hE, ← e]; exact (dec_gamma28_app hf hq hg q0 (by exact_mod_cast q1)).mono (by norm_num)
  | SRGB => rw [dec_srgb hE, ← e]; exact (dec_srgb_app hf hq hg q0 (by exact_mod_cast q1)).mono (by norm_num)
  | SDR => rw [dec_sdr hE, ← e]; exact (dec_sdr_app hf hq hg q0 (by exact_mod_cast q1)).mono (by norm_num)
  | BT2100PQ => exact absurd rfl ht
  | BT2100HLG =>
    rw [dec_hlg hE, max_eq_left h0, ← e]; exact (dec_hlg_app hf hq hg q0 (by exact_mod_cast q1)).mono (by norm_num)

/-- **C48**, from light to signals; light up to twice the reference white.  One number is left out for `SDR`: the threshold of
the code itself. -/
theorem C48_to_signal (ha : scalar.Accurate) (hB : Uses p scalar B) (hE : Exact E.ar) (ht : t ≠ .BT2100PQ)
    (hv : IsReal (v i) (u j)) (hb : HasBits (v i)) (h0 : 0 ≤ u j) (h1 : u j ≤ 2)
    (hs : t = .SDR → v i ≠ FOps.lit 0.01805397) :
    Near (t.linearToScaledV B v i) (t.linearToScaledV E u j) (25 / 10 ^ 7) := by
  have hf := hB.floats ha
  obtain ⟨q, hq, e, hg⟩ := hv.is hb
  obtain ⟨q0, q1⟩ := rat_bounds (n := 2) e h0 (by exact_mod_cast h1)
  rw [lane_linearToScaled, lane_linearToScaled]
  apply near_app
  cases t with
  | Linear => rw [← e]; exact hq.app.mono (by norm_num)
  | Gamma22 => rw [enc_gamma22 hE, ← e]; exact (enc_gamma22_app hf hq hg q0 (by exact_mod_cast q1)).mono (by norm_num)
  | Gamma28 => rw [enc_gamma28 hE, ← e]; exact (enc_gamma28_app hf hq hg q0 (by exact_mod_cast q1)).mono (by norm_num)
  | SRGB => rw [enc_srgb hE, ← e]; exact (enc_srgb_app hf hq hg q0 (by exact_mod_cast q1)).mono (by norm_num)
  | SDR =>
    rw [enc_sdr hE, ← e]
    refine (enc_sdr_app hf hq hg q0 (by exact_mod_cast q1) ?_).mono (by norm_num)
    rintro rfl
    exact hs rfl ((hq.pos (by norm_num)).trans (is_sdr_enc.pos (by norm_num)).symm)
  | BT2100PQ => exact absurd rfl ht
  | BT2100HLG =>
    rw [enc_hlg hE, max_eq_left h0, ← e]; exact (enc_hlg_app hf hq hg q0 (by exact_mod_cast q1)).mono (by norm_num)

/-- **C48**: at that number the error of `SDR` is the gap between the two pieces of the code's formula. -/
theorem C48_sdr_threshold (ha : scalar.Accurate) (hB : Uses p scalar B) (hE : Exact E.ar) (hv : IsReal (v i) (u j))
    (hb : HasBits (v i)) (h0 : 0 ≤ u j) (h1 : u j ≤ 2) :
    Near (ColorTransfer.SDR.linearToScaledV B v i) (ColorTransfer.SDR.linearToScaledV E u j) (3 / 10 ^ 4) := by
  have hf := hB.floats ha
  obtain ⟨q, hq, e, hg⟩ := hv.is hb
  obtain ⟨q0, q1⟩ := rat_bounds (n := 2) e h0 (by exact_mod_cast h1)
  rw [lane_linearToScaled, lane_linearToScaled, enc_sdr hE, ← e]
  exact near_app (enc_sdr_app' hf hq hg q0 (by exact_mod_cast q1))

/-- The number left out has to be left out: there the error exceeds 2·10⁻⁴. -/
theorem C48_sdr_gap (ha : scalar.Accurate) (hB : Uses p scalar B) (hE : Exact E.ar) (hv : IsReal (v i) (u j))
    (hs : v i = FOps.lit 0.01805397) :
    ¬ Near (ColorTransfer.SDR.linearToScaledV B v i) (ColorTransfer.SDR.linearToScaledV E u j) (2 / 10 ^ 4) := by
  have hf := hB.floats ha
  have hu : u j = 9692651 / 536870912 := by
    obtain ⟨s, q, e1, e2⟩ := hv
    have h3 := is_sdr_enc.pos (by norm_num)
    rw [hs, h3] at e1
    injection e1 with e3 e4
    subst e3 e4
    rw [e2]; simp only [signed, Bool.false_eq_true, if_false]; push_cast; rfl
  have hx : Is (v i) (9692651 / 536870912) := by rw [hs]; exact is_sdr_enc
  have hg : Good (v i) := by rw [hs]; exact good_lit _
  have hb := enc_sdr_branch hf hx hg (by norm_num) (by norm_num)
  rw [if_neg (lt_irrefl _)] at hb
  rw [lane_linearToScaled, lane_linearToScaled, enc_sdr hE, hu, if_pos (by norm_num)]
  rintro ⟨s, q, e1, e2⟩
  obtain ⟨s', q', e1', -, e2'⟩ := hb
  rw [e1] at e1'
  injection e1' with e3 e4
  subst e3 e4
  have l1 : (0.16423 : ℝ) ≤ (((9692651 / 536870912 : ℚ)) : ℝ) ^ (0.45 : ℝ) := by
    rw [le_rpow_iff (m := 9) (n := 20) (by norm_num) (by norm_num) (by norm_num) (by norm_num)]
    norm_num
  rw [abs_le] at e2 e2'
  have g1 := e2.1
  have g2 := e2'.2
  have g3 := e2'.1
  have g4 := e2.2
  norm_num at l1 g1 g2 g3 g4
  linarith

/-- **C48**, PQ from signals to light (in cd/m², up to 10000): relative error 5·10⁻⁴, and 10⁻¹⁰ cd/m² near black. -/
theorem C48_pq_to_light (ha : scalar.Accurate) (hB : Uses p scalar B) (hE : Exact E.ar) (hv : IsReal (v i) (u j))
    (hb : HasBits (v i)) (h0 : 0 ≤ u j) (h1 : u j ≤ 1) :
    Near (ColorTransfer.BT2100PQ.scaledToLinearV B v i) (ColorTransfer.BT2100PQ.scaledToLinearV E u j)
      (5 / 10 ^ 4 * ColorTransfer.BT2100PQ.scaledToLinearV E u j + 1 / 10 ^ 10) := by
  have hf := hB.floats ha
  obtain ⟨q, hq, e, hg⟩ := hv.is hb
  obtain ⟨q0, q1⟩ := rat_bounds (n := 1) e h0 (by exact_mod_cast h1)
  rw [lane_scaledToLinear, lane_scaledToLinear, dec_pq hE, max_eq_left h0, ← e]
  exact near_app (dec_pq_app hf hq hg q0 (by exact_mod_cast q1))

/-- **C48**, PQ from light up to 10000 cd/m² to signals: error 5·10⁻⁵ (a twentieth of a 10-bit step). -/
theorem C48_pq_to_signal (ha : scalar.Accurate) (hB : Uses p scalar B) (hE : Exact E.ar) (hv : IsReal (v i) (u j))
    (hb : HasBits (v i)) (h0 : 0 ≤ u j) (h1 : u j ≤ 10000) :
    Near (ColorTransfer.BT2100PQ.linearToScaledV B v i) (ColorTransfer.BT2100PQ.linearToScaledV E u j) (5 / 10 ^ 5) := by
  have hf := hB.floats ha
  obtain ⟨q, hq, e, hg⟩ := hv.is hb
  obtain ⟨q0, q1⟩ := rat_bounds (n := 10000) e h0 (by exact_mod_cast h1)
  rw [lane_linearToScaled, lane_linearToScaled, enc_pq hE, max_eq_left h0, ← e]
  exact near_app (enc_pq_app hf hq hg q0 (by exact_mod_cast q1))

/-- The hypotheses can be met: 1000 cd/m² on AVX2. -/
example : Uses .avx2 x86Libm (Platform.avx2.real x86Libm).vec ∧ IsReal (ofBits 0x447a0000#32) 1000 ∧ HasBits (ofBits 0x447a0000#32) := by
  refine ⟨Or.inl rfl, ⟨false, 1000, by decide +kernel, ?_⟩, ⟨_, rfl⟩⟩
  simp [signed]

/-- Deviation from the standards: none, except for the constants of `SDR` (three decimals) and those of PQ and HLG (rounded to
binary32); light of PQ is in cd/m², up to 10000. -/
noncomputable def lightTolerance : ColorTransfer → ℝ
  | .SDR => 1 / 10 ^ 3
  | .BT2100PQ => 1 / 5
  | .BT2100HLG => 1 / 10 ^ 6
  | _ => 0

noncomputable def signalTolerance : ColorTransfer → ℝ
  | .SDR => 3 / 10 ^ 4
  | .BT2100PQ => 1 / 10 ^ 5
  | .BT2100HLG => 1 / 10 ^ 7
  | _ => 0

/-- **C49**, from signals to light: the formulas of the source against the standards. -/
theorem C49_to_light (hE : Exact E.ar) (h0 : 0 ≤ u j) (h1 : u j ≤ 1) :
    |t.scaledToLinearV E u j - Standard.toLight t (u j)| ≤ lightTolerance t := by
  rw [lane_scaledToLinear]
  cases t with
  | Linear => simp [decodeTransfer, Standard.toLight, lightTolerance]
  | Gamma22 => rw [dec_gamma22 hE]; simp [Standard.toLight, lightTolerance]
  | Gamma28 => rw [dec_gamma28 hE]; simp [Standard.toLight, lightTolerance]
  | SRGB => rw [(std_srgb hE).2]; simp [lightTolerance]
  | SDR => exact std_dec_sdr hE h0 h1
  | BT2100PQ => exact std_dec_pq hE h0 h1
  | BT2100HLG => exact std_dec_hlg hE h0 (h1.trans (by norm_num))

/-- **C49**, from light to signals. -/
theorem C49_to_signal (hE : Exact E.ar) (h0 : 0 ≤ u j) (h1 : u j ≤ if t = .BT2100PQ then 10000 else 2) :
    |t.linearToScaledV E u j - Standard.toSignal t (u j)| ≤ signalTolerance t := by
  rw [lane_linearToScaled]
  cases t with
  | Linear => simp [encodeTransfer, Standard.toSignal, signalTolerance]
  | Gamma22 => rw [enc_gamma22 hE]; simp [Standard.toSignal, signalTolerance]
  | Gamma28 => rw [enc_gamma28 hE]; simp [Standard.toSignal, signalTolerance]
  | SRGB => rw [(std_srgb hE).1]; simp [signalTolerance]
  | SDR => exact std_enc_sdr hE h0 (by simpa using h1)
  | BT2100PQ => exact std_enc_pq hE h0 (by simpa using h1)
  | BT2100HLG => exact std_enc_hlg hE h0

/-- Light has two units: a full signal is 10000 for PQ and 1 otherwise. -/
theorem C49_units (hE : Exact E.ar) (h1 : u j = 1) :
    (t ≠ .BT2100PQ → |t.scaledToLinearV E u j - 1| ≤ 1 / 10 ^ 3) ∧
      |ColorTransfer.BT2100PQ.scaledToLinearV E u j - 10000| ≤ 1 := by
  constructor
  · intro ht
    rw [lane_scaledToLinear, h1]
    cases t with
    | Linear => simp [decodeTransfer]
    | Gamma22 => rw [dec_gamma22 hE]; simp
    | Gamma28 => rw [dec_gamma28 hE]; simp
    | SRGB => rw [dec_srgb hE, if_neg (by norm_num)]; norm_num
    | SDR =>
      rw [dec_sdr hE, if_neg (by norm_num)]
      have l1 : (1 : ℝ) ≤ ((1 + 0.0993) / 1.099) ^ (1 / 0.45 : ℝ) := by
        rw [le_rpow_iff (m := 20) (n := 9) (by norm_num) (by norm_num) (by norm_num) (by norm_num)]; norm_num
      have l2 : ((1 + 0.0993) / 1.099) ^ (1 / 0.45 : ℝ) < (1.001 : ℝ) := by
        rw [rpow_lt_iff (m := 20) (n := 9) (by norm_num) (by norm_num) (by norm_num) (by norm_num)]; norm_num
      rw [abs_le]
      norm_num at l1 l2 ⊢
      constructor <;> linarith
    | BT2100PQ => exact absurd rfl ht
    | BT2100HLG =>
      rw [dec_hlg hE, max_eq_left (by norm_num), if_neg (by norm_num)]
      have e : Real.exp ((1 - 0.5599107) / 0.17883277) = Real.exp ((1 - 0.5599107) / 0.17883277 / 4) ^ 4 := by
        rw [← Real.exp_nat_mul]; norm_num
      have l1 : (1.8497 : ℝ) ≤ Real.exp ((1 - 0.5599107) / 0.17883277 / 4) := by
        refine le_exp (by rw [abs_le]; norm_num) ?_
        rw [abs_of_pos (by norm_num)]; norm_num
      have l2 : Real.exp ((1 - 0.5599107) / 0.17883277 / 4) ≤ (1.8503 : ℝ) := by
        refine exp_le (by rw [abs_le]; norm_num) ?_
        rw [abs_of_pos (by norm_num)]; norm_num
      have l3 := pow_le_pow_left₀ (by norm_num) l1 4
      have l4 := pow_le_pow_left₀ (Real.exp_pos _).le l2 4
      rw [e]
      generalize Real.exp ((1 - 0.5599107) / 0.17883277 / 4) ^ 4 = z at *
      rw [abs_le]
      norm_num at l3 l4 ⊢
      constructor <;> linarith
  · rw [lane_scaledToLinear, h1]
    have h3 := std_dec_pq hE (x := 1) (by norm_num) (by norm_num)
    have e : Standard.toLight .BT2100PQ 1 = 10000 := by
      simp only [Standard.toLight, Real.one_rpow]
      have : max (1 - Standard.c1) 0 / (Standard.c2 - Standard.c3 * 1) = 1 := by
        unfold Standard.c1 Standard.c2 Standard.c3
        rw [max_eq_left (by norm_num)]; norm_num
      rw [this, Real.one_rpow, mul_one]
    rw [e] at h3
    exact h3.trans (by norm_num)

/-- `convert` does not rescale between the two: white of another transfer function (light 1) becomes the dark grey at which a PQ
display shows 1 cd/m². -/
theorem C49_white_to_pq (hE : Exact E.ar) (h1 : u j = 1) : ColorTransfer.BT2100PQ.linearToScaledV E u j ≤ 17 / 100 := by
  rw [lane_linearToScaled, h1, enc_pq hE, max_eq_left (by norm_num)]
  have y0 : 0 ≤ (1 / 10000 : ℝ) ^ (0.15930176 : ℝ) := Real.rpow_nonneg (by norm_num) _
  have y1 : (1 / 10000 : ℝ) ^ (0.15930176 : ℝ) ≤ 0.2372 := by
    calc (1 / 10000 : ℝ) ^ (0.15930176 : ℝ) ≤ (1 / 10000 : ℝ) ^ (5 / 32 : ℝ) :=
          Real.rpow_le_rpow_of_exponent_ge (by norm_num) (by norm_num) (by norm_num)
      _ ≤ 0.2372 := by
        apply le_of_lt
        rw [rpow_lt_iff (m := 5) (n := 32) (by norm_num) (by norm_num) (by norm_num) (by norm_num)]; norm_num
  generalize (1 / 10000 : ℝ) ^ (0.15930176 : ℝ) = y at *
  have b1 : (y * 18.851563 + 0.8359375) / (y * 18.6875 + 1) ≤ 0.977 := by
    rw [div_le_iff₀ (by positivity)]; norm_num at y1 ⊢; linarith
  calc ((y * 18.851563 + 0.8359375) / (y * 18.6875 + 1)) ^ (78.84375 : ℝ) ≤ (0.977 : ℝ) ^ (78.84375 : ℝ) :=
        Real.rpow_le_rpow (by positivity) b1 (by norm_num)
    _ ≤ (0.977 : ℝ) ^ (78 : ℝ) := Real.rpow_le_rpow_of_exponent_ge (by norm_num) (by norm_num) (by norm_num)
    _ = (0.977 : ℝ) ^ (78 : ℕ) := by rw [← Real.rpow_natCast]; norm_num
    _ ≤ _ := by norm_num

/-- The hypotheses can be met: grey 127 of sRGB on NEON, with `powf` as accurate as that of x86. -/
example : x86Libm.Accurate ∧ Uses .neon x86Libm (Platform.neon.real x86Libm).vec ∧
    IsReal (ofBits 0x3f000000#32) (1 / 2) ∧ HasBits (ofBits 0x3f000000#32) ∧ ofBits 0x3f000000#32 ≠ FOps.lit 0.01805397 := by
  refine ⟨x86_accurate, Or.inl rfl, ⟨false, 1 / 2, by decide +kernel, ?_⟩, ⟨_, rfl⟩, by decide +kernel⟩
  simp [signed]

end Ezk.Props

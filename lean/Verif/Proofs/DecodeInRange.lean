import Verif.Proofs.DecodeWideLip
import Verif.Proofs.ChangeApp

/-!
# Decoding of signals beyond 1: gamma up to 1.9, HLG up to 1.1
-/

namespace Ezk
open F32 FOps Spec

/-- The slope of the upper part of the HLG decoder. -/
theorem hlg_high_lip {a b : ℝ} (ha : a ≤ 11 / 10 + 3 / 10 ^ 6) (hb : b ≤ 11 / 10 + 3 / 10 ^ 6) :
    |(Real.exp ((a - 0.5599107) / 0.17883277) + 0.28466892) / 12 - (Real.exp ((b - 0.5599107) / 0.17883277) + 0.28466892) / 12| ≤
      10 * |a - b| := by
  have top : ∀ {a b : ℝ}, b ≤ a → a ≤ 11 / 10 + 3 / 10 ^ 6 →
      (Real.exp ((a - 0.5599107) / 0.17883277) + 0.28466892) / 12 - (Real.exp ((b - 0.5599107) / 0.17883277) + 0.28466892) / 12 ≤
        10 * (a - b) := by
    intro a b hab ha
    set u := (a - 0.5599107) / 0.17883277 with hu
    set v := (b - 0.5599107) / 0.17883277 with hv
    have huv : u - v = (a - b) / 0.17883277 := by rw [hu, hv]; ring
    have hu1 : u ≤ 30203 / 10000 := by rw [hu, div_le_iff₀ (by norm_num)]; norm_num at ha ⊢; linarith
    have hexp : Real.exp u ≤ 206 / 10 := by
      refine (Real.exp_le_exp.mpr hu1).trans ?_
      have e1 : Real.exp (30203 / 10000) = Real.exp 1 ^ 3 * Real.exp (203 / 10000) := by
        rw [← Real.exp_nat_mul, ← Real.exp_add]; norm_num
      have e2 : Real.exp (203 / 10000) ≤ (1021 / 1000 : ℝ) := by
        refine exp_le (by rw [abs_le]; norm_num) ?_
        rw [abs_of_pos (by norm_num)]; norm_num
      have e3 : Real.exp 1 ^ 3 ≤ 201 / 10 := (pow_le_pow_left₀ (Real.exp_pos 1).le Real.exp_one_lt_d9.le 3).trans (by norm_num)
      rw [e1]
      exact (mul_le_mul e3 e2 (Real.exp_pos _).le (by norm_num)).trans (by norm_num)
    have h1 : Real.exp u - Real.exp v ≤ Real.exp u * (u - v) := by
      have h2 := Real.add_one_le_exp (v - u)
      have h3 : Real.exp v = Real.exp u * Real.exp (v - u) := by rw [← Real.exp_add]; congr 1; ring
      have h4 := mul_le_mul_of_nonneg_left h2 (Real.exp_pos u).le
      rw [← h3] at h4
      linarith
    have h0 : 0 ≤ u - v := by rw [huv]; exact div_nonneg (by linarith) (by norm_num)
    have h5 := h1.trans (mul_le_mul_of_nonneg_right hexp h0)
    rw [huv] at h5
    norm_num at h5 ⊢
    linarith
  rcases le_total b a with h | h
  · rw [abs_of_nonneg (by linarith : 0 ≤ a - b), abs_of_nonneg]
    · exact top h ha
    · rw [sub_nonneg]; gcongr
  · rw [abs_sub_comm, abs_sub_comm a, abs_of_nonneg (by linarith : 0 ≤ b - a), abs_of_nonneg]
    · exact top h hb
    · rw [sub_nonneg]; gcongr

/-- The lower part. -/
theorem hlg_low_lip {a b : ℝ} (ha : 0 ≤ a) (hb : 0 ≤ b) (ha1 : a ≤ 1 / 2) (hb1 : b ≤ 1 / 2) : |a ^ 2 / 3 - b ^ 2 / 3| ≤ 10 * |a - b| := by
  have e : a ^ 2 / 3 - b ^ 2 / 3 = (a - b) * ((a + b) / 3) := by ring
  rw [e, abs_mul, mul_comm]
  refine mul_le_mul_of_nonneg_right ?_ (abs_nonneg _)
  rw [abs_le]; constructor <;> linarith

/-- The parts meet. -/
theorem hlg_join : |(1 / 2 : ℝ) ^ 2 / 3 - (Real.exp ((1 / 2 - 0.5599107) / 0.17883277) + 0.28466892) / 12| ≤ 1 / 10 ^ 7 := by
  have h1 : (0.71533 : ℝ) ≤ Real.exp ((1 / 2 - 0.5599107) / 0.17883277) := by
    refine le_exp (by rw [abs_le]; norm_num) ?_
    rw [abs_of_neg (by norm_num)]
    norm_num
  have h2 : Real.exp ((1 / 2 - 0.5599107) / 0.17883277) ≤ (0.715332 : ℝ) := by
    refine exp_le (by rw [abs_le]; norm_num) ?_
    rw [abs_of_neg (by norm_num)]
    norm_num
  generalize Real.exp ((1 / 2 - 0.5599107) / 0.17883277) = e at *
  rw [abs_le]
  constructor <;> norm_num at * <;> linarith

theorem hlg_lip {a b : ℝ} (ha0 : 0 ≤ a) (hb0 : 0 ≤ b) (ha : a ≤ 11 / 10 + 3 / 10 ^ 6) (hb : b ≤ 11 / 10 + 3 / 10 ^ 6) :
    |(if a ≤ 1 / 2 then a ^ 2 / 3 else (Real.exp ((a - 0.5599107) / 0.17883277) + 0.28466892) / 12) -
      (if b ≤ 1 / 2 then b ^ 2 / 3 else (Real.exp ((b - 0.5599107) / 0.17883277) + 0.28466892) / 12)| ≤ 10 * |a - b| + 1 / 10 ^ 7 := by
  have mixed : ∀ {a b : ℝ}, 0 ≤ a → a ≤ 1 / 2 → 1 / 2 < b → b ≤ 11 / 10 + 3 / 10 ^ 6 →
      |a ^ 2 / 3 - (Real.exp ((b - 0.5599107) / 0.17883277) + 0.28466892) / 12| ≤ 10 * |a - b| + 1 / 10 ^ 7 := by
    intro a b a0 a1 b0 b1
    have h1 := hlg_low_lip a0 (show (0 : ℝ) ≤ 1 / 2 by norm_num) a1 le_rfl
    have h2 := hlg_high_lip (a := 1 / 2) (by norm_num) b1
    have h3 := abs_sub_le (a ^ 2 / 3) ((1 / 2 : ℝ) ^ 2 / 3) ((Real.exp ((b - 0.5599107) / 0.17883277) + 0.28466892) / 12)
    have h4 := abs_sub_le ((1 / 2 : ℝ) ^ 2 / 3) ((Real.exp ((1 / 2 - 0.5599107) / 0.17883277) + 0.28466892) / 12)
      ((Real.exp ((b - 0.5599107) / 0.17883277) + 0.28466892) / 12)
    have h5 := hlg_join
    rw [abs_of_nonpos (by linarith : a - 1 / 2 ≤ 0)] at h1
    rw [abs_of_nonpos (by linarith : 1 / 2 - b ≤ 0)] at h2
    rw [abs_of_nonpos (by linarith : a - b ≤ 0)]
    linarith
  by_cases h1 : a ≤ 1 / 2 <;> by_cases h2 : b ≤ 1 / 2
  · rw [if_pos h1, if_pos h2]; exact (hlg_low_lip ha0 hb0 h1 h2).trans (by norm_num)
  · rw [if_pos h1, if_neg h2]; exact mixed ha0 h1 (not_le.mp h2) hb
  · rw [if_neg h1, if_pos h2, abs_sub_comm, abs_sub_comm a]; exact mixed hb0 h2 (not_le.mp h1) ha
  · rw [if_neg h1, if_neg h2]; exact (hlg_high_lip ha hb).trans (by norm_num)

/-- Gamma and HLG transfer functions, and the signals that they decode. -/
def InRange (t : ColorTransfer) (s : ℝ) : Prop :=
  (t = .Gamma22 ∨ t = .Gamma28) ∧ 1 / 10 ^ 5 ≤ s ∧ s ≤ 19 / 10 ∨ t = .BT2100HLG ∧ s ≤ 11 / 10

section
variable {ar : Arith F32} (hf : Floats ar)
include hf

/-- Powers of numbers above 1. -/
theorem pow_gamma {x y : F32} {p Y : ℚ} {Z : ℝ} (hx : Is x p) (hg : Good x) (hp : 1 ≤ p) (hp2 : p ≤ 191 / 100) (hy : Is y Y)
    (hY : 2 ≤ Y) (hY2 : Y ≤ 281 / 100) (hZ : 2 ≤ Z) (hZ2 : Z ≤ 281 / 100) (hd : |Z - Y| ≤ 2 / 10 ^ 7) :
    App (ar.pow x y) ((p : ℝ) ^ Z) (1 / 10 ^ 5) := by
  have hp0 : 0 < p := by linarith
  have hpr : (1 : ℝ) ≤ p := by exact_mod_cast hp
  have hp2r : (p : ℝ) ≤ 191 / 100 := by
    have := (Rat.cast_le (K := ℝ)).mpr hp2; push_cast at this; exact this
  have hYr : (2 : ℝ) ≤ Y := by exact_mod_cast hY
  have hY2r : (Y : ℝ) ≤ 281 / 100 := by
    have := (Rat.cast_le (K := ℝ)).mpr hY2; push_cast at this; exact this
  have hl : Real.log p ≤ 65 / 100 := by
    refine (Real.log_le_log (by linarith) hp2r).trans ?_
    have e : (191 / 100 : ℝ) = 2 * (955 / 1000) := by norm_num
    rw [e, Real.log_mul (by norm_num) (by norm_num)]
    have := Real.log_le_sub_one_of_pos (show (0 : ℝ) < 955 / 1000 by norm_num)
    linarith [Real.log_two_lt_d9]
  have hl0 : 0 ≤ Real.log p := Real.log_nonneg hpr
  have pw : ∀ W : ℝ, W ≤ 281 / 100 → (p : ℝ) ^ W ≤ 67 / 10 := by
    intro W hW
    calc (p : ℝ) ^ W ≤ (p : ℝ) ^ (29 / 10 : ℝ) := Real.rpow_le_rpow_of_exponent_le hpr (by linarith)
      _ ≤ (191 / 100 : ℝ) ^ (29 / 10 : ℝ) := Real.rpow_le_rpow (by linarith) hp2r (by norm_num)
      _ ≤ 67 / 10 := by
        apply le_of_lt
        rw [rpow_lt_iff (m := 29) (n := 10) (by norm_num) (by norm_num) (by norm_num) (by norm_num)]
        norm_num
  obtain rfl := hx.pos hp0
  obtain ⟨_, hr, _⟩ := hg
  obtain ⟨r, e, r0, h⟩ := hf.lib.pow.1 hr (le_trans (by norm_num) hp) (lt_of_le_of_lt hp2 (by norm_num)) hy
    (by rw [abs_of_nonneg (by linarith)]; linarith) (by nlinarith)
  refine ⟨false, r, e, r0, ?_⟩
  rw [show signed false r = r from rfl]
  have q0 : 0 ≤ (p : ℝ) ^ (Y : ℝ) := Real.rpow_nonneg (by linarith) _
  rw [abs_of_nonneg hl0, abs_of_nonneg (show (0 : ℝ) ≤ Y by linarith)] at h
  have h1 : (Y : ℝ) * (1 + Real.log p) ≤ 281 / 100 * (165 / 100) := mul_le_mul hY2r (by linarith) (by linarith) (by norm_num)
  have h2 : |(r : ℝ) - (p : ℝ) ^ (Y : ℝ)| ≤ 83 / 10 ^ 7 := by
    refine h.trans ?_
    have h3 : (43 / 10 ^ 8 + 17 / 10 ^ 8 * (Y : ℝ) * (1 + Real.log p)) * (p : ℝ) ^ (Y : ℝ) ≤ (122 / 10 ^ 8) * (67 / 10) := by
      refine mul_le_mul ?_ (pw _ hY2r) q0 (by norm_num)
      rw [mul_assoc]; norm_num at h1 ⊢; linarith
    norm_num at h3 ⊢
    linarith
  have h3 : |(p : ℝ) ^ (Y : ℝ) - (p : ℝ) ^ Z| ≤ 9 / 10 ^ 7 := by
    have key : ∀ U V : ℝ, U ≤ V → V ≤ 281 / 100 → V - U ≤ 2 / 10 ^ 7 → (p : ℝ) ^ V - (p : ℝ) ^ U ≤ 9 / 10 ^ 7 := by
      intro U V h1 h2 h3
      have e : (p : ℝ) ^ U = (p : ℝ) ^ V * (p : ℝ) ^ (U - V) := by rw [← Real.rpow_add (by linarith)]; congr 1; ring
      have h4 := Real.add_one_le_exp (Real.log p * (U - V))
      rw [← Real.rpow_def_of_pos (by linarith)] at h4
      have v0 : 0 ≤ (p : ℝ) ^ V := Real.rpow_nonneg (by linarith) _
      have h5 := mul_le_mul_of_nonneg_left h4 v0
      have h6 : Real.log p * (V - U) ≤ 65 / 100 * (2 / 10 ^ 7) := mul_le_mul hl h3 (by linarith) (by norm_num)
      have h7 : (p : ℝ) ^ V * (Real.log p * (V - U)) ≤ 67 / 10 * (65 / 100 * (2 / 10 ^ 7)) :=
        mul_le_mul (pw _ h2) h6 (mul_nonneg hl0 (by linarith)) (by norm_num)
      norm_num at h7 ⊢
      rw [e]
      linarith
    rw [abs_le] at hd
    rcases le_total (Y : ℝ) Z with h | h
    · rw [abs_sub_comm, abs_of_nonneg (by linarith [Real.rpow_le_rpow_of_exponent_le hpr h])]
      exact key _ _ h hZ2 (by linarith [hd.2])
    · rw [abs_of_nonneg (by linarith [Real.rpow_le_rpow_of_exponent_le hpr h])]
      exact key _ _ h hY2r (by linarith [hd.1])
  have := abs_sub_le (r : ℝ) ((p : ℝ) ^ (Y : ℝ)) ((p : ℝ) ^ Z)
  norm_num at *
  linarith

/-- `dec_hlg_max` beyond 1. -/
theorem dec_hlg_over {x : F32} {X : ℚ} (hm : Is (ar.max x (lit 0.0)) X) (h0 : 1 ≤ X)
    (h1 : X ≤ 11 / 10 + 3 / 10 ^ 6) :
    App (decodeTransfer ar .BT2100HLG x) ((Real.exp (((X : ℝ) - 0.5599107) / 0.17883277) + 0.28466892) / 12) (7 / 10 ^ 6) := by
  have hX1 : (X : ℝ) ≤ 1100003 / 1000000 := by
    have := (Rat.cast_le (K := ℝ)).mpr h1; push_cast at this; norm_num at this ⊢; exact this
  have hX0 : (1 : ℝ) ≤ X := by exact_mod_cast h0
  simp only [decodeTransfer, hlgDecode]
  generalize ar.max x (lit 0.0) = m at *
  rw [hf.le hm is_05 (by linarith) (by norm_num)]
  have hb : ¬ X ≤ 1 / 2 := by norm_num; linarith
  rw [if_neg (by simpa using hb), hf.div, hf.add, hf.sub]
  -- the exponent
  have hC : App (Hlg.C : F32) 0.5599107 (2 / 10 ^ 8) :=
    app_const (q := 0.5599107) (d := 2 / 10 ^ 8) (by decide +kernel) (by norm_num) (by norm_num)
  have hB : App (Hlg.B' : F32) 0.28466892 (1 / 10 ^ 8) :=
    app_const (q := 0.28466892) (d := 1 / 10 ^ 8) (by decide +kernel) (by norm_num) (by norm_num)
  have hXC : |(X : ℝ) - 0.5599107| ≤ 5402 / 10000 := by rw [abs_le]; norm_num; constructor <;> linarith
  have s1 := app_sub (B := 541 / 1000) hm.app hC (by norm_num at hXC ⊢; linarith) (by norm_num) (by norm_num)
  have s2 := app_div_const (B := 31 / 10) s1 is_hlgA (by norm_num) (by
    rw [div_le_iff₀ (by norm_num)]
    norm_num at hXC ⊢; linarith) (by norm_num) (by norm_num)
  obtain ⟨Y, hY, hYe⟩ := s2.is
  set t := ((X : ℝ) - 0.5599107) / 0.17883277 with ht
  have ht1 : t ≤ 30208 / 10000 := by rw [ht, div_le_iff₀ (by norm_num)]; norm_num; linarith
  have ht0 : 0 ≤ t := by rw [ht, le_div_iff₀ (by norm_num)]; norm_num; linarith
  have hYt : |(Y : ℝ) - t| ≤ 9 / 10 ^ 7 := by
    have e1 : |((X : ℝ) - 0.5599107) / ((750079 / 4194304 : ℚ) : ℝ) - t| ≤ 2 / 10 ^ 8 := by
      rw [ht]; push_cast; rw [abs_le]; norm_num; constructor <;> linarith
    rw [abs_le] at e1 hYe ⊢
    norm_num at e1 hYe ⊢
    constructor <;> linarith [e1.1, e1.2, hYe.1, hYe.2]
  have hYa : |(Y : ℝ)| ≤ 31 / 10 := by
    rw [abs_le] at hYt ⊢
    norm_num at *
    constructor <;> linarith [hYt.1, hYt.2]
  have hYq : |Y| ≤ 100 := by
    have : |(Y : ℝ)| ≤ 100 := by linarith
    exact_mod_cast this
  have hle := log_e
  -- `e ^ y`
  have hge : Good (FOps.e : F32) := good_ofRat _ _
  have hei : (FOps.e : F32) = fin false (2850325 / 1048576) := is_e.pos (by norm_num)
  have hre : Rep (2850325 / 1048576) := by
    have := (hge.is is_e).1
    rwa [abs_of_pos (by norm_num)] at this
  have hcast : ((2850325 / 1048576 : ℚ) : ℝ) = 2850325 / 1048576 := by push_cast; rfl
  have hYl : |(Y : ℝ) * Real.log (2850325 / 1048576 : ℝ) - t| ≤ 12 / 10 ^ 7 := by
    have e1 : (Y : ℝ) * Real.log (2850325 / 1048576 : ℝ) - t =
        (Y : ℝ) * (Real.log (2850325 / 1048576 : ℝ) - 1) + (Y - t) := by ring
    rw [e1]
    refine (abs_add_le _ _).trans ?_
    rw [abs_mul]
    have := mul_le_mul hYa hle (abs_nonneg _) (by norm_num)
    norm_num at this hYt ⊢
    linarith
  obtain ⟨r, er, r0, hr⟩ := hf.lib.pow.1 (y := F32.div (F32.sub m Hlg.C) Hlg.A) hre (by norm_num) (by norm_num) hY hYq (by
    rw [hcast]
    have := (abs_le.mp hYl).2
    norm_num at this ⊢; linarith)
  rw [hcast] at hr
  have hpe : (2850325 / 1048576 : ℝ) ^ (Y : ℝ) = Real.exp ((Y : ℝ) * Real.log (2850325 / 1048576 : ℝ)) := by
    rw [Real.rpow_def_of_pos (by norm_num), mul_comm]
  rw [hpe] at hr
  have hcl := exp_close hYl (by norm_num)
  have hexp : Real.exp t ≤ 207 / 10 := by
    refine (Real.exp_le_exp.mpr (show t ≤ 3 + 22 / 1000 by linarith)).trans ?_
    have e1 : Real.exp (3 + 22 / 1000) = Real.exp 1 ^ 3 * Real.exp (22 / 1000) := by
      rw [← Real.exp_nat_mul, ← Real.exp_add]; norm_num
    have e2 : Real.exp (22 / 1000) ≤ (1023 / 1000 : ℝ) := by
      refine exp_le (by rw [abs_le]; norm_num) ?_
      rw [abs_of_pos (by norm_num)]; norm_num
    have e3 : Real.exp 1 ^ 3 ≤ 201 / 10 := (pow_le_pow_left₀ (Real.exp_pos 1).le Real.exp_one_lt_d9.le 3).trans (by norm_num)
    rw [e1]
    exact (mul_le_mul e3 e2 (Real.exp_pos _).le (by norm_num)).trans (by norm_num)
  have hexp0 := Real.exp_pos t
  have hpow : App (ar.pow FOps.e (F32.div (F32.sub m Hlg.C) Hlg.A)) (Real.exp t) (6 / 10 ^ 5) := by
    refine ⟨false, r, by rw [hei]; exact er, r0, ?_⟩
    have e1 : signed false r = r := rfl
    rw [e1]
    have hlog1 : |Real.log (2850325 / 1048576 : ℝ)| ≤ 1001 / 1000 := by
      rw [abs_le] at hle ⊢; norm_num at hle ⊢; constructor <;> linarith [hle.1, hle.2]
    have hco : 43 / 10 ^ 8 + 17 / 10 ^ 8 * |(Y : ℝ)| * (1 + |Real.log (2850325 / 1048576 : ℝ)|) ≤ 149 / 10 ^ 8 := by
      have := mul_le_mul hYa (show 1 + |Real.log (2850325 / 1048576 : ℝ)| ≤ 2001 / 1000 by linarith) (by positivity) (by norm_num)
      rw [mul_assoc]
      norm_num at this ⊢
      linarith
    set G := Real.exp ((Y : ℝ) * Real.log (2850325 / 1048576 : ℝ)) with hG
    have hG0 : 0 < G := Real.exp_pos _
    have hGb : G ≤ 208 / 10 := by
      have := (abs_le.mp hcl).2
      norm_num at this ⊢; nlinarith
    have h3 := mul_le_mul hco hGb hG0.le (by norm_num)
    have h4 : (101 / 100 * (12 / 10 ^ 7) * Real.exp t : ℝ) ≤ 101 / 100 * (12 / 10 ^ 7) * (207 / 10) :=
      mul_le_mul_of_nonneg_left hexp (by norm_num)
    have h5 := hr.trans (add_le_add_left h3 _)
    have h6 := hcl.trans h4
    rw [abs_le] at h5 h6 ⊢
    norm_num at h5 h6 ⊢
    constructor <;> linarith [h5.1, h5.2, h6.1, h6.2]
  have s3 := app_add (B := 22) hpow hB (by
    rw [abs_of_nonneg (by positivity)]; norm_num; linarith) (by norm_num) (by norm_num)
  have s4 := app_div_const (B := 2) s3 is_12 (by norm_num) (by
    rw [abs_of_nonneg (by positivity), div_le_iff₀ (by norm_num)]; norm_num; linarith) (by norm_num) (by norm_num)
  push_cast at s4
  exact s4.mono (by norm_num)

/-- `dec_hlg_max` up to 1.1. -/
theorem dec_hlg_wide {x : F32} {X : ℚ} (hm : Is (ar.max x (lit 0.0)) X) (hgm : Good (ar.max x (lit 0.0))) (h0 : 0 ≤ X)
    (h1 : X ≤ 11 / 10 + 3 / 10 ^ 6) :
    App (decodeTransfer ar .BT2100HLG x)
      (if (X : ℝ) ≤ 1 / 2 then (X : ℝ) ^ 2 / 3 else (Real.exp (((X : ℝ) - 0.5599107) / 0.17883277) + 0.28466892) / 12)
      (7 / 10 ^ 6) := by
  rcases le_total X 1 with h | h
  · exact (dec_hlg_max hf hm hgm h0 (h.trans (by norm_num))).mono (by norm_num)
  · have : (1 : ℝ) ≤ X := by exact_mod_cast h
    rw [if_neg (by norm_num; linarith)]
    exact dec_hlg_over hf hm h h1

end

section
variable {rr : Arith ℝ} (he : Exact rr)
include he

/-- Light of a signal. -/
theorem dec_range_app {ar : Arith F32} (hf : Floats ar) {t : ColorTransfer} {x : F32} {X : ℚ} {s : ℝ} (hr : InRange t s)
    (hx : Is x X) (hg : Good x) (hd : |(X : ℝ) - s| ≤ 24 / 10 ^ 7) :
    App (decodeTransfer ar t x) (decodeTransfer rr t s) (42 / 10 ^ 6) ∧ |decodeTransfer rr t s| ≤ 67 / 10 := by
  have hd1 := (abs_le.mp hd).1
  have hd2 := (abs_le.mp hd).2
  rcases hr with ⟨ht, s0, s1⟩ | ⟨rfl, s1⟩
  · have X0 : (0 : ℝ) ≤ X := by norm_num at hd1 s0; linarith
    have X0' : 0 ≤ X := by exact_mod_cast X0
    have s0' : 0 ≤ s := le_trans (by norm_num) s0
    have X1 : (X : ℝ) ≤ 191 / 100 := by norm_num at hd2 ⊢; linarith
    have X1' : X ≤ 191 / 100 := by
      have : (X : ℝ) ≤ ((191 / 100 : ℚ) : ℝ) := by push_cast; exact X1
      exact_mod_cast this
    have up : ∀ c : ℝ, 0 ≤ c → c ≤ 191 / 100 → ∀ Y : ℝ, 0 ≤ Y → Y ≤ 18 / 10 → c ^ Y ≤ 321 / 100 := by
      intro c c0 c1 Y Y0 Y3
      calc c ^ Y ≤ (191 / 100 : ℝ) ^ Y := Real.rpow_le_rpow c0 c1 Y0
        _ ≤ (191 / 100 : ℝ) ^ (18 / 10 : ℝ) := Real.rpow_le_rpow_of_exponent_le (by norm_num) Y3
        _ ≤ _ := by
          apply le_of_lt
          rw [rpow_lt_iff (m := 9) (n := 5) (by norm_num) (by norm_num) (by norm_num) (by norm_num)]
          norm_num
    have power : ∀ Y : ℝ, 1 ≤ Y → Y ≤ 28 / 10 → |(X : ℝ) ^ Y - s ^ Y| ≤ 9 * (24 / 10 ^ 7) := by
      intro Y h1 h3
      refine (rpow_lip (K := 9) X0 s0' h1 ?_).trans (mul_le_mul_of_nonneg_left hd (by norm_num))
      rintro c hc
      have c0 : 0 ≤ c := by rcases hc with rfl | rfl <;> assumption
      have c1 : c ≤ 191 / 100 := by rcases hc with rfl | rfl; exacts [X1, by linarith]
      have := mul_le_mul h3 (up c c0 c1 (Y - 1) (by linarith) (by linarith)) (Real.rpow_nonneg c0 _) (by norm_num)
      linarith
    have small : ∀ Y : ℝ, 0 ≤ Y → Y ≤ 28 / 10 → |s ^ Y| ≤ 67 / 10 := by
      intro Y hY hY2
      rw [abs_of_nonneg (Real.rpow_nonneg s0' _)]
      rcases le_total s 1 with h | h
      · exact (Real.rpow_le_one s0' h hY).trans (by norm_num)
      · calc s ^ Y ≤ s ^ (29 / 10 : ℝ) := Real.rpow_le_rpow_of_exponent_le h (by linarith)
          _ ≤ (191 / 100 : ℝ) ^ (29 / 10 : ℝ) := Real.rpow_le_rpow s0' (by linarith) (by norm_num)
          _ ≤ 67 / 10 := by
            apply le_of_lt
            rw [rpow_lt_iff (m := 29) (n := 10) (by norm_num) (by norm_num) (by norm_num) (by norm_num)]
            norm_num
    rcases ht with rfl | rfl
    · rw [dec_gamma22 he]
      refine ⟨?_, small _ (by norm_num) (by norm_num)⟩
      have h : App (ar.pow x (FOps.div (FOps.ofNat 22) (lit 10.0))) ((X : ℝ) ^ (2.2 : ℝ)) (1 / 10 ^ 5) := by
        rcases le_total X 1 with h | h
        · have hr : (X : ℝ) ≤ 1 := by exact_mod_cast h
          exact (pow_app hf (Z := 2.2) hx hg X0' is_22 (by norm_num) (by norm_num)
            (by rw [min_def]; split <;> (rw [abs_le]; constructor <;> norm_num)) (Or.inl ⟨by linarith, by norm_num⟩)
            (Or.inl ⟨by linarith, by norm_num⟩)).mono (by norm_num)
        · exact pow_gamma hf (Z := 2.2) hx hg h X1' is_22 (by norm_num) (by norm_num) (by norm_num) (by norm_num)
            (by rw [abs_le]; constructor <;> norm_num)
      exact (h.shift (power 2.2 (by norm_num) (by norm_num))).mono (by norm_num)
    · rw [dec_gamma28 he]
      refine ⟨?_, small _ (by norm_num) (by norm_num)⟩
      have h : App (ar.pow x (FOps.div (FOps.ofNat 28) (lit 10.0))) ((X : ℝ) ^ (2.8 : ℝ)) (1 / 10 ^ 5) := by
        rcases le_total X 1 with h | h
        · have hr : (X : ℝ) ≤ 1 := by exact_mod_cast h
          exact (pow_app hf (Z := 2.8) hx hg X0' is_28 (by norm_num) (by norm_num)
            (by rw [min_def]; split <;> (rw [abs_le]; constructor <;> norm_num)) (Or.inl ⟨by linarith, by norm_num⟩)
            (Or.inl ⟨by linarith, by norm_num⟩)).mono (by norm_num)
        · exact pow_gamma hf (Z := 2.8) hx hg h X1' is_28 (by norm_num) (by norm_num) (by norm_num) (by norm_num)
            (by rw [abs_le]; constructor <;> norm_num)
      exact (h.shift (power 2.8 (by norm_num) (by norm_num))).mono (by norm_num)
  · obtain ⟨hm, hgm⟩ := max_is hf hx hg
    have X1 : (X : ℝ) ≤ 11 / 10 + 3 / 10 ^ 6 := by norm_num at hd2 ⊢; linarith
    have hX1 : X ≤ 11 / 10 + 3 / 10 ^ 6 := by
      have : ((X : ℚ) : ℝ) ≤ ((11 / 10 + 3 / 10 ^ 6 : ℚ) : ℝ) := by push_cast; exact X1
      exact_mod_cast this
    have h := dec_hlg_wide hf hm hgm (le_max_right _ _) (max_le hX1 (by norm_num))
    rw [dec_hlg he]
    have ms : max s 0 ≤ 11 / 10 + 3 / 10 ^ 6 := max_le (by linarith) (by norm_num)
    have mX : max (X : ℝ) 0 ≤ 11 / 10 + 3 / 10 ^ 6 := max_le X1 (by norm_num)
    have hl := hlg_lip (le_max_right (X : ℝ) 0) (le_max_right s 0) mX ms
    have hmm : |max (X : ℝ) 0 - max s 0| ≤ |(X : ℝ) - s| := abs_max_sub_max_le_abs _ _ 0
    have h2 := hlg_lip (b := 1 / 2) (le_max_right s 0) (by norm_num) ms (by norm_num)
    have m0 := le_max_right s 0
    constructor
    · push_cast at h
      refine (h.shift hl).mono ?_
      have h3 := hmm.trans hd
      norm_num at h3 ⊢
      linarith
    · rw [if_pos (le_refl (1 / 2 : ℝ))] at h2
      have h4 := abs_sub_abs_le_abs_sub (if max s 0 ≤ 1 / 2 then max s 0 ^ 2 / 3 else
        (Real.exp ((max s 0 - 0.5599107) / 0.17883277) + 0.28466892) / 12) ((1 / 2 : ℝ) ^ 2 / 3)
      have h5 : |max s 0 - 1 / 2| ≤ 6 / 10 + 3 / 10 ^ 6 := by rw [abs_le]; constructor <;> norm_num at ms ⊢ <;> linarith
      rw [abs_of_nonneg (by norm_num : (0 : ℝ) ≤ (1 / 2 : ℝ) ^ 2 / 3)] at h4
      refine (le_trans (sub_le_iff_le_add.mp (h4.trans h2)) ?_)
      norm_num at h5 ⊢
      linarith

end
end Ezk

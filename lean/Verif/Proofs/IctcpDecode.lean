import Verif.Proofs.IctcpLight
import Verif.Proofs.IctcpBack
import Verif.Proofs.ChangePq

/-!
# RGB from ICtCp, in binary32
-/

namespace Ezk
open F32 FOps Spec

variable {ar : Arith F32} {rr : Arith ℝ}

/-! ## Light of cone signals -/

/-- The constants of the PQ decoder are those of the standard, for all signals. -/
theorem std_dec_pq_all (he : Exact rr) {v : ℝ} (h0 : 0 ≤ v) (h1 : v ≤ 1) :
    |decodeTransfer rr .BT2100PQ v - Standard.toLight .BT2100PQ v| ≤ 31 / 10 ^ 6 * Standard.toLight .BT2100PQ v + 1 / 10 ^ 8 := by
  rw [dec_pq he, max_eq_left h0]
  simp only [Standard.toLight]
  have e1 : Standard.c1 = 0.8359375 := by unfold Standard.c1; norm_num
  have e2 : Standard.c2 = 18.8515625 := by unfold Standard.c2; norm_num
  have e3 : Standard.c3 = 18.6875 := by unfold Standard.c3; norm_num
  have e4 : Standard.m2 = 78.84375 := by unfold Standard.m2; norm_num
  have e5 : Standard.m1 = 0.1593017578125 := by unfold Standard.m1; norm_num
  rw [e1, e2, e3, e4, e5]
  have l1 : v ^ (1 / 78.84375 : ℝ) ≤ 1 := Real.rpow_le_one h0 h1 (by norm_num)
  generalize v ^ (1 / 78.84375 : ℝ) = q at *
  rcases le_or_gt q 0.8359375 with hq | hq
  · rw [max_eq_right (by linarith), zero_div, zero_div, Real.zero_rpow (by norm_num), Real.zero_rpow (by norm_num)]
    norm_num
  have q1 : 0 < q - 0.8359375 := by linarith
  rw [max_eq_left q1.le]
  norm_num at hq
  have q2 : 0 < 18.8515625 - 18.6875 * q := by norm_num; linarith
  have q3 : 0 < 18.851563 - q * 18.6875 := by norm_num; linarith
  have d := div_rel (a := q - 0.8359375) (b := 18.851563 - q * 18.6875) (A := q - 0.8359375) (B := 18.8515625 - 18.6875 * q)
    (d := 0) (e := 31 / 10 ^ 7) (k := 311 / 10 ^ 8) q1 q2 q3
    (by simp) (by rw [abs_le]; norm_num; constructor <;> linarith)
    (by norm_num) (by norm_num) (by norm_num) (by norm_num)
  have y1 : (q - 0.8359375) / (18.8515625 - 18.6875 * q) ≤ 1 := by
    rw [div_le_one q2]; norm_num; linarith
  have yp : 0 < (q - 0.8359375) / (18.8515625 - 18.6875 * q) := by positivity
  have p0 : 0 < (q - 0.8359375) / (18.851563 - q * 18.6875) := by positivity
  generalize (q - 0.8359375) / (18.8515625 - 18.6875 * q) = y at *
  generalize (q - 0.8359375) / (18.851563 - q * 18.6875) = z at *
  rcases le_or_gt y (1 / 125) with hy | hy
  · have hz : z ≤ 9 / 1000 := by
      have := (abs_le.mp d).2
      norm_num at this
      linarith
    have dark : ∀ {w a : ℝ}, 0 < w → w ≤ 9 / 1000 → 6 ≤ a → 0 ≤ w ^ a ∧ w ^ a ≤ 6 / 10 ^ 13 := by
      intro w a w0 w1 ha
      refine ⟨Real.rpow_nonneg w0.le _, ?_⟩
      calc w ^ a ≤ w ^ ((6 : ℕ) : ℝ) := Real.rpow_le_rpow_of_exponent_ge w0 (w1.trans (by norm_num)) (by push_cast; exact ha)
        _ = w ^ (6 : ℕ) := Real.rpow_natCast _ _
        _ ≤ (9 / 1000) ^ (6 : ℕ) := pow_le_pow_left₀ w0.le w1 6
        _ ≤ _ := by norm_num
    obtain ⟨a0, a1⟩ := dark (a := 1 / 0.15930176) p0 hz (by norm_num)
    obtain ⟨b0, b1⟩ := dark (a := 1 / 0.1593017578125) yp (hy.trans (by norm_num)) (by norm_num)
    generalize z ^ (1 / 0.15930176 : ℝ) = Z at *
    generalize y ^ (1 / 0.1593017578125 : ℝ) = Y at *
    norm_num at a1 b1
    rw [abs_le]
    norm_num
    constructor <;> linarith
  · have r := rpow_rel (M := 1 / 0.15930176) yp p0 (by norm_num) (by norm_num) d
    have Y0 : 0 < y ^ (1 / 0.1593017578125 : ℝ) := Real.rpow_pos_of_pos yp _
    have ex : y ^ (1 / 0.1593017578125 : ℝ) = y ^ (1 / 0.15930176 : ℝ) * y ^ (1 / 0.1593017578125 - 1 / 0.15930176 : ℝ) := by
      rw [← Real.rpow_add yp]; congr 1; ring
    have t1 : y ^ (1 / 0.1593017578125 - 1 / 0.15930176 : ℝ) ≤ 1 := Real.rpow_le_one yp.le y1 (by norm_num)
    have t0 : 1 - 108 / 10 ^ 7 ≤ y ^ (1 / 0.1593017578125 - 1 / 0.15930176 : ℝ) := by
      rw [Real.rpow_def_of_pos yp]
      have a := Real.add_one_le_exp (Real.log y * (1 / 0.1593017578125 - 1 / 0.15930176))
      have b := Real.one_sub_inv_le_log_of_pos yp
      have b2 : y⁻¹ ≤ 125 := by rw [inv_le_comm₀ yp (by norm_num)]; norm_num; linarith
      norm_num at a ⊢
      linarith
    have W0 : 0 < y ^ (1 / 0.15930176 : ℝ) := Real.rpow_pos_of_pos yp _
    generalize y ^ (1 / 0.1593017578125 : ℝ) = Y at *
    generalize y ^ (1 / 0.1593017578125 - 1 / 0.15930176 : ℝ) = t at *
    generalize y ^ (1 / 0.15930176 : ℝ) = W at *
    generalize z ^ (1 / 0.15930176 : ℝ) = Z at *
    norm_num at r t0
    rw [abs_le] at r
    have u1 := mul_le_mul_of_nonneg_left t1 W0.le
    have u2 := mul_le_mul_of_nonneg_left t0 W0.le
    rw [← ex] at u1 u2
    obtain ⟨r1, r2⟩ := r
    rw [abs_le]
    norm_num
    constructor <;> linarith

/-- Light of a cone signal of the PQ system, as computed; rounding may have taken the signal out of `[0, 1]`. -/
theorem cone_light_pq (he : Exact rr) (hf : Floats ar) {x : F32} {X : ℚ} {q : ℝ} (hx : Is x X) (hg : Good x) (q0 : 0 ≤ q) (q1 : q ≤ 1)
    (hq : |(X : ℝ) - q| ≤ 3 / 10 ^ 6) :
    ∃ s : ℝ, |s - q| ≤ 3 / 10 ^ 6 ∧ 0 ≤ s ∧ s ≤ 1 ∧ App (decodeTransfer ar .BT2100PQ x) (Standard.toLight .BT2100PQ s)
      (54 / 10 ^ 5 * Standard.toLight .BT2100PQ s + 2 / 10 ^ 8) := by
  have hq' := abs_le.mp hq
  have h1 : X ≤ 1 + 3 / 10 ^ 6 := by
    have : (X : ℝ) ≤ ((1 + 3 / 10 ^ 6 : ℚ) : ℝ) := by push_cast; linarith [hq'.2]
    exact_mod_cast this
  have s0 : 0 ≤ max 0 (min 1 (X : ℝ)) := le_max_left _ _
  have s1 : max 0 (min 1 (X : ℝ)) ≤ 1 := max_le (by norm_num) (min_le_left _ _)
  refine ⟨max 0 (min 1 (X : ℝ)), ?_, s0, s1, ?_⟩
  · rcases le_or_gt (X : ℝ) 1 with h | h
    · rw [min_eq_right h]
      rcases le_or_gt 0 (X : ℝ) with h' | h'
      · rw [max_eq_right h']; exact hq
      · rw [max_eq_left h'.le, abs_le]; constructor <;> linarith [hq'.1]
    · rw [min_eq_left h.le, max_eq_right (by norm_num), abs_le]; constructor <;> linarith [hq'.2]
  · have a := dec_pq_clamp hf hx hg h1
    have b := std_dec_pq_all he s0 s1
    have e : decodeTransfer rr .BT2100PQ (max 0 (min 1 (X : ℝ))) = (max ((max 0 (min 1 (X : ℝ))) ^ (1 / 78.84375 : ℝ) - 0.8359375) 0 /
        (18.851563 - (max 0 (min 1 (X : ℝ))) ^ (1 / 78.84375 : ℝ) * 18.6875)) ^ (1 / 0.15930176 : ℝ) * 10000 := by
      rw [dec_pq he, max_eq_left s0]
    rw [← e] at a
    obtain ⟨l0, -⟩ := toLight_pq_le s0 s1
    have b2 := (abs_le.mp b).2
    refine (a.shift b).mono ?_
    norm_num at b2 ⊢
    linarith

/-- Light of a cone signal of the HLG system, as computed. -/
theorem cone_light_hlg (he : Exact rr) (hf : Floats ar) {x : F32} {X : ℚ} {q : ℝ} (hx : Is x X) (hg : Good x) (q0 : 0 ≤ q) (q1 : q ≤ 1)
    (hq : |(X : ℝ) - q| ≤ 3 / 10 ^ 6) :
    ∃ s : ℝ, |s - q| ≤ 3 / 10 ^ 6 ∧ 0 ≤ s ∧ s ≤ 1 + 3 / 10 ^ 6 ∧ App (decodeTransfer ar .BT2100HLG x) (Standard.toLight .BT2100HLG s)
      (35 / 10 ^ 7) := by
  have hq' := abs_le.mp hq
  have h1 : X ≤ 1 + 3 / 10 ^ 6 := by
    have : (X : ℝ) ≤ ((1 + 3 / 10 ^ 6 : ℚ) : ℝ) := by push_cast; linarith [hq'.2]
    exact_mod_cast this
  obtain ⟨hm, hgm⟩ := max_is hf hx hg
  have a := dec_hlg_max hf hm hgm (le_max_right _ _) (max_le h1 (by norm_num))
  have s0 : (0 : ℝ) ≤ ((max X 0 : ℚ) : ℝ) := by exact_mod_cast le_max_right X 0
  have s1 : ((max X 0 : ℚ) : ℝ) ≤ 1 + 3 / 10 ^ 6 := by
    have := (Rat.cast_le (K := ℝ)).mpr (max_le h1 (by norm_num : (0 : ℚ) ≤ 1 + 3 / 10 ^ 6)); push_cast at this ⊢; exact this
  refine ⟨((max X 0 : ℚ) : ℝ), ?_, s0, s1, ?_⟩
  · rcases le_or_gt 0 X with h | h
    · rw [max_eq_left h]; exact hq
    · rw [max_eq_right h.le, Rat.cast_zero, abs_le]
      have : (X : ℝ) < 0 := by exact_mod_cast h
      constructor <;> linarith [hq'.1]
  · have b := std_dec_hlg he s0 s1
    rw [dec_hlg he, max_eq_left s0] at b
    exact (a.shift b).mono (by norm_num)

/-- HLG light of signals up to 1. -/
theorem toLight_hlg_over {v : ℝ} (h0 : 0 ≤ v) (h1 : v ≤ 1 + 3 / 10 ^ 6) :
    0 ≤ Standard.toLight .BT2100HLG v ∧ Standard.toLight .BT2100HLG v ≤ 11 / 10 := by
  simp only [Standard.toLight]
  split
  · rename_i h
    constructor
    · positivity
    · nlinarith
  · rename_i h
    have hb : Standard.b = 0.28466892 := by unfold Standard.b Standard.a; norm_num
    have hc := abs_le.mp hlg_c
    have ha : Standard.a = 0.17883277 := rfl
    rw [hb, ha]
    have ht : (v - Standard.c) / 0.17883277 ≤ 5 / 2 := by
      rw [div_le_iff₀ (by norm_num)]
      have := hc.1
      norm_num at this h1 ⊢
      linarith
    have hexp : Real.exp ((v - Standard.c) / 0.17883277) ≤ 122 / 10 := by
      refine (Real.exp_le_exp.mpr ht).trans ?_
      have e1 : Real.exp (5 / 2) ^ 2 = Real.exp 1 ^ 5 := by
        rw [← Real.exp_nat_mul, ← Real.exp_nat_mul]; norm_num
      have e2 : Real.exp 1 ^ 5 ≤ (122 / 10) ^ 2 := by
        refine (pow_le_pow_left₀ (Real.exp_pos 1).le Real.exp_one_lt_d9.le 5).trans (by norm_num)
      exact le_of_sq_le_sq (by rw [e1]; exact e2) (by norm_num)
    have hpos := Real.exp_pos ((v - Standard.c) / 0.17883277)
    generalize Real.exp ((v - Standard.c) / 0.17883277) = E at *
    norm_num at hexp ⊢
    constructor <;> linarith

/-! ## Cone signals -/

/-- A cone signal from intensity and chroma. -/
theorem ict_app (hi : IsIeee ar) (he : Exact rr) {y u v a b : F32} {y' u' v' a' b' : ℝ} (hy : App y y' (5 / 10 ^ 7)) (hy' : |y'| ≤ 13 / 10)
    (hu : App u u' (7 / 10 ^ 7)) (hu' : |u'| ≤ 18 / 10) (hv : App v v' (7 / 10 ^ 7)) (hv' : |v'| ≤ 18 / 10)
    (ha : App a a' (6 / 10 ^ 8)) (ha' : |a'| ≤ 103 / 100) (hb : App b b' (6 / 10 ^ 8)) (hb' : |b'| ≤ 61 / 100) :
    App (ict ar y u a v b) (ict rr y' u' a' v' b') (27 / 10 ^ 7) := by
  simp only [ict, he.add, he.mul, hi.add, hi.mul]
  have m1 := (app_mul (B := 19 / 10) hu ha hu' ha' (by norm_num) (by norm_num) (by norm_num)).mono (show _ ≤ 95 / 10 ^ 8 by norm_num)
  have m2 := (app_mul (B := 11 / 10) hv hb hv' hb' (by norm_num) (by norm_num) (by norm_num)).mono (show _ ≤ 61 / 10 ^ 8 by norm_num)
  have b1 : |u' * a'| ≤ 18 / 10 * (103 / 100) := by rw [abs_mul]; exact mul_le_mul hu' ha' (abs_nonneg _) (by norm_num)
  have b2 : |v' * b'| ≤ 18 / 10 * (61 / 100) := by rw [abs_mul]; exact mul_le_mul hv' hb' (abs_nonneg _) (by norm_num)
  have t1 := abs_add_le y' (u' * a')
  have t2 := abs_add_le (y' + u' * a') (v' * b')
  have s1 := (app_add (B := 32 / 10) hy m1 (by norm_num at *; linarith) (by norm_num) (by norm_num)).mono (show _ ≤ 165 / 10 ^ 8 by norm_num)
  have s2 := app_add (B := 43 / 10) s1 m2 (by norm_num at *; linarith) (by norm_num) (by norm_num)
  exact s2.mono (by norm_num)

/-- A constant of the code. -/
theorem lit_app {q : ℚ} (h : closeTo (FOps.lit q : F32) q (6 / 10 ^ 8) = true) {B : ℚ} (hB : |q| ≤ B) :
    App (FOps.lit q : F32) (FOps.lit q : ℝ) (6 / 10 ^ 8) ∧ |(FOps.lit q : ℝ)| ≤ B := by
  refine ⟨app_const h (lit_real q).symm (by norm_num), ?_⟩
  rw [lit_real]
  exact_mod_cast hB

/-- The cone signals of a system of BT.2100 as computed from intensity and chroma. -/
theorem cones_app (hi : IsIeee ar) (he : Exact rr) {y u v : F32} {q : ℝ × ℝ × ℝ} (q1 : 0 ≤ q.1 ∧ q.1 ≤ 1) (q2 : 0 ≤ q.2.1 ∧ q.2.1 ≤ 1)
    (q3 : 0 ≤ q.2.2 ∧ q.2.2 ≤ 1) :
    (let c := Standard.ictcpOfPq q
     App y c.1 (5 / 10 ^ 7) → |c.1| ≤ 13 / 10 → App u c.2.1 (7 / 10 ^ 7) → |c.2.1| ≤ 18 / 10 → App v c.2.2 (7 / 10 ^ 7) → |c.2.2| ≤ 18 / 10 →
      App (ict ar y u (lit 0.008609037) v (lit 0.111029625)) q.1 (3 / 10 ^ 6) ∧
      App (ict ar y u (lit (-0.008609037)) v (lit (-0.111029625))) q.2.1 (3 / 10 ^ 6) ∧
      App (ict ar y u (lit 0.5600313) v (lit (-0.32062715))) q.2.2 (3 / 10 ^ 6)) ∧
    (let c := Standard.ictcpOfHlg q
     App y c.1 (5 / 10 ^ 7) → |c.1| ≤ 13 / 10 → App u c.2.1 (7 / 10 ^ 7) → |c.2.1| ≤ 18 / 10 → App v c.2.2 (7 / 10 ^ 7) → |c.2.2| ≤ 18 / 10 →
      App (ict ar y u (lit 0.01571858) v (lit 0.20958106)) q.1 (3 / 10 ^ 6) ∧
      App (ict ar y u (lit (-0.01571858)) v (lit (-0.20958106))) q.2.1 (3 / 10 ^ 6) ∧
      App (ict ar y u (lit 1.0212711) v (lit (-0.6052745))) q.2.2 (3 / 10 ^ 6)) := by
  have key : ∀ {a b : ℚ} {c : ℝ × ℝ × ℝ} {s d : ℝ}, closeTo (FOps.lit a : F32) a (6 / 10 ^ 8) = true → |a| ≤ 103 / 100 →
      closeTo (FOps.lit b : F32) b (6 / 10 ^ 8) = true → |b| ≤ 61 / 100 → |ict rr c.1 c.2.1 (lit a) c.2.2 (lit b) - s| ≤ d → d ≤ 2 / 10 ^ 7 →
      App y c.1 (5 / 10 ^ 7) → |c.1| ≤ 13 / 10 → App u c.2.1 (7 / 10 ^ 7) → |c.2.1| ≤ 18 / 10 → App v c.2.2 (7 / 10 ^ 7) → |c.2.2| ≤ 18 / 10 →
      App (ict ar y u (lit a) v (lit b)) s (3 / 10 ^ 6) := by
    intro a b c s d ca ba cb bb hd d1 h1 h2 h3 h4 h5 h6
    obtain ⟨A1, A2⟩ := lit_app ca ba
    obtain ⟨B1, B2⟩ := lit_app cb bb
    push_cast at A2 B2
    refine ((ict_app hi he h1 h2 h3 h4 h5 h6 A1 A2 B1 B2).shift hd).mono ?_
    norm_num at d1 ⊢
    linarith
  constructor
  · intro c h1 h2 h3 h4 h5 h6
    obtain ⟨k1, k2, k3⟩ := pq_cones he (l := q.1) (m := q.2.1) (s := q.2.2) q1.1 q2.1 q3.1 q1.2 q2.2 q3.2
    exact ⟨key (by decide +kernel) (by norm_num [abs_le]) (by decide +kernel) (by norm_num [abs_le]) k1 le_rfl h1 h2 h3 h4 h5 h6,
      key (by decide +kernel) (by norm_num [abs_le]) (by decide +kernel) (by norm_num [abs_le]) k2 le_rfl h1 h2 h3 h4 h5 h6,
      key (by decide +kernel) (by norm_num [abs_le]) (by decide +kernel) (by norm_num [abs_le]) k3 le_rfl h1 h2 h3 h4 h5 h6⟩
  · intro c h1 h2 h3 h4 h5 h6
    obtain ⟨k1, k2, k3⟩ := hlg_cones he (l := q.1) (m := q.2.1) (s := q.2.2) q1.1 q2.1 q3.1 (q1.2.trans (by norm_num)) (q2.2.trans (by norm_num))
      (q3.2.trans (by norm_num))
    exact ⟨key (by decide +kernel) (by norm_num [abs_le]) (by decide +kernel) (by norm_num [abs_le]) k1 (by norm_num) h1 h2 h3 h4 h5 h6,
      key (by decide +kernel) (by norm_num [abs_le]) (by decide +kernel) (by norm_num [abs_le]) k2 (by norm_num) h1 h2 h3 h4 h5 h6,
      key (by decide +kernel) (by norm_num [abs_le]) (by decide +kernel) (by norm_num [abs_le]) k3 (by norm_num) h1 h2 h3 h4 h5 h6⟩

/-! ## RGB of cone responses -/

/-- XYZ of cone responses, with the rounding errors. -/
theorem ofLms_round (hi : IsIeee ar) (he : Exact rr) {p : C3 F32} {l m s : ℚ} (h1 : Is p.1 l) (h2 : Is p.2.1 m) (h3 : Is p.2.2 s) {S : ℝ}
    (b1 : |(l : ℝ)| ≤ S) (b2 : |(m : ℝ)| ≤ S) (b3 : |(s : ℝ)| ≤ S) (hS : S ≤ 20000) :
    let f := ofLms ar p
    let c := ofLms rr ((l : ℝ), (m : ℝ), (s : ℝ))
    ∃ X Y Z : ℚ, Is f.1 X ∧ Is f.2.1 Y ∧ Is f.2.2 Z ∧ |(X : ℝ) - c.1| ≤ 11 / 10 ^ 7 * S + 1 / 10 ^ 37 ∧
      |(Y : ℝ) - c.2.1| ≤ 11 / 10 ^ 7 * S + 1 / 10 ^ 37 ∧ |(Z : ℝ) - c.2.2| ≤ 11 / 10 ^ 7 * S + 1 / 10 ^ 37 ∧
      |c.1| ≤ 361 / 100 * S ∧ |c.2.1| ≤ 11 / 10 * S ∧ |c.2.2| ≤ 129 / 100 * S := by
  intro f c
  have S0 : 0 ≤ S := (abs_nonneg _).trans b1
  obtain ⟨A00, i00, d00⟩ := lit_near (q := 2.0700345) (e := 12 / 10 ^ 8) (by decide +kernel)
  obtain ⟨A01, i01, d01⟩ := lit_near (q := -1.3262312) (e := 12 / 10 ^ 8) (by decide +kernel)
  obtain ⟨A02, i02, d02⟩ := lit_near (q := 0.20670232) (e := 12 / 10 ^ 8) (by decide +kernel)
  obtain ⟨A10, i10, d10⟩ := lit_near (q := 0.3647498) (e := 12 / 10 ^ 8) (by decide +kernel)
  obtain ⟨A11, i11, d11⟩ := lit_near (q := 0.6805457) (e := 12 / 10 ^ 8) (by decide +kernel)
  obtain ⟨A12, i12, d12⟩ := lit_near (q := -0.04532032) (e := 12 / 10 ^ 8) (by decide +kernel)
  obtain ⟨A20, i20, d20⟩ := lit_near (q := -0.04978125) (e := 12 / 10 ^ 8) (by decide +kernel)
  obtain ⟨A21, i21, d21⟩ := lit_near (q := -0.049197882) (e := 12 / 10 ^ 8) (by decide +kernel)
  obtain ⟨A22, i22, d22⟩ := lit_near (q := 1.1880972) (e := 12 / 10 ^ 8) (by decide +kernel)
  simp only [f, c, ofLms, dot_real he]
  have x0 : |(l : ℝ) - l| ≤ 0 ∧ |(l : ℝ)| ≤ S := ⟨by simp, b1⟩
  have y0 : |(m : ℝ) - m| ≤ 0 ∧ |(m : ℝ)| ≤ S := ⟨by simp, b2⟩
  have z0 : |(s : ℝ) - s| ≤ 0 ∧ |(s : ℝ)| ≤ S := ⟨by simp, b3⟩
  simp only [lit_real] at *
  push_cast at d00 d01 d02 d10 d11 d12 d20 d21 d22
  obtain ⟨X, hX, dX⟩ := dot_near hi h1 i00 h2 i01 h3 i02 S S S (2071 / 1000) (1327 / 1000) (207 / 1000)
    (11 / 10 ^ 7 * S + 1 / 10 ^ 37) x0 y0 z0 ⟨d00, by norm_num [abs_le, Rat.cast_ofScientific]⟩
    ⟨d01, by norm_num [abs_le, Rat.cast_ofScientific]⟩ ⟨d02, by norm_num [abs_le, Rat.cast_ofScientific]⟩
    (by norm_num; linarith) (by norm_num; linarith) (by norm_num; linarith) (by norm_num; linarith)
  obtain ⟨Y, hY, dY⟩ := dot_near hi h1 i10 h2 i11 h3 i12 S S S (365 / 1000) (681 / 1000) (46 / 1000)
    (11 / 10 ^ 7 * S + 1 / 10 ^ 37) x0 y0 z0 ⟨d10, by norm_num [abs_le, Rat.cast_ofScientific]⟩
    ⟨d11, by norm_num [abs_le, Rat.cast_ofScientific]⟩ ⟨d12, by norm_num [abs_le, Rat.cast_ofScientific]⟩
    (by norm_num; linarith) (by norm_num; linarith) (by norm_num; linarith) (by norm_num; linarith)
  obtain ⟨Z, hZ, dZ⟩ := dot_near hi h1 i20 h2 i21 h3 i22 S S S (5 / 100) (5 / 100) (1189 / 1000)
    (11 / 10 ^ 7 * S + 1 / 10 ^ 37) x0 y0 z0 ⟨d20, by norm_num [abs_le, Rat.cast_ofScientific]⟩
    ⟨d21, by norm_num [abs_le, Rat.cast_ofScientific]⟩ ⟨d22, by norm_num [abs_le, Rat.cast_ofScientific]⟩
    (by norm_num; linarith) (by norm_num; linarith) (by norm_num; linarith) (by norm_num; linarith)
  rw [abs_le] at b1 b2 b3
  obtain ⟨b1, b1'⟩ := b1
  obtain ⟨b2, b2'⟩ := b2
  obtain ⟨b3, b3'⟩ := b3
  refine ⟨X, Y, Z, hX, hY, hZ, ?_, ?_, ?_, ?_, ?_, ?_⟩
  · push_cast; exact dX
  · push_cast; exact dY
  · push_cast; exact dZ
  all_goals
    rw [abs_le]
    norm_num [Rat.cast_ofScientific]
    constructor <;> linarith

/-- RGB of cone responses, with the rounding errors. -/
theorem rgb_round (hi : IsIeee ar) (he : Exact rr) {p : C3 F32} {l m s : ℚ} (h1 : Is p.1 l) (h2 : Is p.2.1 m) (h3 : Is p.2.2 s) {S : ℝ}
    (b1 : |(l : ℝ)| ≤ S) (b2 : |(m : ℝ)| ≤ S) (b3 : |(s : ℝ)| ≤ S) (hS : S ≤ 20000) :
    let f := rowMul ar (ofLms ar p) ColorPrimaries.BT2020.xyzToRgbMat
    let c := rowMul rr (ofLms rr ((l : ℝ), (m : ℝ), (s : ℝ))) ColorPrimaries.BT2020.xyzToRgbMat
    ∃ R G B : ℚ, Is f.1 R ∧ Is f.2.1 G ∧ Is f.2.2 B ∧ |(R : ℝ) - c.1| ≤ 5 / 10 ^ 6 * S + 1 / 10 ^ 36 ∧
      |(G : ℝ) - c.2.1| ≤ 5 / 10 ^ 6 * S + 1 / 10 ^ 36 ∧ |(B : ℝ) - c.2.2| ≤ 5 / 10 ^ 6 * S + 1 / 10 ^ 36 := by
  intro f c
  have S0 : 0 ≤ S := (abs_nonneg _).trans b1
  obtain ⟨X, Y, Z, hX, hY, hZ, dX, dY, dZ, bX, bY, bZ⟩ := ofLms_round hi he h1 h2 h3 b1 b2 b3 hS
  have M := rgb_mat_app .BT2020
  have L : |(ColorPrimaries.BT2020.xyzToRgbMat : Mat ℝ).m00| ≤ 172 / 100 ∧ |(ColorPrimaries.BT2020.xyzToRgbMat : Mat ℝ).m10| ≤ 36 / 100 ∧
    |(ColorPrimaries.BT2020.xyzToRgbMat : Mat ℝ).m20| ≤ 26 / 100 ∧ |(ColorPrimaries.BT2020.xyzToRgbMat : Mat ℝ).m01| ≤ 67 / 100 ∧
    |(ColorPrimaries.BT2020.xyzToRgbMat : Mat ℝ).m11| ≤ 162 / 100 ∧ |(ColorPrimaries.BT2020.xyzToRgbMat : Mat ℝ).m21| ≤ 2 / 100 ∧
    |(ColorPrimaries.BT2020.xyzToRgbMat : Mat ℝ).m02| ≤ 2 / 100 ∧ |(ColorPrimaries.BT2020.xyzToRgbMat : Mat ℝ).m12| ≤ 5 / 100 ∧
    |(ColorPrimaries.BT2020.xyzToRgbMat : Mat ℝ).m22| ≤ 95 / 100 := by
    simp only [ColorPrimaries.xyzToRgbMat, BT2020_XYZ_TO_RGB, lit_real]
    push_cast; norm_num [Rat.cast_ofScientific, abs_le]
  obtain ⟨le00, le10, le20, le01, le11, le21, le02, le12, le22⟩ := L
  simp only [f, c, rowMul, dot_real he]
  generalize (ColorPrimaries.BT2020.xyzToRgbMat : Mat F32) = mf at *
  generalize (ColorPrimaries.BT2020.xyzToRgbMat : Mat ℝ) = mr at *
  generalize ofLms ar p = q at *
  generalize ofLms rr ((l : ℝ), (m : ℝ), (s : ℝ)) = w at *
  obtain ⟨A00, i00, d00⟩ := M.m00.1.is
  obtain ⟨A10, i10, d10⟩ := M.m10.1.is
  obtain ⟨A20, i20, d20⟩ := M.m20.1.is
  obtain ⟨A01, i01, d01⟩ := M.m01.1.is
  obtain ⟨A11, i11, d11⟩ := M.m11.1.is
  obtain ⟨A21, i21, d21⟩ := M.m21.1.is
  obtain ⟨A02, i02, d02⟩ := M.m02.1.is
  obtain ⟨A12, i12, d12⟩ := M.m12.1.is
  obtain ⟨A22, i22, d22⟩ := M.m22.1.is
  obtain ⟨R, hR, dR⟩ := dot_near hi hX i00 hY i10 hZ i20 (361 / 100 * S) (11 / 10 * S) (129 / 100 * S) (172 / 100) (36 / 100) (26 / 100)
    (5 / 10 ^ 6 * S + 1 / 10 ^ 36) ⟨dX, bX⟩ ⟨dY, bY⟩ ⟨dZ, bZ⟩ ⟨d00, le00⟩ ⟨d10, le10⟩ ⟨d20, le20⟩
    (by norm_num; linarith) (by norm_num; linarith) (by norm_num; linarith) (by norm_num; linarith)
  obtain ⟨G, hG, dG⟩ := dot_near hi hX i01 hY i11 hZ i21 (361 / 100 * S) (11 / 10 * S) (129 / 100 * S) (67 / 100) (162 / 100) (2 / 100)
    (5 / 10 ^ 6 * S + 1 / 10 ^ 36) ⟨dX, bX⟩ ⟨dY, bY⟩ ⟨dZ, bZ⟩ ⟨d01, le01⟩ ⟨d11, le11⟩ ⟨d21, le21⟩
    (by norm_num; linarith) (by norm_num; linarith) (by norm_num; linarith) (by norm_num; linarith)
  obtain ⟨B, hB, dB⟩ := dot_near hi hX i02 hY i12 hZ i22 (361 / 100 * S) (11 / 10 * S) (129 / 100 * S) (2 / 100) (5 / 100) (95 / 100)
    (5 / 10 ^ 6 * S + 1 / 10 ^ 36) ⟨dX, bX⟩ ⟨dY, bY⟩ ⟨dZ, bZ⟩ ⟨d02, le02⟩ ⟨d12, le12⟩ ⟨d22, le22⟩
    (by norm_num; linarith) (by norm_num; linarith) (by norm_num; linarith) (by norm_num; linarith)
  exact ⟨R, G, B, hR, hG, hB, dR, dG, dB⟩

/-- RGB of cone responses, in exact arithmetic, against BT.2100. -/
theorem rgb_std (he : Exact rr) {r g b l m s x a : ℝ} (hx : 0 ≤ (Standard.lms (r, g, b)).1 ∧ (Standard.lms (r, g, b)).1 ≤ x)
    (hy : 0 ≤ (Standard.lms (r, g, b)).2.1 ∧ (Standard.lms (r, g, b)).2.1 ≤ x)
    (hz : 0 ≤ (Standard.lms (r, g, b)).2.2 ∧ (Standard.lms (r, g, b)).2.2 ≤ x)
    (hl : |l - (Standard.lms (r, g, b)).1| ≤ a) (hm : |m - (Standard.lms (r, g, b)).2.1| ≤ a)
    (hs : |s - (Standard.lms (r, g, b)).2.2| ≤ a) :
    let c := rowMul rr (ofLms rr (l, m, s)) ColorPrimaries.BT2020.xyzToRgbMat
    (|c.1 - r| ≤ 277 / 10 ^ 6 * x + 6013 / 1000 * a ∧ |c.2.1 - g| ≤ 277 / 10 ^ 6 * x + 6013 / 1000 * a ∧
      |c.2.2 - b| ≤ 277 / 10 ^ 6 * x + 6013 / 1000 * a) ∧ |r| ≤ 351 / 100 * x ∧ |g| ≤ 351 / 100 * x ∧ |b| ≤ 351 / 100 * x := by
  simp only [ofLms, rowMul, dot_real he, lit_real, ColorPrimaries.xyzToRgbMat, BT2020_XYZ_TO_RGB, Standard.lms] at hx hy hz hl hm hs ⊢
  rw [abs_le] at hl hm hs
  obtain ⟨l1, l2⟩ := hl
  obtain ⟨m1, m2⟩ := hm
  obtain ⟨s1, s2⟩ := hs
  obtain ⟨x1, x2⟩ := hx
  obtain ⟨y1, y2⟩ := hy
  obtain ⟨z1, z2⟩ := hz
  norm_num [Rat.cast_ofScientific] at *
  refine ⟨⟨?_, ?_, ?_⟩, ?_, ?_, ?_⟩ <;> rw [abs_le] <;> constructor <;> linarith

/-- Every triple of cone responses is that of some light. -/
theorem lms_surjective (p : ℝ × ℝ × ℝ) : ∃ q, Standard.lms q = p := by
  obtain ⟨l, m, s⟩ := p
  refine ⟨((1074053 * l - 783349 * m + 21829 * s) / 312533, (-1236583 * l + 3099703 * m - 300455 * s) / 1562665,
    (-40551 * l - 154569 * m + 1757785 * s) / 1562665), ?_⟩
  simp only [Standard.lms, Prod.mk.injEq]
  refine ⟨?_, ?_, ?_⟩ <;> ring

end Ezk

import Verif.Proofs.PqReal
import Verif.Proofs.ChangeApp

/-!
# PQ as computed, compared with the exact curve
-/

namespace Ezk
open F32 FOps Spec

namespace F32

/-- One rounding. -/
theorem is_round (s : Bool) {q : ℚ} (h0 : 0 ≤ q) (hq : q ≤ 2 ^ 100) :
    ∃ r : ℚ, round s q = fin s r ∧ 0 ≤ r ∧ |r - q| ≤ q / 2 ^ 24 + 1 / 2 ^ 150 := by
  refine ⟨rnd q, ?_, rnd_nonneg h0, rnd_error h0⟩
  rw [round_eq, if_neg]
  rw [limit_eq, not_le]
  exact lt_of_le_of_lt (rnd_le_binade (e := 100) h0 (by norm_num) (by exact_mod_cast hq)) (by norm_num)

theorem is_mul {x y : F32} {a b : ℚ} (hx : Is x a) (hy : Is y b) (h : |a * b| ≤ 2 ^ 100) :
    ∃ c : ℚ, Is (mul x y) c ∧ |c - a * b| ≤ |a * b| / 2 ^ 24 + 1 / 2 ^ 150 := by
  obtain ⟨s, p, rfl, hp, rfl⟩ := hx
  obtain ⟨t, q, rfl, hq, rfl⟩ := hy
  have e : |signed s p * signed t q| = p * q := by rw [abs_mul, signed_abs hp, signed_abs hq]
  rw [e] at h ⊢
  obtain ⟨r, e1, e2, e3⟩ := is_round (s ^^ t) (mul_nonneg hp hq) h
  refine ⟨_, ⟨_, r, e1, e2, rfl⟩, ?_⟩
  rw [← signed_mul, abs_signed_sub]
  exact e3

theorem is_div {x y : F32} {a b : ℚ} (hx : Is x a) (hy : Is y b) (hb : 0 < b) (h : |a / b| ≤ 2 ^ 100) :
    ∃ c : ℚ, Is (div x y) c ∧ |c - a / b| ≤ |a / b| / 2 ^ 24 + 1 / 2 ^ 150 := by
  rw [hy.pos hb]
  obtain ⟨s, p, rfl, hp, rfl⟩ := hx
  have e : |signed s p / b| = p / b := by rw [abs_div, signed_abs hp, abs_of_pos hb]
  rw [e] at h ⊢
  obtain ⟨r, e1, e2, e3⟩ := is_round (s ^^ false) (div_nonneg hp hb.le) h
  refine ⟨signed (s ^^ false) r, ⟨s ^^ false, r, ?_, e2, rfl⟩, ?_⟩
  · simp only [div, if_neg hb.ne']; exact e1
  · have e4 : signed s p / b = signed (s ^^ false) (p / b) := by cases s <;> simp [signed, neg_div]
    rw [e4, abs_signed_sub]
    exact e3

theorem is_add {x y : F32} {a b : ℚ} (hx : Is x a) (hy : Is y b) (h : |a + b| ≤ 2 ^ 100) :
    ∃ c : ℚ, Is (add x y) c ∧ |c - (a + b)| ≤ |a + b| / 2 ^ 24 + 1 / 2 ^ 150 := by
  obtain ⟨s, p, rfl, hp, rfl⟩ := hx
  obtain ⟨t, q, rfl, hq, rfl⟩ := hy
  change ∃ c, Is (ofRat (s && t) (signed s p + signed t q)) c ∧ _
  generalize signed s p + signed t q = v at h ⊢
  unfold ofRat
  split
  · rename_i h0
    refine ⟨0, ⟨_, 0, rfl, le_refl _, by cases s && t <;> simp [signed]⟩, ?_⟩
    rw [h0]; norm_num
  · obtain ⟨r, e1, e2, e3⟩ := is_round (decide (v < 0)) (abs_nonneg v) h
    refine ⟨_, ⟨_, r, e1, e2, rfl⟩, ?_⟩
    have e4 : signed (decide (v < 0)) r - v = signed (decide (v < 0)) r - signed (decide (v < 0)) |v| := by rw [signed_decide]
    rw [e4, abs_signed_sub]
    exact e3

theorem is_neg {x : F32} {a : ℚ} (hx : Is x a) : Is (neg x) (-a) := by
  obtain ⟨s, p, rfl, hp, rfl⟩ := hx
  exact ⟨!s, p, rfl, hp, by cases s <;> simp [signed]⟩

theorem is_sub {x y : F32} {a b : ℚ} (hx : Is x a) (hy : Is y b) (h : |a - b| ≤ 2 ^ 100) :
    ∃ c : ℚ, Is (sub x y) c ∧ |c - (a - b)| ≤ |a - b| / 2 ^ 24 + 1 / 2 ^ 150 := by
  rw [sub_eq_add_neg] at h ⊢
  exact is_add hx (is_neg hy) h

/-- The same with a bound on the result, in the reals. -/
theorem err_real {c v : ℚ} {B : ℝ} (h : |c - v| ≤ |v| / 2 ^ 24 + 1 / 2 ^ 150) (hB : |(v : ℝ)| ≤ B) :
    |(c : ℝ) - v| ≤ B * (5961 / 10 ^ 11) + 1 / 10 ^ 40 := by
  have h2 : ((|c - v| : ℚ) : ℝ) ≤ ((|v| / 2 ^ 24 + 1 / 2 ^ 150 : ℚ) : ℝ) := by exact_mod_cast h
  push_cast at h2
  have h0 := abs_nonneg (v : ℝ)
  norm_num at h2 ⊢
  linarith

end F32

/-! ## Constants -/

theorem is_pqM1 : Is (Pq.M1 : F32) (1305 / 8192) := is_const (by decide +kernel)
theorem is_pqM2 : Is (Pq.M2 : F32) (2523 / 32) := is_const (by decide +kernel)
theorem is_pqC1 : Is (Pq.C1 : F32) (107 / 128) := is_const (by decide +kernel)
theorem is_pqC2 : Is (Pq.C2 : F32) (2413 / 128) := is_const (by decide +kernel)
theorem is_pqC3 : Is (Pq.C3 : F32) (299 / 16) := is_const (by decide +kernel)
theorem is_pqL : Is (Pq.L : F32) 10000 := is_const (by decide +kernel)
theorem is_pqOne : Is (FOps.lit 1.0 : F32) 1 := is_const (by decide +kernel)
theorem is_pqN : Is (FOps.div (FOps.lit 1.0) Pq.M2 : F32) (3404651 / 268435456) := is_const (by decide +kernel)
theorem is_pqK : Is (FOps.div (FOps.lit 1.0) Pq.M1 : F32) (13164651 / 2097152) := is_const (by decide +kernel)

variable {ar : Arith F32} (hf : Floats ar)
include hf

/-- `pow` for bases up to 4 and results that are not huge: relatively accurate, or nearly zero. -/
theorem pow_log {x y : F32} {p Y : ℚ} (hx : Is x p) (hg : Good x) (hp : 0 ≤ p) (hp2 : p ≤ 4) (hy : Is y Y)
    (hY : 1 / 100 ≤ Y) (hY2 : Y ≤ 100) (hlog : 0 < p → (Y : ℝ) * Real.log p ≤ 88) : ∃ r : ℚ, Is (ar.pow x y) r ∧
      (((2 : ℚ) ^ (-126 : Int) ≤ p ∧ 0 ≤ r ∧
        |(r : ℝ) - (p : ℝ) ^ (Y : ℝ)| ≤ (43 / 10 ^ 8 + 17 / 10 ^ 8 * (Y : ℝ) * (1 + |Real.log p|)) * (p : ℝ) ^ (Y : ℝ) + 1 / 10 ^ 37) ∨
       (p < (2 : ℚ) ^ (-126 : Int) ∧ |(r : ℝ)| ≤ 101 / 100 * Real.exp (-(87 * Y)) + 1 / 10 ^ 37)) := by
  have hYr : (1 / 100 : ℝ) ≤ Y := by
    have := (Rat.cast_le (K := ℝ)).mpr hY; push_cast at this; exact this
  have hYr2 : (Y : ℝ) ≤ 100 := by exact_mod_cast hY2
  have t1 : (5 : ℝ) / 2 ^ 126 ≤ 1 / 10 ^ 37 := by norm_num
  rcases hx.nonneg hp with rfl | ⟨rfl, rfl⟩
  · obtain ⟨_, hr, _⟩ := hg
    rcases lt_or_ge p ((2 : ℚ) ^ (-126 : Int)) with hs | hn
    · obtain ⟨r, e, r0, hr⟩ := hf.lib.pow.2 hr hp hs hy (by linarith) hY2
      refine ⟨r, ⟨false, r, e, r0, rfl⟩, Or.inr ⟨hs, ?_⟩⟩
      rw [abs_of_nonneg (by exact_mod_cast r0)]
      linarith
    · have hp0 : 0 < p := lt_of_lt_of_le (pow2_pos _) hn
      obtain ⟨r, e, r0, hr⟩ := hf.lib.pow.1 hr hn (lt_of_le_of_lt hp2 (by norm_num)) hy
        (by rw [abs_of_nonneg (by linarith)]; exact hY2) (hlog hp0)
      refine ⟨r, ⟨false, r, e, r0, rfl⟩, Or.inl ⟨hn, r0, ?_⟩⟩
      rw [abs_of_nonneg (by linarith : (0 : ℝ) ≤ Y)] at hr
      linarith
  · obtain ⟨s, r, e, r0, hr⟩ := hf.lib.negzero hy hY hY2
    refine ⟨signed s r, ⟨s, r, e, r0, rfl⟩, Or.inr ⟨pow2_pos _, ?_⟩⟩
    have : |((signed s r : ℚ) : ℝ)| = r := by
      have := signed_abs (s := s) r0
      exact_mod_cast this
    rw [this]
    linarith

/-- `pow` for bases up to 2: relatively accurate, or nearly zero. -/
theorem pow_any {x y : F32} {p Y : ℚ} (hx : Is x p) (hg : Good x) (hp : 0 ≤ p) (hp2 : p ≤ 2) (hy : Is y Y)
    (hY : 1 / 100 ≤ Y) (hY2 : Y ≤ 100) : ∃ r : ℚ, Is (ar.pow x y) r ∧
      (((2 : ℚ) ^ (-126 : Int) ≤ p ∧ 0 ≤ r ∧
        |(r : ℝ) - (p : ℝ) ^ (Y : ℝ)| ≤ (43 / 10 ^ 8 + 17 / 10 ^ 8 * (Y : ℝ) * (1 + |Real.log p|)) * (p : ℝ) ^ (Y : ℝ) + 1 / 10 ^ 37) ∨
       (p < (2 : ℚ) ^ (-126 : Int) ∧ |(r : ℝ)| ≤ 101 / 100 * Real.exp (-(87 * Y)) + 1 / 10 ^ 37)) := by
  refine pow_log hf hx hg hp (hp2.trans (by norm_num)) hy hY hY2 fun hp0 => ?_
  have hYr : (1 / 100 : ℝ) ≤ Y := by
    have := (Rat.cast_le (K := ℝ)).mpr hY; push_cast at this; exact this
  have hYr2 : (Y : ℝ) ≤ 100 := by exact_mod_cast hY2
  have hp0r : (0 : ℝ) < p := by exact_mod_cast hp0
  have hp2r : (p : ℝ) ≤ 2 := by exact_mod_cast hp2
  have : Real.log p ≤ 7 / 10 := (Real.log_le_log hp0r hp2r).trans log_two_le
  nlinarith

/-! ## From light to the signal -/

omit hf in
theorem exp_138 : Real.exp (-(138 / 10)) ≤ 103 / 10 ^ 8 := by
  have h1 : Real.exp (-(138 / 10)) ^ 5 = Real.exp (-69) := by rw [← Real.exp_nat_mul]; congr 1; norm_num
  have h2 : (27182 / 10000 : ℝ) ^ 69 ≤ Real.exp 69 := by
    have : Real.exp 69 = Real.exp 1 ^ 69 := by rw [← Real.exp_nat_mul]; norm_num
    rw [this]
    exact pow_le_pow_left₀ (by norm_num) (by have := Real.exp_one_gt_d9; norm_num at this ⊢; linarith) 69
  have h3 : Real.exp (-69) ≤ (103 / 10 ^ 8) ^ 5 := by
    rw [Real.exp_neg]
    refine inv_le_of_inv_le₀ (by positivity) (le_trans ?_ h2)
    norm_num
  exact le_of_pow_le_pow_left₀ (by norm_num) (by norm_num) (h1.trans_le h3)

/-- `(light / 10000) ^ m1`. -/
theorem pq_root {m : F32} {X : ℚ} (hm : Is m X) (hgm : Good m) (h0 : 0 ≤ X) (h1 : X ≤ 10000) :
    ∃ Y : ℚ, Is (ar.pow (ar.div m Pq.L) Pq.M1) Y ∧ |(Y : ℝ) - ((X : ℝ) / 10000) ^ (0.15930176 : ℝ)| ≤ 21 / 10 ^ 7 := by
  rw [hf.div]
  have hq0 : 0 ≤ X / 10000 := by positivity
  have hq1 : X / 10000 ≤ 1 := by linarith
  obtain ⟨c, hc, hce⟩ := F32.is_div hm is_pqL (by norm_num) (by rw [abs_of_nonneg hq0]; linarith)
  have hgd : Good (F32.div m Pq.L) := good_div hgm (good_lit _)
  have hcerr := hce
  rw [abs_of_nonneg hq0] at hce
  -- the quotient is between 0 and 1
  have hc01 : 0 ≤ c ∧ c ≤ 1 := by
    have e : Pq.L = (fin false 10000 : F32) := is_pqL.pos (by norm_num)
    rcases hm.nonneg h0 with rfl | ⟨rfl, rfl⟩
    · rw [e] at hc
      have e2 : F32.div (fin false X) (fin false 10000) = round false (X / 10000) := by
        simp only [F32.div, if_neg (show (10000 : ℚ) ≠ 0 by norm_num)]; rfl
      rw [e2, round_eq, if_neg] at hc
      · obtain ⟨s, p, e3, hp, e4⟩ := hc
        injection e3 with e5 e6
        subst e5 e6
        rw [← e4]
        exact ⟨rnd_nonneg hq0, by exact_mod_cast rnd_le_nat (n := 1) hq0 (by norm_num) (by exact_mod_cast hq1)⟩
      · rw [limit_eq, not_le]
        exact lt_of_le_of_lt (rnd_le_binade (e := 0) hq0 (by norm_num) (by simpa using hq1)) (by norm_num)
    · rw [e] at hc
      have e2 : F32.div (fin true 0) (fin false 10000) = fin true 0 := by decide +kernel
      rw [e2] at hc
      obtain ⟨s, p, e3, hp, e4⟩ := hc
      injection e3 with e5 e6
      subst e5 e6
      rw [← e4]; simp [signed]
  obtain ⟨Y, hY, hcase⟩ := pow_any hf hc hgd hc01.1 (by linarith [hc01.2]) is_pqM1 (by norm_num) (by norm_num)
  refine ⟨Y, hY, ?_⟩
  have eM : (((1305 / 8192 : ℚ)) : ℝ) = 1305 / 8192 := by push_cast; rfl
  rw [eM] at hcase
  set q : ℝ := (X : ℝ) / 10000 with hq
  have hq0r : 0 ≤ q := by rw [hq]; have : (0 : ℝ) ≤ X := by exact_mod_cast h0
                          positivity
  have hq1r : q ≤ 1 := by
    have : (X : ℝ) ≤ 10000 := by exact_mod_cast h1
    rw [hq]; linarith
  have hcer : |(c : ℝ) - q| ≤ q / 2 ^ 24 + 1 / 2 ^ 150 := by
    have : ((|c - X / 10000| : ℚ) : ℝ) ≤ ((X / 10000 / 2 ^ 24 + 1 / 2 ^ 150 : ℚ) : ℝ) := by exact_mod_cast hce
    push_cast at this
    exact this
  rcases hcase with ⟨hn, Y0, hYe⟩ | ⟨hs, hYe⟩
  · have hnr : (2 : ℝ) ^ (-126 : Int) ≤ c := by
      have := (Rat.cast_le (K := ℝ)).mpr hn; push_cast at this; exact this
    have hcp : (0 : ℝ) < c := lt_of_lt_of_le (by positivity) hnr
    have hc1 : (c : ℝ) ≤ 1 := by exact_mod_cast hc01.2
    have hqn : (2 : ℝ) ^ (-127 : Int) ≤ q := by
      rw [abs_le] at hcer
      norm_num at hcer hnr ⊢
      linarith [hcer.2]
    have hqp : 0 < q := lt_of_lt_of_le (by positivity) hqn
    have e1 := pow_error_unit hcp hc1 (Y := 1305 / 8192) (by norm_num)
    have p0 := Real.rpow_pos_of_pos hcp (1305 / 8192 : ℝ)
    have p1 : (c : ℝ) ^ (1305 / 8192 : ℝ) ≤ 1 := Real.rpow_le_one hcp.le hc1 (by norm_num)
    have e2 := rpow_exponent (Y := 1305 / 8192) (Z := 0.15930176) (c := 0.15) hcp hc1 (by norm_num) (by norm_num) (by norm_num)
    have e2' : |(1305 / 8192 : ℝ) - 0.15930176| / 0.15 ≤ 2 / 10 ^ 8 := by
      have h : |(1305 / 8192 : ℝ) - 0.15930176| ≤ 22 / 10 ^ 10 := by rw [abs_le]; constructor <;> norm_num
      rw [div_le_iff₀ (by norm_num)]
      refine h.trans (by norm_num)
    have e3 := rpow_rel_root (p := c) (q := q) (M := 0.15930176) (d := 2 / 10 ^ 7) hqp hcp (by norm_num) (by norm_num) (by
      refine hcer.trans ?_
      norm_num at hqn ⊢
      linarith)
    have p2 : q ^ (0.15930176 : ℝ) ≤ 1 := Real.rpow_le_one hqp.le hq1r (by norm_num)
    have e2'' := e2.trans e2'
    rw [abs_le] at *
    norm_num at hYe e1 e2'' e3 ⊢
    constructor <;> linarith [hYe.1, hYe.2, e2''.1, e2''.2, e3.1, e3.2]
  · have hsr : (c : ℝ) < (2 : ℝ) ^ (-126 : Int) := by
      have := (Rat.cast_lt (K := ℝ)).mpr hs; push_cast at this; exact this
    have hqs : q ≤ (2 : ℝ) ^ (-125 : Int) := by
      rw [abs_le] at hcer
      norm_num at hcer hsr ⊢
      linarith [hcer.1]
    have hx1 : q ^ (0.15930176 : ℝ) ≤ 103 / 10 ^ 8 := by
      calc q ^ (0.15930176 : ℝ) ≤ ((2 : ℝ) ^ (-125 : Int)) ^ (0.15930176 : ℝ) := Real.rpow_le_rpow hq0r hqs (by norm_num)
        _ = Real.exp (-125 * Real.log 2 * 0.15930176) := by
          rw [Real.rpow_def_of_pos (by positivity), Real.log_zpow]; push_cast; rfl
        _ ≤ Real.exp (-(138 / 10)) := by
          refine Real.exp_le_exp.mpr ?_
          have := Real.log_two_gt_d9
          norm_num at this ⊢
          linarith
        _ ≤ _ := exp_138
    have hx0 : 0 ≤ q ^ (0.15930176 : ℝ) := Real.rpow_nonneg hq0r _
    have hE : Real.exp (-(87 * (1305 / 8192 : ℝ))) ≤ 103 / 10 ^ 8 :=
      (Real.exp_le_exp.mpr (by norm_num)).trans exp_138
    rw [abs_le] at *
    norm_num at hYe hE hx1 ⊢
    constructor <;> linarith [hYe.1, hYe.2]

omit hf in
/-- Relative errors of a quotient. -/
theorem div_rel {a b A B d e k : ℝ} (hA : 0 < A) (hB : 0 < B) (hb : 0 < b) (ha : |a - A| ≤ d * A) (hbB : |b - B| ≤ e * B)
    (hk0 : 0 ≤ k) (hk1 : k ≤ 1) (h1 : 1 + d ≤ (1 + k) * (1 - e)) (h2 : (1 - k) * (1 + e) ≤ 1 - d) :
    |a / b - A / B| ≤ k * (A / B) := by
  have hq : 0 < A / B := by positivity
  have hqB : A / B * B = A := by field_simp
  rw [abs_le] at *
  have u : a / b ≤ (1 + k) * (A / B) := by
    rw [div_le_iff₀ hb]
    have : (1 + k) * (A / B) * ((1 - e) * B) ≤ (1 + k) * (A / B) * b :=
      mul_le_mul_of_nonneg_left (by linarith [hbB.1]) (by positivity)
    have e1 : (1 + k) * (A / B) * ((1 - e) * B) = (1 + k) * (1 - e) * A := by rw [← hqB]; field_simp
    nlinarith [ha.2]
  have l : (1 - k) * (A / B) ≤ a / b := by
    rw [le_div_iff₀ hb]
    have : (1 - k) * (A / B) * b ≤ (1 - k) * (A / B) * ((1 + e) * B) :=
      mul_le_mul_of_nonneg_left (by linarith [hbB.2]) (mul_nonneg (by linarith) hq.le)
    have e1 : (1 - k) * (A / B) * ((1 + e) * B) = (1 - k) * (1 + e) * A := by rw [← hqB]; field_simp
    nlinarith [ha.1]
  constructor <;> linarith

omit hf in
/-- `y * c + d`, with two roundings. -/
theorem fma_rel {y c d : F32} {Y C D : ℚ} (hy : Is y Y) (hc : Is c C) (hd : Is d D) (hA : 1 / 2 ≤ (Y : ℝ) * C + D)
    (hA2 : (Y : ℝ) * C + D ≤ 1000) (hYC : |(Y : ℝ) * C| ≤ Y * C + D) :
    ∃ a : ℚ, Is (F32.add (F32.mul y c) d) a ∧ |(a : ℝ) - (Y * C + D)| ≤ 12 / 10 ^ 8 * (Y * C + D) := by
  set A : ℝ := Y * C + D with hAd
  have b1 : |Y * C| ≤ 2 ^ 100 := by
    have : ((|Y * C| : ℚ) : ℝ) ≤ ((2 ^ 100 : ℚ) : ℝ) := by
      push_cast
      refine hYC.trans (hA2.trans ?_)
      norm_num
    exact_mod_cast this
  obtain ⟨m, hm, hme⟩ := F32.is_mul hy hc b1
  have e1 := err_real hme (B := A) (by push_cast; exact hYC)
  push_cast at e1
  have e1b : |(m : ℝ) + D - A| ≤ A * (6 / 10 ^ 8) := by
    have : (m : ℝ) + D - A = m - Y * C := by rw [hAd]; ring
    rw [this]
    refine e1.trans ?_
    norm_num
    linarith
  have e1c : |((m + D : ℚ) : ℝ)| ≤ A * (1 + 6 / 10 ^ 8) := by
    push_cast
    rw [abs_le] at *
    constructor <;> linarith [e1b.1, e1b.2]
  have b2 : |m + D| ≤ 2 ^ 100 := by
    have : ((|m + D| : ℚ) : ℝ) ≤ ((2 ^ 100 : ℚ) : ℝ) := by
      push_cast at e1c ⊢
      refine e1c.trans ?_
      norm_num
      linarith
    exact_mod_cast this
  obtain ⟨a, ha, hae⟩ := F32.is_add hm hd b2
  refine ⟨a, ha, ?_⟩
  have e2 := err_real hae e1c
  push_cast at e2
  rw [abs_le] at *
  norm_num at e2 e1b ⊢
  constructor <;> linarith [e2.1, e2.2, e1b.1, e1b.2]

omit hf in
/-- The base of the second power. -/
theorem pq_base {y : F32} {Y : ℚ} (hY : Is y Y) (y0 : -3 / 10 ^ 6 ≤ (Y : ℝ)) (y1 : (Y : ℝ) ≤ 123 / 100) :
    ∃ c : ℚ, Is (F32.div (F32.add (F32.mul y Pq.C2) Pq.C1) (F32.add (F32.mul y Pq.C3) (lit 1.0))) c ∧
      Good (F32.div (F32.add (F32.mul y Pq.C2) Pq.C1) (F32.add (F32.mul y Pq.C3) (lit 1.0))) ∧
      |(c : ℝ) - pqF Y| ≤ 333 / 10 ^ 9 * pqF Y := by
  -- numerator and denominator
  obtain ⟨a, ha, hae⟩ := fma_rel hY is_pqC2 is_pqC1 (by push_cast; norm_num at y0 ⊢; linarith)
    (by push_cast; norm_num at y1 ⊢; linarith) (by
      push_cast; rw [abs_le]; constructor <;> norm_num at y0 y1 ⊢ <;> linarith)
  obtain ⟨b, hb, hbe⟩ := fma_rel hY is_pqC3 is_pqOne (by push_cast; norm_num at y0 ⊢; linarith)
    (by push_cast; norm_num at y1 ⊢; linarith) (by
      push_cast; rw [abs_le]; constructor <;> norm_num at y0 y1 ⊢ <;> linarith)
  have hga := good_add_any (F32.mul y Pq.C2) Pq.C1
  have hgb := good_add_any (F32.mul y Pq.C3) (FOps.lit 1.0)
  generalize F32.add (F32.mul y Pq.C2) Pq.C1 = na at *
  generalize F32.add (F32.mul y Pq.C3) (FOps.lit 1.0) = nb at *
  push_cast at hae hbe
  set A : ℝ := (Y : ℝ) * 18.851563 + 0.8359375 with hA
  set B : ℝ := (Y : ℝ) * 18.6875 + 1 with hB
  have A0 : 83 / 100 < A := by rw [hA]; norm_num at y0 ⊢; linarith
  have B0 : 99 / 100 < B := by rw [hB]; norm_num at y0 ⊢; linarith
  have B1 : B ≤ 24 := by rw [hB]; norm_num at y1 ⊢; linarith
  have ha2 : |(a : ℝ) - A| ≤ 15 / 10 ^ 8 * A := by
    rw [abs_le] at hae ⊢
    rw [hA]
    norm_num at hae y0 y1 ⊢
    constructor <;> linarith [hae.1, hae.2]
  have hb2 : |(b : ℝ) - B| ≤ 12 / 10 ^ 8 * B := by
    rw [hB]
    norm_num at hbe ⊢
    exact hbe
  have b0 : (98 / 100 : ℝ) < b := by
    rw [abs_le] at hb2; norm_num at hb2 ⊢; linarith [hb2.1]
  have hq := div_rel (k := 272 / 10 ^ 9) (by linarith) (by linarith) (by linarith) ha2 hb2 (by norm_num) (by norm_num) (by norm_num)
    (by norm_num)
  obtain ⟨f0, f1⟩ := pqF_wide y0 y1
  have hF : A / B = pqF Y := by rw [hA, hB]; rfl
  rw [hF] at hq
  have bq : (0 : ℚ) < b := by
    have : (0 : ℝ) < b := by linarith
    exact_mod_cast this
  have hqa : |((a / b : ℚ) : ℝ)| ≤ pqF Y * (1 + 272 / 10 ^ 9) := by
    push_cast
    rw [abs_le] at *
    constructor <;> linarith [hq.1, hq.2]
  obtain ⟨c, hc, hce⟩ := F32.is_div ha hb bq (by
    have : ((|a / b| : ℚ) : ℝ) ≤ ((2 ^ 100 : ℚ) : ℝ) := by
      push_cast at hqa ⊢
      refine hqa.trans ?_
      norm_num at f1 ⊢
      linarith
    exact_mod_cast this)
  refine ⟨c, hc, good_div hga hgb, ?_⟩
  have e3 := err_real hce hqa
  push_cast at e3
  rw [abs_le] at *
  norm_num at e3 hq ⊢
  constructor <;> linarith [e3.1, e3.2, hq.1, hq.2]

omit hf in
theorem pqF_mono {y z : ℝ} (h0 : -3 / 10 ^ 6 ≤ y) (h : y ≤ z) : pqF y ≤ pqF z := by
  unfold pqF
  rw [div_le_div_iff₀ (by norm_num at h0 ⊢; linarith) (by norm_num at h0 ⊢; linarith)]
  norm_num
  linarith

omit hf in
theorem pq_slope_abs {Y t : ℝ} (y0 : -3 / 10 ^ 6 ≤ Y) (y1 : Y ≤ 1 + 3 / 10 ^ 6) (t0 : 0 ≤ t) (t1 : t ≤ 1)
    (h : |Y - t| ≤ 21 / 10 ^ 7) : |pqF Y ^ (78.84375 : ℝ) - pqF t ^ (78.84375 : ℝ)| ≤ 42 / 10 ^ 7 := by
  have tn : -3 / 10 ^ 6 ≤ t := le_trans (by norm_num) t0
  have tp : t ≤ 1 + 3 / 10 ^ 6 := t1.trans (by norm_num)
  rw [abs_le] at h
  rcases le_total Y t with hle | hle
  · have h1 := pq_slope y0 hle tp (by norm_num at h ⊢; linarith [h.1])
    have hmono := Real.rpow_le_rpow (by linarith [(pqF_bounds y0 y1).1]) (pqF_mono y0 hle) (show (0 : ℝ) ≤ 78.84375 by norm_num)
    rw [abs_sub_comm, abs_of_nonneg (by linarith)]
    norm_num at h h1 ⊢
    linarith [h.1]
  · have h1 := pq_slope tn hle y1 (by norm_num at h ⊢; linarith [h.2])
    have hmono := Real.rpow_le_rpow (by linarith [(pqF_bounds tn tp).1]) (pqF_mono tn hle) (show (0 : ℝ) ≤ 78.84375 by norm_num)
    rw [abs_of_nonneg (by linarith)]
    norm_num at h h1 ⊢
    linarith [h.2]

/-- The second power. -/
theorem pq_second_rel {base : F32} {c : ℚ} {F : ℝ} (hc : Is base c) (hgc : Good base) (f0 : 83585 / 100000 ≤ F)
    (f1 : F ≤ 1 + 2 / 1000) (hcF : |(c : ℝ) - F| ≤ 333 / 10 ^ 9 * F) :
    App (ar.pow base Pq.M2) (F ^ (78.84375 : ℝ)) (429 / 10 ^ 7 * F ^ (78.84375 : ℝ) + 1 / 10 ^ 30) := by
  have c0 : 8355 / 10000 ≤ (c : ℝ) := by
    rw [abs_le] at hcF; norm_num at hcF f0 ⊢; linarith [hcF.1]
  have c1 : (c : ℝ) ≤ 1 + 3 / 1000 := by
    rw [abs_le] at hcF; norm_num at hcF f1 ⊢; linarith [hcF.2]
  have c0q : 8355 / 10000 ≤ c := by
    have : ((8355 / 10000 : ℚ) : ℝ) ≤ c := by push_cast; exact c0
    exact_mod_cast this
  have c1q : c ≤ 2 := by
    have : (c : ℝ) ≤ ((2 : ℚ) : ℝ) := by push_cast; norm_num at c1; linarith
    exact_mod_cast this
  obtain ⟨r, hr, hcase⟩ := pow_any hf hc hgc (by linarith) c1q is_pqM2 (by norm_num) (by norm_num)
  have hcp : (0 : ℝ) < c := by linarith
  rcases hcase with ⟨-, r0, hre⟩ | ⟨hs, -⟩
  · have eM : (((2523 / 32 : ℚ)) : ℝ) = 78.84375 := by norm_num
    rw [eM] at hre
    have hlog : |Real.log c| ≤ 2 / 10 := by
      have l1 := Real.one_sub_inv_le_log_of_pos hcp
      have l2 := Real.log_le_sub_one_of_pos hcp
      have : (c : ℝ)⁻¹ ≤ 12 / 10 := by
        rw [inv_le_comm₀ hcp (by norm_num)]; norm_num; linarith
      rw [abs_le]
      norm_num at c1
      constructor <;> linarith
    have hco : 43 / 10 ^ 8 + 17 / 10 ^ 8 * (78.84375 : ℝ) * (1 + |Real.log c|) ≤ 166 / 10 ^ 7 := by
      norm_num; linarith
    set W := F ^ (78.84375 : ℝ) with hW
    have hFp : 0 < F := by linarith
    have hpr := rpow_rel (M := 78.84375) (d := 333 / 10 ^ 9) hFp hcp (by norm_num) (by norm_num) hcF
    rw [← hW] at hpr
    have W0 : 0 < W := Real.rpow_pos_of_pos hFp _
    obtain ⟨s, p, e, p0, es⟩ := hr
    refine ⟨s, p, e, p0, ?_⟩
    rw [es]
    set V := (c : ℝ) ^ (78.84375 : ℝ) with hV
    have V0 : 0 < V := Real.rpow_pos_of_pos hcp _
    have hco2 := mul_le_mul_of_nonneg_right hco V0.le
    rw [abs_le] at *
    norm_num at hre hpr hco2 ⊢
    constructor <;> linarith [hre.1, hre.2, hpr.1, hpr.2]
  · exfalso
    have : (2 : ℚ) ^ (-126 : Int) < 1 / 2 := by norm_num
    exact absurd (hs.trans this) (not_lt.mpr (le_trans (by norm_num) c0q))

theorem pq_second {base : F32} {c : ℚ} {F : ℝ} (hc : Is base c) (hgc : Good base) (f0 : 83585 / 100000 ≤ F) (f1 : F ≤ 1 + 6 / 10 ^ 8)
    (hcF : |(c : ℝ) - F| ≤ 333 / 10 ^ 9 * F) : App (ar.pow base Pq.M2) (F ^ (78.84375 : ℝ)) (43 / 10 ^ 6) := by
  refine (pq_second_rel hf hc hgc f0 (f1.trans (by norm_num)) hcF).mono ?_
  have W1 : F ^ (78.84375 : ℝ) ≤ 1 + 1 / 10 ^ 5 := by
    calc F ^ (78.84375 : ℝ) ≤ (1 + 6 / 10 ^ 8) ^ (78.84375 : ℝ) := Real.rpow_le_rpow (by linarith) f1 (by norm_num)
      _ ≤ (1 + 6 / 10 ^ 8) ^ ((79 : ℕ) : ℝ) := Real.rpow_le_rpow_of_exponent_le (by norm_num) (by norm_num)
      _ = (1 + 6 / 10 ^ 8) ^ (79 : ℕ) := Real.rpow_natCast _ _
      _ ≤ _ := by norm_num
  norm_num at W1 ⊢
  linarith

/-- The error of the PQ encoder is at most 5·10⁻⁵. -/
theorem enc_pq_max {x : F32} {X : ℚ} (hm : Is (ar.max x (lit 0.0)) X) (hg : Good (ar.max x (lit 0.0))) (h0 : 0 ≤ X) (h1 : X ≤ 10000) :
    App (encodeTransfer ar .BT2100PQ x) (pqF (((X : ℝ) / 10000) ^ (0.15930176 : ℝ)) ^ (78.84375 : ℝ)) (5 / 10 ^ 5) := by
  obtain ⟨Y, hY, hYe⟩ := pq_root hf hm hg h0 h1
  simp only [encodeTransfer, pqEncode]
  generalize ar.pow (ar.div (ar.max x (FOps.lit 0.0)) Pq.L) Pq.M1 = y at hY ⊢
  rw [hf.div, hf.add, hf.mul]
  set t : ℝ := ((X : ℝ) / 10000) ^ (0.15930176 : ℝ) with ht
  have hX0 : (0 : ℝ) ≤ (X : ℝ) / 10000 := by
    have : (0 : ℝ) ≤ X := by exact_mod_cast h0
    positivity
  have hX1 : (X : ℝ) / 10000 ≤ 1 := by
    have : (X : ℝ) ≤ 10000 := by exact_mod_cast h1
    linarith
  have t0 : 0 ≤ t := Real.rpow_nonneg hX0 _
  have t1 : t ≤ 1 := Real.rpow_le_one hX0 hX1 (by norm_num)
  have hYe' := hYe
  rw [abs_le] at hYe'
  have y0 : -3 / 10 ^ 6 ≤ (Y : ℝ) := by norm_num at hYe' ⊢; linarith [hYe'.1]
  have y1 : (Y : ℝ) ≤ 1 + 3 / 10 ^ 6 := by norm_num at hYe' ⊢; linarith [hYe'.2]
  obtain ⟨c, hc, hgc, hcF⟩ := pq_base hY y0 (y1.trans (by norm_num))
  obtain ⟨f0, f1⟩ := pqF_bounds y0 y1
  obtain ⟨s, p, e, p0, hp⟩ := pq_second hf hc hgc f0 f1 hcF
  have hs := pq_slope_abs y0 y1 t0 t1 hYe
  refine ⟨s, p, e, p0, ?_⟩
  rw [abs_le] at *
  norm_num at hp hs ⊢
  constructor <;> linarith [hp.1, hp.2, hs.1, hs.2]

theorem enc_pq_app {x : F32} {X : ℚ} (hx : Is x X) (hg : Good x) (h0 : 0 ≤ X) (h1 : X ≤ 10000) :
    App (encodeTransfer ar .BT2100PQ x) (pqF (((X : ℝ) / 10000) ^ (0.15930176 : ℝ)) ^ (78.84375 : ℝ)) (5 / 10 ^ 5) := by
  obtain ⟨hm, hgm⟩ := max_is hf hx hg
  rw [max_eq_left h0] at hm
  exact enc_pq_max hf hm hgm h0 h1

/-! ## From the signal to light -/

omit hf in
theorem exp_11 : Real.exp (-(11 / 10)) ≤ 37 / 100 := by
  have h := Real.quadratic_le_exp_of_nonneg (show (0 : ℝ) ≤ 11 / 10 by norm_num)
  rw [Real.exp_neg]
  refine inv_le_of_inv_le₀ (by norm_num) (le_trans ?_ h)
  norm_num

/-- `signal ^ (1/m2)`: accurate, or both are far below `c1`. -/
theorem pq_inner {m : F32} {X : ℚ} (hm : Is m X) (hgm : Good m) (h0 : 0 ≤ X) (h1 : X ≤ 1) :
    ∃ P : ℚ, Is (ar.pow m (FOps.div (lit 1.0) Pq.M2)) P ∧
      ((|(P : ℝ) - (X : ℝ) ^ (1 / 78.84375 : ℝ)| ≤ 48 / 10 ^ 8) ∨ (|(P : ℝ)| ≤ 4 / 10 ∧ (X : ℝ) ^ (1 / 78.84375 : ℝ) ≤ 4 / 10)) := by
  obtain ⟨P, hP, hcase⟩ := pow_any hf hm hgm h0 (by linarith) is_pqN (by norm_num) (by norm_num)
  refine ⟨P, hP, ?_⟩
  have hX0 : (0 : ℝ) ≤ X := by exact_mod_cast h0
  have hX1 : (X : ℝ) ≤ 1 := by exact_mod_cast h1
  rcases hcase with ⟨hn, P0, hPe⟩ | ⟨hs, hPe⟩
  · left
    have hcp : (0 : ℝ) < X := by exact_mod_cast lt_of_lt_of_le (pow2_pos _) hn
    have eN : ((3404651 / 268435456 : ℚ) : ℝ) = 3404651 / 268435456 := by push_cast; rfl
    rw [eN] at hPe
    have e1 := pow_error_unit hcp hX1 (Y := 3404651 / 268435456) (by norm_num)
    have p0 := Real.rpow_pos_of_pos hcp (3404651 / 268435456 : ℝ)
    have p1 : (X : ℝ) ^ (3404651 / 268435456 : ℝ) ≤ 1 := Real.rpow_le_one hcp.le hX1 (by norm_num)
    have e2 := rpow_exponent (Y := 3404651 / 268435456) (Z := 1 / 78.84375) (c := 0.0126) hcp hX1 (by norm_num) (by norm_num)
      (by norm_num)
    have e2' : |(3404651 / 268435456 : ℝ) - 1 / 78.84375| / 0.0126 ≤ 2 / 10 ^ 8 := by
      have h : |(3404651 / 268435456 : ℝ) - 1 / 78.84375| ≤ 2 / 10 ^ 10 := by rw [abs_le]; constructor <;> norm_num
      rw [div_le_iff₀ (by norm_num)]
      refine h.trans (by norm_num)
    have e2'' := e2.trans e2'
    rw [abs_le] at *
    norm_num at hPe e1 e2'' ⊢
    constructor <;> linarith [hPe.1, hPe.2, e2''.1, e2''.2]
  · right
    have hE : Real.exp (-(87 * ((3404651 / 268435456 : ℚ) : ℝ))) ≤ 37 / 100 :=
      (Real.exp_le_exp.mpr (by push_cast; norm_num)).trans exp_11
    constructor
    · norm_num at hPe hE ⊢; linarith
    · have hsr : (X : ℝ) ≤ (2 : ℝ) ^ (-126 : Int) := by
        have := (Rat.cast_le (K := ℝ)).mpr hs.le; push_cast at this; exact this
      calc (X : ℝ) ^ (1 / 78.84375 : ℝ) ≤ ((2 : ℝ) ^ (-126 : Int)) ^ (1 / 78.84375 : ℝ) := Real.rpow_le_rpow hX0 hsr (by norm_num)
        _ = Real.exp (-126 * Real.log 2 * (1 / 78.84375)) := by
          rw [Real.rpow_def_of_pos (by positivity), Real.log_zpow]; push_cast; rfl
        _ ≤ Real.exp (-(11 / 10)) := by
          refine Real.exp_le_exp.mpr ?_
          have := Real.log_two_gt_d9
          norm_num at this ⊢
          linarith
        _ ≤ _ := exp_11.trans (by norm_num)

/-- `signal ^ (1/m2)` for signals that are brighter than the brightest by rounding. -/
theorem pq_inner_over {m : F32} {X : ℚ} (hm : Is m X) (hgm : Good m) (h0 : 1 ≤ X) (h1 : X ≤ 1 + 3 / 10 ^ 6) :
    ∃ P : ℚ, Is (ar.pow m (FOps.div (lit 1.0) Pq.M2)) P ∧ |(P : ℝ) - 1| ≤ 48 / 10 ^ 8 := by
  obtain ⟨P, hP, hcase⟩ := pow_any hf hm hgm (by linarith) (by norm_num at h1; linarith) is_pqN (by norm_num) (by norm_num)
  refine ⟨P, hP, ?_⟩
  have hX0 : (1 : ℝ) ≤ X := by exact_mod_cast h0
  have hX1 : (X : ℝ) ≤ 1 + 3 / 10 ^ 6 := by
    have := (Rat.cast_le (K := ℝ)).mpr h1; push_cast at this; exact this
  rcases hcase with ⟨-, P0, hPe⟩ | ⟨hs, -⟩
  · have eN : ((3404651 / 268435456 : ℚ) : ℝ) = 3404651 / 268435456 := by push_cast; rfl
    rw [eN] at hPe
    have hl0 : 0 ≤ Real.log X := Real.log_nonneg hX0
    have hl1 : Real.log X ≤ 3 / 10 ^ 6 := by have := Real.log_le_sub_one_of_pos (show (0 : ℝ) < X by linarith); linarith
    rw [abs_of_nonneg hl0] at hPe
    have p1 : 1 ≤ (X : ℝ) ^ (3404651 / 268435456 : ℝ) := Real.one_le_rpow hX0 (by norm_num)
    have p2 : (X : ℝ) ^ (3404651 / 268435456 : ℝ) ≤ 1 + 4 / 10 ^ 8 := by
      refine (show (X : ℝ) ^ (3404651 / 268435456 : ℝ) ≤ 1 + 3404651 / 268435456 * ((X : ℝ) - 1) by
        have := rpow_one_add_le_one_add_mul_self (s := (X : ℝ) - 1) (p := 3404651 / 268435456) (by linarith) (by norm_num) (by norm_num)
        rwa [add_sub_cancel] at this).trans ?_
      norm_num at hX1 ⊢
      linarith
    generalize (X : ℝ) ^ (3404651 / 268435456 : ℝ) = W at *
    have co : 43 / 10 ^ 8 + 17 / 10 ^ 8 * (3404651 / 268435456 : ℝ) * (1 + Real.log X) ≤ 433 / 10 ^ 9 := by
      norm_num at hl1 ⊢; linarith
    have co2 := mul_le_mul co p2 (by linarith) (by norm_num)
    have := hPe.trans (add_le_add_left co2 _)
    rw [abs_le] at this ⊢
    norm_num at this p2 ⊢
    constructor <;> linarith [this.1, this.2]
  · exfalso
    have : (2 : ℚ) ^ (-126 : Int) < 1 := by norm_num
    linarith

omit hf in
/-- Numerator and denominator inside the PQ decoder. -/
theorem pq_parts {x : F32} {P : ℚ} (hP : Is x P) (h0 : -1 ≤ (P : ℝ)) (h1 : (P : ℝ) ≤ 2) :
    ∃ a b : ℚ, Is (F32.sub x Pq.C1) a ∧ Is (F32.sub Pq.C2 (F32.mul x Pq.C3)) b ∧
      |(a : ℝ) - (P - 0.8359375)| ≤ |(P : ℝ) - 0.8359375| * (6 / 10 ^ 8) + 1 / 10 ^ 40 ∧
      |(b : ℝ) - (18.851563 - P * 18.6875)| ≤
        |(P : ℝ) * 18.6875| * (6 / 10 ^ 8) + |18.851563 - (P : ℝ) * 18.6875| * (6 / 10 ^ 8) + 51 / 10 ^ 8 := by
  have P0 : -1 ≤ P := by exact_mod_cast h0
  have P1 : P ≤ 2 := by exact_mod_cast h1
  obtain ⟨a, ha, hae⟩ := F32.is_sub hP is_pqC1 (by rw [abs_le]; constructor <;> norm_num <;> linarith)
  obtain ⟨m, hm, hme⟩ := F32.is_mul hP is_pqC3 (by rw [abs_le]; constructor <;> norm_num <;> linarith)
  have m1 := err_real hme (le_refl _)
  push_cast at m1
  have mb : |(m : ℝ)| ≤ 40 := by
    have h38 : |(P : ℝ) * (299 / 16)| ≤ 38 := by rw [abs_le]; constructor <;> linarith
    have m2 := err_real hme (B := 38) (by push_cast; exact h38)
    push_cast at m2
    rw [abs_le] at m2 h38 ⊢
    norm_num at m2 h38 ⊢
    constructor <;> linarith [m2.1, m2.2, h38.1, h38.2]
  obtain ⟨b, hb, hbe⟩ := F32.is_sub is_pqC2 hm (by
    have : ((|2413 / 128 - m| : ℚ) : ℝ) ≤ ((2 ^ 100 : ℚ) : ℝ) := by
      push_cast
      rw [abs_le] at mb ⊢
      constructor <;> norm_num <;> linarith [mb.1, mb.2]
    exact_mod_cast this)
  refine ⟨a, b, ha, hb, ?_, ?_⟩
  · have a1 := err_real hae (le_refl _)
    push_cast at a1
    have e : (107 / 128 : ℝ) = 0.8359375 := by norm_num
    rw [e] at a1
    refine a1.trans ?_
    have := abs_nonneg ((P : ℝ) - 0.8359375)
    linarith
  · have b1 := err_real hbe (le_refl _)
    push_cast at b1
    have e : (299 / 16 : ℝ) = 18.6875 := by norm_num
    rw [e] at m1
    set U := |(P : ℝ) * 18.6875| with hU
    have U0 : 0 ≤ U := abs_nonneg _
    have U1 : U ≤ 38 := by rw [hU, abs_le]; constructor <;> norm_num <;> linarith
    have hd : |(2413 / 128 - m : ℝ) - (18.851563 - P * 18.6875)| ≤ U * (5961 / 10 ^ 11) + 501 / 10 ^ 9 := by
      have e3 : (2413 / 128 - m : ℝ) - (18.851563 - P * 18.6875) = (P * 18.6875 - m) - 5 / 10 ^ 7 := by norm_num; ring
      rw [e3]
      rw [abs_le] at m1 ⊢
      norm_num at m1 ⊢
      constructor <;> linarith [m1.1, m1.2]
    have hV : |(2413 / 128 - m : ℝ)| ≤ |18.851563 - (P : ℝ) * 18.6875| + (U * (5961 / 10 ^ 11) + 501 / 10 ^ 9) := by
      have := abs_sub_abs_le_abs_sub (2413 / 128 - m : ℝ) (18.851563 - P * 18.6875)
      linarith
    have V0 := abs_nonneg (18.851563 - (P : ℝ) * 18.6875)
    generalize |18.851563 - (P : ℝ) * 18.6875| = V at *
    have b2 : |(b : ℝ) - (2413 / 128 - m)| ≤ V * (5961 / 10 ^ 11) + 1 / 10 ^ 11 := by
      refine b1.trans ?_
      norm_num at hV ⊢
      linarith
    rw [abs_le] at *
    norm_num at b2 hd ⊢
    constructor <;> linarith [b2.1, b2.2, hd.1, hd.2]

omit hf in
theorem pq_quotient {a b α β : ℝ} (α0 : 1 / 100 ≤ α) (α1 : α ≤ 0.1640625) (eβ : β = 3.22998096875 - 18.6875 * α)
    (β0 : 164 / 1000 ≤ β) (apos : 0 < a) (bpos : 0 < b) (ha3 : -(491 / 10 ^ 9) ≤ a - α ∧ a - α ≤ 491 / 10 ^ 9)
    (hb3 : -(1082 / 10 ^ 8) ≤ b - β ∧ b - β ≤ 1082 / 10 ^ 8) : |a / b - α / β| ≤ 731 / 10 ^ 7 * (α / β) := by
  have hprod : 0 ≤ (α - 1 / 100) * (0.1640625 - α) := mul_nonneg (by linarith) (by linarith)
  have hαβ : α * β = 3.22998096875 * α - 18.6875 * (α * α) := by rw [eβ]; ring
  have hx2 : α / β * β = α := by field_simp
  have q0 : 0 < α / β := by apply div_pos <;> linarith
  have u : a / b ≤ (1 + 731 / 10 ^ 7) * (α / β) := by
    rw [div_le_iff₀ bpos]
    have k1 : (1 + 731 / 10 ^ 7) * (α / β) * (β - 1082 / 10 ^ 8) ≤ (1 + 731 / 10 ^ 7) * (α / β) * b :=
      mul_le_mul_of_nonneg_left (by linarith [hb3.1]) (by positivity)
    have k2 : (α + 491 / 10 ^ 9) * β ≤ (1 + 731 / 10 ^ 7) * α * (β - 1082 / 10 ^ 8) := by
      norm_num at hprod hαβ eβ ⊢
      nlinarith
    have k3 : α + 491 / 10 ^ 9 ≤ (1 + 731 / 10 ^ 7) * (α / β) * (β - 1082 / 10 ^ 8) := by
      have e5 : (1 + 731 / 10 ^ 7) * (α / β) * (β - 1082 / 10 ^ 8) = (1 + 731 / 10 ^ 7) * α * (β - 1082 / 10 ^ 8) / β := by
        field_simp
      rw [e5, le_div_iff₀ (by linarith)]
      exact k2
    linarith [ha3.2]
  have l : (1 - 731 / 10 ^ 7) * (α / β) ≤ a / b := by
    rw [le_div_iff₀ bpos]
    have k1 : (1 - 731 / 10 ^ 7) * (α / β) * b ≤ (1 - 731 / 10 ^ 7) * (α / β) * (β + 1082 / 10 ^ 8) :=
      mul_le_mul_of_nonneg_left (by linarith [hb3.2]) (mul_nonneg (by norm_num) q0.le)
    have k2 : (1 - 731 / 10 ^ 7) * α * (β + 1082 / 10 ^ 8) ≤ (α - 491 / 10 ^ 9) * β := by
      norm_num at hprod hαβ eβ ⊢
      nlinarith
    have k3 : (1 - 731 / 10 ^ 7) * (α / β) * (β + 1082 / 10 ^ 8) ≤ α - 491 / 10 ^ 9 := by
      have e5 : (1 - 731 / 10 ^ 7) * (α / β) * (β + 1082 / 10 ^ 8) = (1 - 731 / 10 ^ 7) * α * (β + 1082 / 10 ^ 8) / β := by
        field_simp
      rw [e5, div_le_iff₀ (by linarith)]
      exact k2
    linarith [ha3.1]
  rw [abs_le]
  constructor <;> linarith

/-- The fraction inside the PQ decoder, for signals that are not black. -/
theorem pq_fraction {x : F32} {P : ℚ} {e : ℝ} (hP : Is x P) (h : |(P : ℝ) - e| ≤ 48 / 10 ^ 8) (e0 : 8459375 / 10 ^ 7 ≤ e) (e1 : e ≤ 1) :
    ∃ c : ℚ, Is (F32.div (ar.max (F32.sub x Pq.C1) (lit 0.0)) (F32.sub Pq.C2 (F32.mul x Pq.C3))) c ∧
      Good (F32.div (ar.max (F32.sub x Pq.C1) (lit 0.0)) (F32.sub Pq.C2 (F32.mul x Pq.C3))) ∧
      |(c : ℝ) - (e - 0.8359375) / (18.851563 - e * 18.6875)| ≤ 733 / 10 ^ 7 * ((e - 0.8359375) / (18.851563 - e * 18.6875)) := by
  have h' := abs_le.mp h
  have P0 : 845 / 1000 ≤ (P : ℝ) := by norm_num at h' e0 ⊢; linarith [h'.1]
  have P1 : (P : ℝ) ≤ 1 + 48 / 10 ^ 8 := by norm_num at h' ⊢; linarith [h'.2]
  obtain ⟨a, b, ha, hb, hae, hbe⟩ := pq_parts hP (by linarith) (by norm_num at P1; linarith)
  set α : ℝ := e - 0.8359375 with hα
  set β : ℝ := 18.851563 - e * 18.6875 with hβ
  have ha2 : |(a : ℝ) - α| ≤ 491 / 10 ^ 9 := by
    have : |(P : ℝ) - 0.8359375| ≤ 17 / 100 := by
      rw [abs_le]; norm_num at P0 P1 ⊢; constructor <;> linarith
    rw [hα]
    have hae' := hae.trans (show _ ≤ (17 / 100 : ℝ) * (6 / 10 ^ 8) + 1 / 10 ^ 40 by linarith)
    rw [abs_le] at hae' ⊢
    norm_num at hae' h' ⊢
    constructor <;> linarith [hae'.1, hae'.2, h'.1, h'.2]
  have hb2 : |(b : ℝ) - β| ≤ 1082 / 10 ^ 8 := by
    have u1 : |(P : ℝ) * 18.6875| ≤ 1869 / 100 := by
      rw [abs_le]; norm_num at P0 P1 ⊢; constructor <;> linarith
    have u2 : |18.851563 - (P : ℝ) * 18.6875| ≤ 31 / 10 := by
      rw [abs_le]; norm_num at P0 P1 ⊢; constructor <;> linarith
    rw [hβ]
    have hbe' := hbe.trans (show _ ≤ (1869 / 100 : ℝ) * (6 / 10 ^ 8) + 31 / 10 * (6 / 10 ^ 8) + 51 / 10 ^ 8 by linarith)
    rw [abs_le] at hbe' ⊢
    norm_num at hbe' h' ⊢
    constructor <;> linarith [hbe'.1, hbe'.2, h'.1, h'.2]
  have α0 : 1 / 100 ≤ α := by rw [hα]; norm_num at e0 ⊢; linarith
  have α1 : α ≤ 0.1640625 := by rw [hα]; norm_num; linarith
  have eβ : β = 3.22998096875 - 18.6875 * α := by rw [hα, hβ]; norm_num; ring
  have β0 : 164 / 1000 ≤ β := by rw [hβ]; norm_num; linarith
  have ha3 := abs_le.mp ha2
  have hb3 := abs_le.mp hb2
  have bpos : (0 : ℝ) < b := by norm_num at hb3; linarith [hb3.1]
  have apos : (0 : ℝ) < a := by norm_num at ha3; linarith [ha3.1]
  have bposq : (0 : ℚ) < b := by exact_mod_cast bpos
  have aposq : (0 : ℚ) < a := by exact_mod_cast apos
  have hq := pq_quotient α0 α1 eβ β0 apos bpos ha3 hb3
  have q0 : 0 < α / β := by apply div_pos <;> linarith
  have q1 : α / β ≤ 1 := by rw [div_le_one (by linarith), hα, hβ]; norm_num; linarith
  have qlow : 1 / 1000 ≤ α / β := by
    rw [le_div_iff₀ (by linarith), eβ]; norm_num; linarith
  have hgs : Good (F32.sub x Pq.C1) := good_add_any _ _
  obtain ⟨hmx, hgm⟩ := max_is hf ha hgs
  rw [max_eq_left aposq.le] at hmx
  have hqa : |((a / b : ℚ) : ℝ)| ≤ α / β * (1 + 731 / 10 ^ 7) := by
    push_cast
    rw [abs_le] at *
    constructor <;> linarith [hq.1, hq.2]
  obtain ⟨c, hc, hce⟩ := F32.is_div hmx hb bposq (by
    have : ((|a / b| : ℚ) : ℝ) ≤ ((2 ^ 100 : ℚ) : ℝ) := by
      push_cast at hqa ⊢
      refine hqa.trans ?_
      norm_num
      linarith
    exact_mod_cast this)
  refine ⟨c, hc, good_div hgm (good_add_any _ _), ?_⟩
  have e3 := err_real hce hqa
  push_cast at e3
  rw [abs_le] at *
  norm_num at e3 hq qlow ⊢
  constructor <;> linarith [e3.1, e3.2, hq.1, hq.2]

/-- The last power and the scaling. -/
theorem pq_outer {x : F32} {c : ℚ} {q : ℝ} (hc : Is x c) (hg : Good x) (h : |(c : ℝ) - q| ≤ 733 / 10 ^ 7 * q)
    (q0 : 3 / 1000 ≤ q) (q1 : q ≤ 1) :
    App (F32.mul (ar.pow x (FOps.div (lit 1.0) Pq.M1)) Pq.L) (q ^ (1 / 0.15930176 : ℝ) * 10000)
      (5 / 10 ^ 4 * (q ^ (1 / 0.15930176 : ℝ) * 10000)) := by
  have h' := abs_le.mp h
  have c0 : 29 / 10000 ≤ (c : ℝ) := by norm_num at h' ⊢; linarith [h'.1]
  have c1 : (c : ℝ) ≤ 1 + 733 / 10 ^ 7 := by norm_num at h' ⊢; linarith [h'.2]
  have hcp : (0 : ℝ) < c := by linarith
  have c0q : 29 / 10000 ≤ c := by
    have : ((29 / 10000 : ℚ) : ℝ) ≤ c := by push_cast; exact c0
    exact_mod_cast this
  have c1q : c ≤ 2 := by
    have : (c : ℝ) ≤ ((2 : ℚ) : ℝ) := by push_cast; norm_num at c1; linarith
    exact_mod_cast this
  obtain ⟨r, hr, hcase⟩ := pow_any hf hc hg (by linarith) c1q is_pqK (by norm_num) (by norm_num)
  rcases hcase with ⟨-, r0, hre⟩ | ⟨hs, -⟩
  swap
  · exfalso
    have : (2 : ℚ) ^ (-126 : Int) < 29 / 10000 := by norm_num
    exact absurd (hs.trans this) (not_lt.mpr c0q)
  have hlog : |Real.log c| ≤ 6 := by
    have l2 := Real.log_le_sub_one_of_pos hcp
    have l1 : -6 ≤ Real.log c := by
      rw [Real.le_log_iff_exp_le hcp, Real.exp_neg]
      refine le_trans ?_ c0
      refine inv_le_of_inv_le₀ (by norm_num) ?_
      have h6 : Real.exp 6 = Real.exp 1 ^ 6 := by rw [← Real.exp_nat_mul]; norm_num
      rw [h6]
      refine le_trans ?_ (pow_le_pow_left₀ (show (0 : ℝ) ≤ 27 / 10 by norm_num)
        (by have := Real.exp_one_gt_d9; norm_num at this ⊢; linarith) 6)
      norm_num
    rw [abs_le]
    norm_num at c1
    constructor <;> linarith
  have eK : ((13164651 / 2097152 : ℚ) : ℝ) = 13164651 / 2097152 := by push_cast; rfl
  rw [eK] at hre
  have hco : 43 / 10 ^ 8 + 17 / 10 ^ 8 * (13164651 / 2097152 : ℝ) * (1 + |Real.log c|) ≤ 8 / 10 ^ 6 := by
    norm_num; linarith
  set V := (c : ℝ) ^ (13164651 / 2097152 : ℝ) with hV
  set W := (c : ℝ) ^ (1 / 0.15930176 : ℝ) with hW
  set T := q ^ (1 / 0.15930176 : ℝ) with hT
  have W0 : 0 < W := Real.rpow_pos_of_pos hcp _
  have hVW : |V - W| ≤ 3 / 10 ^ 6 * W := by
    have e : V = W * Real.exp (Real.log c * (13164651 / 2097152 - 1 / 0.15930176)) := by
      rw [hV, hW, ← Real.rpow_def_of_pos hcp, ← Real.rpow_add hcp]; congr 1; ring
    have ht : |Real.log c * (13164651 / 2097152 - 1 / 0.15930176 : ℝ)| ≤ 6 * (23 / 10 ^ 8) := by
      rw [abs_mul]
      refine mul_le_mul hlog ?_ (abs_nonneg _) (by norm_num)
      rw [abs_le]; constructor <;> norm_num
    have h2 := Real.abs_exp_sub_one_le (x := Real.log c * (13164651 / 2097152 - 1 / 0.15930176)) (ht.trans (by norm_num))
    rw [e, show W * Real.exp (Real.log c * (13164651 / 2097152 - 1 / 0.15930176)) - W =
      (Real.exp (Real.log c * (13164651 / 2097152 - 1 / 0.15930176)) - 1) * W by ring, abs_mul, abs_of_pos W0]
    refine mul_le_mul_of_nonneg_right (h2.trans ?_) W0.le
    norm_num at ht ⊢
    linarith
  have qp : 0 < q := by linarith
  have T0 : 0 < T := Real.rpow_pos_of_pos qp _
  have T1 : T ≤ 1 := Real.rpow_le_one qp.le q1 (by norm_num)
  have hWT := rpow_rel (M := 1 / 0.15930176) (d := 733 / 10 ^ 7) qp hcp (by norm_num) (by norm_num) h
  rw [← hW, ← hT] at hWT
  have Tlow : 1 / 10 ^ 20 ≤ T := by
    calc (1 / 10 ^ 20 : ℝ) ≤ (3 / 1000) ^ (7 : ℕ) := by norm_num
      _ = (3 / 1000) ^ ((7 : ℕ) : ℝ) := (Real.rpow_natCast _ _).symm
      _ ≤ (3 / 1000) ^ (1 / 0.15930176 : ℝ) := Real.rpow_le_rpow_of_exponent_ge (by norm_num) (by norm_num) (by norm_num)
      _ ≤ T := Real.rpow_le_rpow (by norm_num) q0 (by norm_num)
  have V0 : 0 < V := Real.rpow_pos_of_pos hcp _
  have hco2 := mul_le_mul_of_nonneg_right hco V0.le
  have hWT' : |W - T| ≤ 461 / 10 ^ 6 * T := by
    refine hWT.trans (mul_le_mul_of_nonneg_right (by norm_num) T0.le)
  have hrT : |(r : ℝ) - T| ≤ 49 / 10 ^ 5 * T := by
    rw [abs_le] at hre hVW hWT' ⊢
    norm_num at hre hVW hWT' hco2 Tlow ⊢
    constructor <;> linarith [hre.1, hre.2, hVW.1, hVW.2, hWT'.1, hWT'.2]
  have rb : |((r * 10000 : ℚ) : ℝ)| ≤ T * 10000 * (11 / 10) := by
    push_cast
    rw [abs_le] at hrT ⊢
    norm_num at hrT ⊢
    constructor <;> linarith [hrT.1, hrT.2]
  obtain ⟨l, hl, hle⟩ := F32.is_mul hr is_pqL (by
    have : ((|r * 10000| : ℚ) : ℝ) ≤ ((2 ^ 100 : ℚ) : ℝ) := by
      push_cast at rb ⊢
      refine rb.trans ?_
      norm_num
      linarith
    exact_mod_cast this)
  have e3 := err_real hle rb
  push_cast at e3
  obtain ⟨s, p, e, p0, es⟩ := hl
  refine ⟨s, p, e, p0, ?_⟩
  rw [es]
  rw [abs_le] at hrT e3 ⊢
  norm_num at hrT e3 Tlow ⊢
  constructor <;> linarith [hrT.1, hrT.2, e3.1, e3.2]

/-- The fraction inside the PQ decoder, near black. -/
theorem pq_fraction_dark {x : F32} {P : ℚ} (hP : Is x P) (P0 : -(4 / 10) ≤ (P : ℝ)) (P1 : (P : ℝ) ≤ 8459380 / 10 ^ 7) :
    ∃ c : ℚ, Is (F32.div (ar.max (F32.sub x Pq.C1) (lit 0.0)) (F32.sub Pq.C2 (F32.mul x Pq.C3))) c ∧
      Good (F32.div (ar.max (F32.sub x Pq.C1) (lit 0.0)) (F32.sub Pq.C2 (F32.mul x Pq.C3))) ∧
      0 ≤ c ∧ (c : ℝ) ≤ 34 / 10000 := by
  obtain ⟨a, b, ha, hb, hae, hbe⟩ := pq_parts hP (by linarith) (by norm_num at P1; linarith)
  have ha2 : (a : ℝ) ≤ 1001 / 10 ^ 5 := by
    have : |(P : ℝ) - 0.8359375| ≤ 2 := by
      rw [abs_le]; norm_num at P0 P1 ⊢; constructor <;> linarith
    have hae' := (abs_le.mp (hae.trans (show _ ≤ (2 : ℝ) * (6 / 10 ^ 8) + 1 / 10 ^ 40 by linarith))).2
    norm_num at hae' P1 ⊢
    linarith
  have hb2 : 3 ≤ (b : ℝ) := by
    have u1 : |(P : ℝ) * 18.6875| ≤ 20 := by
      rw [abs_le]; norm_num at P0 P1 ⊢; constructor <;> linarith
    have u2 : |18.851563 - (P : ℝ) * 18.6875| ≤ 40 := by
      rw [abs_le]; norm_num at P0 P1 ⊢; constructor <;> linarith
    have hbe' := (abs_le.mp (hbe.trans (show _ ≤ (20 : ℝ) * (6 / 10 ^ 8) + 40 * (6 / 10 ^ 8) + 51 / 10 ^ 8 by linarith))).1
    norm_num at hbe' P1 ⊢
    linarith
  have bposq : (0 : ℚ) < b := by
    have : (0 : ℝ) < b := by linarith
    exact_mod_cast this
  have hgs : Good (F32.sub x Pq.C1) := good_add_any _ _
  obtain ⟨hmx, hgm⟩ := max_is hf ha hgs
  have v0 : 0 ≤ max a 0 / b := div_nonneg (le_max_right _ _) bposq.le
  have v1 : ((max a 0 / b : ℚ) : ℝ) ≤ 1001 / 10 ^ 5 / 3 := by
    have : ((max a 0 : ℚ) : ℝ) ≤ 1001 / 10 ^ 5 := by
      rw [Rat.cast_max]; exact max_le ha2 (by norm_num)
    rw [Rat.cast_div]
    exact div_le_div₀ (by norm_num) this (by norm_num) hb2
  have v0r : (0 : ℝ) ≤ ((max a 0 / b : ℚ) : ℝ) := by exact_mod_cast v0
  have hgd := good_div hgm (good_add_any Pq.C2 (F32.neg (F32.mul x Pq.C3)))
  have e1 : F32.sub Pq.C2 (F32.mul x Pq.C3) = fin false b := hb.pos bposq
  change Good (F32.div _ (F32.sub Pq.C2 (F32.mul x Pq.C3))) at hgd
  generalize ar.max (F32.sub x Pq.C1) (lit 0.0) = m at *
  rw [e1] at hgd ⊢
  have vle : max a 0 / b ≤ 2 ^ 100 := by
    have : ((max a 0 / b : ℚ) : ℝ) ≤ ((2 ^ 100 : ℚ) : ℝ) := by
      refine v1.trans ?_; push_cast; norm_num
    exact_mod_cast this
  -- the quotient is not negative, although it may be `-0`
  obtain ⟨s, p, rfl, hp, hs⟩ := hmx
  obtain ⟨r, er, r0, re⟩ := F32.is_round (s ^^ false) (show 0 ≤ p / b from div_nonneg hp bposq.le) (by
    have e2 : p = |max a 0| := by rw [← hs, signed_abs hp]
    rw [e2, abs_of_nonneg (le_max_right _ _)]; exact vle)
  have ediv : F32.div (fin s p) (fin false b) = fin (s ^^ false) r := by
    simp only [F32.div, if_neg bposq.ne']; exact er
  have pe : p = max a 0 := by
    have e2 : p = |max a 0| := by rw [← hs, signed_abs hp]
    rw [e2, abs_of_nonneg (le_max_right _ _)]
  have hsr : signed (s ^^ false) r = r := by
    cases s with
    | false => rfl
    | true =>
      have : p = 0 := by
        have h1 : signed true p = -p := rfl
        rw [h1, ← pe] at hs
        linarith
      have r00 : r = 0 := by
        have e3 : round (true ^^ false) (p / b) = fin (true ^^ false) (rnd (p / b)) := by
          rw [this, zero_div, round_eq, rnd_zero, if_neg]
          rw [limit_eq]; norm_num
        rw [e3] at er
        injection er with _ e4
        rw [← e4, this, zero_div, rnd_zero]
      rw [r00]; simp [signed]
  refine ⟨r, ⟨s ^^ false, r, ediv, r0, hsr⟩, hgd, r0, ?_⟩
  rw [pe] at re
  have rer : (r : ℝ) ≤ ((max a 0 / b : ℚ) : ℝ) + (((max a 0 / b : ℚ) : ℝ) / 2 ^ 24 + 1 / 2 ^ 150) := by
    have := (abs_le.mp re).2
    have h2 : r ≤ max a 0 / b + (max a 0 / b / 2 ^ 24 + 1 / 2 ^ 150) := by linarith
    have h3 := (Rat.cast_le (K := ℝ)).mpr h2
    push_cast at h3 ⊢
    exact h3
  norm_num at v1 rer ⊢
  linarith

omit hf in
theorem exp_58 {Y : ℝ} (h : 2 / 3 ≤ Y) : Real.exp (-(87 * Y)) ≤ 1 / 10 ^ 24 := by
  have h1 := exp_87 (Y := 1 / 3) (le_refl _)
  calc Real.exp (-(87 * Y)) ≤ Real.exp (-(87 * (1 / 3)) + -(87 * (1 / 3))) := Real.exp_le_exp.mpr (by linarith)
    _ = Real.exp (-(87 * (1 / 3))) * Real.exp (-(87 * (1 / 3))) := Real.exp_add _ _
    _ ≤ 1 / 10 ^ 12 * (1 / 10 ^ 12) := mul_le_mul h1 h1 (Real.exp_pos _).le (by norm_num)
    _ = _ := by norm_num

/-- The last power and the scaling, near black. -/
theorem pq_outer_dark {x : F32} {c : ℚ} (hc : Is x c) (hg : Good x) (c0 : 0 ≤ c) (c1 : (c : ℝ) ≤ 34 / 10000) :
    App (F32.mul (ar.pow x (FOps.div (lit 1.0) Pq.M1)) Pq.L) 0 (2 / 10 ^ 11) := by
  have c1q : c ≤ 34 / 10000 := by
    have : (c : ℝ) ≤ ((34 / 10000 : ℚ) : ℝ) := by push_cast; exact c1
    exact_mod_cast this
  obtain ⟨r, hr, hcase⟩ := pow_any hf hc hg c0 (by linarith) is_pqK (by norm_num) (by norm_num)
  have eK : ((13164651 / 2097152 : ℚ) : ℝ) = 13164651 / 2097152 := by push_cast; rfl
  rw [eK] at hcase
  have rb : |(r : ℝ)| ≤ 16 / 10 ^ 16 := by
    rcases hcase with ⟨hn, r0, hre⟩ | ⟨hs, hre⟩
    · have hcp : (0 : ℝ) < c := by exact_mod_cast lt_of_lt_of_le (pow2_pos _) hn
      have hlog := log_range hn (lt_of_le_of_lt c1q (by norm_num))
      have hV : (c : ℝ) ^ (13164651 / 2097152 : ℝ) ≤ 155 / 10 ^ 17 := by
        calc (c : ℝ) ^ (13164651 / 2097152 : ℝ) ≤ (c : ℝ) ^ ((6 : ℕ) : ℝ) :=
              Real.rpow_le_rpow_of_exponent_ge hcp (by linarith) (by norm_num)
          _ = (c : ℝ) ^ (6 : ℕ) := Real.rpow_natCast _ _
          _ ≤ (34 / 10000) ^ (6 : ℕ) := pow_le_pow_left₀ hcp.le c1 6
          _ ≤ _ := by norm_num
      have hV0 : 0 < (c : ℝ) ^ (13164651 / 2097152 : ℝ) := Real.rpow_pos_of_pos hcp _
      have hco : 43 / 10 ^ 8 + 17 / 10 ^ 8 * (13164651 / 2097152 : ℝ) * (1 + |Real.log c|) ≤ 1 / 1000 := by
        norm_num; linarith
      have hco2 := mul_le_mul_of_nonneg_right hco hV0.le
      rw [abs_le] at hre ⊢
      norm_num at hre hco2 hV ⊢
      have : (0 : ℝ) ≤ r := by exact_mod_cast r0
      constructor <;> linarith [hre.1, hre.2]
    · have := exp_58 (Y := 13164651 / 2097152) (by norm_num)
      norm_num at this hre ⊢
      linarith
  have rb2 : |((r * 10000 : ℚ) : ℝ)| ≤ 16 / 10 ^ 12 := by
    push_cast
    rw [abs_mul]
    norm_num at rb ⊢
    linarith
  obtain ⟨l, hl, hle⟩ := F32.is_mul hr is_pqL (by
    have : ((|r * 10000| : ℚ) : ℝ) ≤ ((2 ^ 100 : ℚ) : ℝ) := by
      push_cast at rb2 ⊢
      refine rb2.trans ?_
      norm_num
    exact_mod_cast this)
  have e3 := err_real hle rb2
  push_cast at e3 rb2
  obtain ⟨s, p, e, p0, es⟩ := hl
  refine ⟨s, p, e, p0, ?_⟩
  rw [es]
  rw [abs_le] at *
  norm_num at rb2 e3 ⊢
  constructor <;> linarith [rb2.1, rb2.2, e3.1, e3.2]

/-- The PQ decoder after its first power. -/
theorem dec_pq_core {y : F32} {P : ℚ} {e : ℝ} (hP : Is y P) (e0 : 0 ≤ e) (e1 : e ≤ 1)
    (hcase : |(P : ℝ) - e| ≤ 48 / 10 ^ 8 ∨ (|(P : ℝ)| ≤ 4 / 10 ∧ e ≤ 4 / 10)) :
    App (ar.mul (ar.pow (ar.div (ar.max (ar.sub y Pq.C1) (lit 0.0)) (ar.sub Pq.C2 (ar.mul y Pq.C3))) (FOps.div (lit 1.0) Pq.M1)) Pq.L)
      ((max (e - 0.8359375) 0 / (18.851563 - e * 18.6875)) ^ (1 / 0.15930176 : ℝ) * 10000)
      (5 / 10 ^ 4 * ((max (e - 0.8359375) 0 / (18.851563 - e * 18.6875)) ^ (1 / 0.15930176 : ℝ) * 10000) + 1 / 10 ^ 10) := by
  rw [hf.div, hf.sub, hf.mul]
  rcases le_or_gt (8459375 / 10 ^ 7) e with hb | hd
  · -- not black
    have hPe : |(P : ℝ) - e| ≤ 48 / 10 ^ 8 := by
      rcases hcase with h | ⟨-, h⟩
      · exact h
      · exfalso; norm_num at hb; linarith
    obtain ⟨c, hc, hgc, hce⟩ := pq_fraction hf hP hPe hb e1
    have m0 : max (e - 0.8359375) 0 = e - 0.8359375 := max_eq_left (by norm_num at hb ⊢; linarith)
    rw [m0]
    have qlow : 3 / 1000 ≤ (e - 0.8359375) / (18.851563 - e * 18.6875) := by
      rw [le_div_iff₀ (by norm_num; linarith)]; norm_num at hb ⊢; linarith
    have qhigh : (e - 0.8359375) / (18.851563 - e * 18.6875) ≤ 1 := by
      rw [div_le_one (by norm_num; linarith)]; norm_num at hb ⊢; linarith
    exact (pq_outer hf hc hgc hce qlow qhigh).mono (by
      have : (0 : ℝ) < 1 / 10 ^ 10 := by norm_num
      linarith)
  · have hPb : -(4 / 10) ≤ (P : ℝ) ∧ (P : ℝ) ≤ 8459380 / 10 ^ 7 := by
      rcases hcase with h | ⟨h, -⟩
      · rw [abs_le] at h; norm_num at h hd ⊢; constructor <;> linarith [h.1, h.2]
      · rw [abs_le] at h; norm_num at h ⊢; constructor <;> linarith [h.1, h.2]
    obtain ⟨c, hc, hgc, c0, c1⟩ := pq_fraction_dark hf hP hPb.1 hPb.2
    obtain ⟨s, p, ep, p0, hp⟩ := pq_outer_dark hf hc hgc c0 c1
    refine ⟨s, p, ep, p0, ?_⟩
    have hden : 3 ≤ 18.851563 - e * 18.6875 := by norm_num at hd ⊢; linarith
    have hnum : max (e - 0.8359375) 0 ≤ 1 / 100 := max_le (by norm_num at hd ⊢; linarith) (by norm_num)
    have q0 : 0 ≤ max (e - 0.8359375) 0 / (18.851563 - e * 18.6875) := div_nonneg (le_max_right _ _) (by linarith)
    have q1 : max (e - 0.8359375) 0 / (18.851563 - e * 18.6875) ≤ 1 / 100 / 3 := div_le_div₀ (by norm_num) hnum (by norm_num) hden
    generalize max (e - 0.8359375) 0 / (18.851563 - e * 18.6875) = q at *
    have T0 : 0 ≤ q ^ (1 / 0.15930176 : ℝ) := Real.rpow_nonneg q0 _
    have T1 : q ^ (1 / 0.15930176 : ℝ) ≤ 2 / 10 ^ 15 := by
      calc q ^ (1 / 0.15930176 : ℝ) ≤ (1 / 100 / 3) ^ (1 / 0.15930176 : ℝ) := Real.rpow_le_rpow q0 q1 (by norm_num)
        _ ≤ (1 / 100 / 3) ^ ((6 : ℕ) : ℝ) := Real.rpow_le_rpow_of_exponent_ge (by norm_num) (by norm_num) (by norm_num)
        _ = (1 / 100 / 3) ^ (6 : ℕ) := Real.rpow_natCast _ _
        _ ≤ _ := by norm_num
    rw [sub_zero] at hp
    rw [abs_le] at hp ⊢
    norm_num at hp T1 ⊢
    constructor <;> linarith [hp.1, hp.2]

/-- The relative error of the PQ decoder is at most 5·10⁻⁴. -/
theorem dec_pq_app {x : F32} {X : ℚ} (hx : Is x X) (hg : Good x) (h0 : 0 ≤ X) (h1 : X ≤ 1) :
    App (decodeTransfer ar .BT2100PQ x)
      ((max ((X : ℝ) ^ (1 / 78.84375 : ℝ) - 0.8359375) 0 / (18.851563 - (X : ℝ) ^ (1 / 78.84375 : ℝ) * 18.6875)) ^ (1 / 0.15930176 : ℝ) *
        10000)
      (5 / 10 ^ 4 * ((max ((X : ℝ) ^ (1 / 78.84375 : ℝ) - 0.8359375) 0 / (18.851563 - (X : ℝ) ^ (1 / 78.84375 : ℝ) * 18.6875)) ^
        (1 / 0.15930176 : ℝ) * 10000) + 1 / 10 ^ 10) := by
  obtain ⟨hm, hgm⟩ := max_is hf hx hg
  rw [max_eq_left h0] at hm
  obtain ⟨P, hP, hcase⟩ := pq_inner hf hm hgm h0 h1
  have hX0 : (0 : ℝ) ≤ X := by exact_mod_cast h0
  have hX1 : (X : ℝ) ≤ 1 := by exact_mod_cast h1
  exact dec_pq_core hf hP (Real.rpow_nonneg hX0 _) (Real.rpow_le_one hX0 hX1 (by norm_num)) hcase

/-- The PQ decoder for signals that rounding may have taken out of `[0, 1]`. -/
theorem dec_pq_clamp {x : F32} {X : ℚ} (hx : Is x X) (hg : Good x) (h1 : X ≤ 1 + 3 / 10 ^ 6) :
    App (decodeTransfer ar .BT2100PQ x)
      ((max ((max 0 (min 1 (X : ℝ))) ^ (1 / 78.84375 : ℝ) - 0.8359375) 0 /
        (18.851563 - (max 0 (min 1 (X : ℝ))) ^ (1 / 78.84375 : ℝ) * 18.6875)) ^ (1 / 0.15930176 : ℝ) * 10000)
      (5 / 10 ^ 4 * ((max ((max 0 (min 1 (X : ℝ))) ^ (1 / 78.84375 : ℝ) - 0.8359375) 0 /
        (18.851563 - (max 0 (min 1 (X : ℝ))) ^ (1 / 78.84375 : ℝ) * 18.6875)) ^ (1 / 0.15930176 : ℝ) * 10000) + 1 / 10 ^ 10) := by
  obtain ⟨hm, hgm⟩ := max_is hf hx hg
  rcases le_or_gt X 1 with h | h
  · have m1 : max X 0 ≤ 1 := max_le h (by norm_num)
    obtain ⟨P, hP, hcase⟩ := pq_inner hf hm hgm (le_max_right _ _) m1
    have hr : (X : ℝ) ≤ 1 := by exact_mod_cast h
    have e : ((max X 0 : ℚ) : ℝ) = max 0 (min 1 (X : ℝ)) := by rw [min_eq_right hr, max_comm]; push_cast; rfl
    rw [e] at hcase
    exact dec_pq_core hf hP (Real.rpow_nonneg (le_max_left _ _) _)
      (Real.rpow_le_one (le_max_left _ _) (max_le (by norm_num) (min_le_left _ _)) (by norm_num)) hcase
  · rw [max_eq_left (by linarith)] at hm
    obtain ⟨P, hP, hcase⟩ := pq_inner_over hf hm hgm h.le h1
    have hr : (1 : ℝ) < X := by exact_mod_cast h
    have e : (max 0 (min 1 (X : ℝ))) ^ (1 / 78.84375 : ℝ) = 1 := by
      rw [min_eq_left hr.le, max_eq_right (by norm_num), Real.one_rpow]
    rw [e]
    exact dec_pq_core hf hP (by norm_num) (le_refl _) (Or.inl hcase)

end Ezk

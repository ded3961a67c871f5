import Verif.Proofs.Num

/-!
# The arithmetic is that of IEEE 754

A check of the model of `f32` (`Model/F32`) against a definition of binary32 that is independent of it: the set of numbers of the format,
and rounding to the nearest of them, ties to the one with an even last digit, with overflow to infinity.
-/

namespace Ezk
namespace F32

/-- The finite numbers of binary32, IEEE 754 §3.3: 24 digits, least exponent −149, largest 104. -/
def Finite32 (v : ℚ) : Prop := ∃ m e : ℤ, |m| < 2 ^ 24 ∧ -149 ≤ e ∧ e ≤ 104 ∧ v = m * (2 : ℚ) ^ e

/-- The last of the digits of a finite number is 0: all 24 digits are used, or the number is subnormal. -/
def EvenDigit (v : ℚ) : Prop :=
  ∃ m e : ℤ, |m| < 2 ^ 24 ∧ (2 ^ 23 ≤ |m| ∨ e = -149) ∧ -149 ≤ e ∧ e ≤ 104 ∧ v = m * (2 : ℚ) ^ e ∧ Even m

/-- `roundTiesToEven`, IEEE 754 §4.3.1. -/
def RoundsTo (q : ℚ) (x : F32) : Prop :=
  if (2 : ℚ) ^ 128 - 2 ^ 103 ≤ |q| then x = inf (decide (q < 0))
  else ∃ v, Is x v ∧ Finite32 v ∧ (∀ w, Finite32 w → |v - q| ≤ |w - q|) ∧
    (∀ w, Finite32 w → w ≠ v → |w - q| = |v - q| → EvenDigit v)

theorem Finite32.neg {v : ℚ} (h : Finite32 v) : Finite32 (-v) := by
  obtain ⟨m, e, h1, h2, h3, h4⟩ := h
  exact ⟨-m, e, by rwa [abs_neg], h2, h3, by rw [h4]; push_cast; ring⟩

theorem EvenDigit.neg {v : ℚ} (h : EvenDigit v) : EvenDigit (-v) := by
  obtain ⟨m, e, h1, h2, h3, h4, h5, h6⟩ := h
  exact ⟨-m, e, by rwa [abs_neg], by rwa [abs_neg], h3, h4, by rw [h5]; push_cast; ring, h6.neg⟩

theorem finite_rep {v : ℚ} (h : Finite32 v) (h0 : 0 ≤ v) : Rep v := by
  obtain ⟨m, e, h1, h2, -, rfl⟩ := h
  have hm : 0 ≤ m := by
    have := nonneg_of_mul_nonneg_left h0 (pow2_pos e)
    exact_mod_cast this
  obtain ⟨n, rfl⟩ := Int.eq_ofNat_of_zero_le hm
  refine ⟨n, e, ?_, h2, by push_cast; rfl⟩
  rw [abs_of_nonneg hm] at h1
  exact_mod_cast h1

theorem rep_finite {v : ℚ} (h : Rep v) (hv : v < 2 ^ 128) : Finite32 v := by
  obtain ⟨m, e, h1, h2, rfl⟩ := h
  have hm : |(m : ℤ)| < 2 ^ 24 := by rw [abs_of_nonneg (by positivity)]; exact_mod_cast h1
  rcases le_or_gt e 104 with he | he
  · exact ⟨m, e, hm, h2, he, by push_cast; rfl⟩
  · -- a short number with a large exponent
    obtain ⟨k, rfl⟩ : ∃ k : Nat, e = 104 + k := ⟨(e - 104).toNat, by omega⟩
    have e1 : (m : ℚ) * (2 : ℚ) ^ (104 + (k : ℤ)) = ((m * 2 ^ k : ℕ) : ℚ) * (2 : ℚ) ^ (104 : ℤ) := by
      rw [zpow_add₀ (by norm_num), zpow_natCast]; push_cast; ring
    refine ⟨(m * 2 ^ k : ℕ), 104, ?_, by norm_num, le_refl _, by rw [e1]; push_cast; rfl⟩
    rw [abs_of_nonneg (by positivity)]
    rw [e1] at hv
    have : ((m * 2 ^ k : ℕ) : ℚ) < ((2 ^ 24 : ℕ) : ℚ) := by
      by_contra hc
      rw [not_lt] at hc
      have := mul_le_mul_of_nonneg_right hc (pow2_pos 104).le
      norm_num at this hv
      linarith
    exact_mod_cast this

/-- Representable numbers from `2 ^ e` on are multiples of the spacing there. -/
theorem multiple {w : ℚ} (h : Rep w) {e : ℤ} (hw : (2 : ℚ) ^ e ≤ w) : ∃ n : ℤ, w = n * (2 : ℚ) ^ (max e (-126) - 23) := by
  obtain ⟨m, f, h1, h2, rfl⟩ := h
  rcases le_or_gt (max e (-126) - 23) f with hf | hf
  · obtain ⟨k, hk⟩ : ∃ k : Nat, f = max e (-126) - 23 + k := ⟨(f - (max e (-126) - 23)).toNat, by omega⟩
    refine ⟨m * 2 ^ k, ?_⟩
    rw [hk, zpow_add₀ (by norm_num), zpow_natCast]
    push_cast
    ring
  · exfalso
    have hm : (m : ℚ) < 2 ^ 24 := by exact_mod_cast h1
    have a : (m : ℚ) * (2 : ℚ) ^ f < (2 : ℚ) ^ (24 + f) := by
      rw [zpow_add₀ (by norm_num)]
      exact mul_lt_mul_of_pos_right (by exact_mod_cast hm) (pow2_pos f)
    have b : (2 : ℚ) ^ (24 + f) ≤ (2 : ℚ) ^ e := zpow_le_of_le (by omega)
    linarith

/-- The candidates nearest to a number are multiples of the spacing, or there is a nearer one. -/
theorem candidate {q w : ℚ} (hq : 0 < q) (hw : Rep w) : (∃ n : ℤ, w = n * ulp q) ∨ ∃ n : ℤ, |n * ulp q - q| < |w - q| := by
  obtain ⟨e1, e2⟩ := exponent_spec hq
  rw [ulp_eq]
  rcases le_or_gt ((2 : ℚ) ^ exponent q) w with h | h
  · exact .inl (multiple hw h)
  · rcases le_or_gt (-149) (exponent q) with he | he
    · obtain ⟨n, hn⟩ := multiple (w := (2 : ℚ) ^ exponent q) ⟨1, exponent q, by norm_num, he, by simp⟩ le_rfl
      refine .inr ⟨n, ?_⟩
      rw [← hn, abs_sub_comm, abs_sub_comm w, abs_of_nonneg (by linarith), abs_of_nonneg (by linarith)]
      linarith
    · -- everything is a multiple of the smallest number
      left
      obtain ⟨m, f, h1, h2, rfl⟩ := hw
      rw [max_eq_right (by omega)]
      obtain ⟨k, hk⟩ : ∃ k : Nat, f = -126 - 23 + k := ⟨(f - (-126 - 23)).toNat, by omega⟩
      refine ⟨m * 2 ^ k, ?_⟩
      rw [hk, zpow_add₀ (by norm_num), zpow_natCast]
      push_cast
      ring

theorem rne_best (q : ℚ) (n : ℤ) : |(rne q : ℚ) - q| ≤ |n - q| := by
  by_contra h
  rw [not_le] at h
  have h1 := rne_near q
  have : rne q = n := rne_of_near (by rw [abs_sub_comm]; linarith)
  rw [this] at h
  exact lt_irrefl _ h

theorem rne_tie {q : ℚ} {n : ℤ} (hn : n ≠ rne q) (h : |(n : ℚ) - q| = |(rne q : ℚ) - q|) : Even (rne q) := by
  have h1 := rne_near q
  have hd : (1 : ℚ) ≤ |(n : ℚ) - rne q| := by
    have : 1 ≤ |n - rne q| := Int.one_le_abs (sub_ne_zero.mpr hn)
    exact_mod_cast this
  have h2 : |(n : ℚ) - rne q| ≤ |(n : ℚ) - q| + |(rne q : ℚ) - q| := by
    rw [abs_sub_comm (rne q : ℚ) q]; exact abs_sub_le _ _ _
  have h3 : |(rne q : ℚ) - q| = 1 / 2 := le_antisymm h1 (by linarith)
  have e : rne q = if q - ⌊q⌋ < 1 / 2 then ⌊q⌋ else if 1 / 2 < q - ⌊q⌋ then ⌊q⌋ + 1
      else if ⌊q⌋ % 2 = 0 then ⌊q⌋ else ⌊q⌋ + 1 := rfl
  have hl := Int.floor_le q
  have hu := Int.lt_floor_add_one q
  rw [e] at h3 ⊢
  split at h3
  · rename_i c
    rw [abs_of_nonpos (by linarith)] at h3
    linarith
  · rename_i c
    rw [if_neg c]
    split at h3
    · rename_i c2
      push_cast at h3
      rw [abs_of_nonneg (by linarith)] at h3
      linarith
    · rename_i c2
      rw [if_neg c2]
      split
      · rename_i c3; exact Int.even_iff.mpr c3
      · rename_i c3; rw [Int.even_iff]; omega

theorem rnd_dist {q : ℚ} (hq : 0 < q) (n : ℤ) : |n * ulp q - q| = |n - q / ulp q| * ulp q := by
  have hu := ulp_pos q
  rw [← abs_of_pos hu, ← abs_mul, abs_of_pos hu]
  congr 1
  field_simp

/-- No representable number is nearer. -/
theorem rnd_best {q w : ℚ} (hq : 0 < q) (hw : Rep w) : |rnd q - q| ≤ |w - q| := by
  have key : ∀ n : ℤ, |rnd q - q| ≤ |n * ulp q - q| := by
    intro n
    rw [rnd_pos_eq hq, rnd_dist hq, rnd_dist hq]
    exact mul_le_mul_of_nonneg_right (rne_best _ _) (ulp_pos q).le
  rcases candidate hq hw with ⟨n, rfl⟩ | ⟨n, h⟩
  · exact key n
  · exact (key n).trans h.le

/-- Of two nearest ones the even one is taken. -/
theorem rnd_tie {q w : ℚ} (hq : 0 < q) (hw : Rep w) (hne : w ≠ rnd q) (h : |w - q| = |rnd q - q|) : Even (rne (q / ulp q)) := by
  rcases candidate hq hw with ⟨n, rfl⟩ | ⟨n, h2⟩
  · rw [rnd_pos_eq hq, rnd_dist hq, rnd_dist hq] at h
    refine rne_tie (n := n) ?_ (mul_right_cancel₀ (ulp_pos q).ne' h)
    rintro rfl
    exact hne (rnd_pos_eq hq).symm
  · exfalso
    rw [h, rnd_pos_eq hq, rnd_dist hq, rnd_dist hq] at h2
    have := mul_le_mul_of_nonneg_right (rne_best (q / ulp q) n) (ulp_pos q).le
    linarith

theorem rnd_even {q : ℚ} (hq : 0 < q) (hlim : rnd q < 2 ^ 128) (he : Even (rne (q / ulp q))) : EvenDigit (rnd q) := by
  obtain ⟨e1, e2⟩ := exponent_spec hq
  have hu := ulp_pos q
  have n0 : 0 ≤ rne (q / ulp q) := rne_nonneg (by positivity)
  have n1 : rne (q / ulp q) ≤ 2 ^ 24 := by
    refine rne_le ?_
    rw [div_le_iff₀ hu, ulp_eq]
    have : (2 : ℚ) ^ (exponent q + 1) ≤ (2 : ℚ) ^ (24 + (max (exponent q) (-126) - 23)) := zpow_le_of_le (by omega)
    rw [zpow_add₀ (by norm_num) 24] at this
    push_cast
    exact e2.le.trans (by exact_mod_cast this)
  have n2 : max (exponent q) (-126) - 23 = -149 ∨ 2 ^ 23 ≤ rne (q / ulp q) := by
    rcases le_or_gt (exponent q) (-126) with h | h
    · left; omega
    · right
      refine le_rne ?_
      rw [le_div_iff₀ hu, ulp_eq, max_eq_left h.le]
      have : (2 : ℚ) ^ (23 + (exponent q - 23)) = 2 ^ 23 * (2 : ℚ) ^ (exponent q - 23) := by
        rw [zpow_add₀ (by norm_num)]; rfl
      have h2 : (((2 ^ 23 : ℤ)) : ℚ) = 2 ^ 23 := by norm_num
      rw [h2, ← this]
      simpa using e1
  have ev : rnd q = rne (q / ulp q) * (2 : ℚ) ^ (max (exponent q) (-126) - 23) := by rw [← ulp_eq, rnd_pos_eq hq]
  rw [ev] at hlim ⊢
  generalize rne (q / ulp q) = n at *
  generalize ht : max (exponent q) (-126) - 23 = t at *
  have t0 : -149 ≤ t := by omega
  -- the exponent is not too large
  have top : ∀ m f : ℤ, 2 ^ 23 ≤ m → (m : ℚ) * (2 : ℚ) ^ f < 2 ^ 128 → f ≤ 104 := by
    intro m f hm hlt
    by_contra hc
    have h1 : (2 : ℚ) ^ (105 : ℤ) ≤ (2 : ℚ) ^ f := zpow_le_of_le (by omega)
    have h2 : ((2 : ℚ) ^ 23) ≤ m := by exact_mod_cast hm
    have h3 : (2 : ℚ) ^ 23 * (2 : ℚ) ^ (105 : ℤ) ≤ m * (2 : ℚ) ^ f := mul_le_mul h2 h1 (by positivity) (by linarith [show (0 : ℚ) ≤ 2 ^ 23 by positivity])
    norm_num at h3 hlt
    linarith
  rcases eq_or_lt_of_le n1 with h | h
  · have ev2 : (n : ℚ) * (2 : ℚ) ^ t = ((2 ^ 23 : ℤ) : ℚ) * (2 : ℚ) ^ (t + 1) := by
      rw [h, zpow_add₀ (by norm_num)]; push_cast; ring
    rw [ev2] at hlim ⊢
    exact ⟨2 ^ 23, t + 1, by norm_num, .inl (by norm_num), by omega, top _ _ (le_refl _) hlim, rfl, ⟨2 ^ 22, by norm_num⟩⟩
  · refine ⟨n, t, by rwa [abs_of_nonneg n0], ?_, t0, ?_, rfl, he⟩
    · rw [abs_of_nonneg n0]; exact n2.symm
    · rcases n2 with h2 | h2
      · omega
      · exact top n t h2 hlim

/-- The limit of overflow is the midpoint between the largest finite number and the next one. -/
theorem overflow_iff {q : ℚ} (hq : 0 < q) : limit ≤ rnd q ↔ (2 : ℚ) ^ 128 - 2 ^ 103 ≤ q := by
  have mid : rnd ((2 : ℚ) ^ 128 - 2 ^ 103) = 2 ^ 128 := by decide +kernel
  have big : Rep ((2 : ℚ) ^ 128 - 2 ^ 104) := ⟨2 ^ 24 - 1, 104, by norm_num, by norm_num, by norm_num⟩
  rw [limit_eq]
  constructor
  · intro h
    by_contra hc
    rw [not_le] at hc
    have h1 : rnd q ≤ 2 ^ 128 := by rw [← mid]; exact rnd_mono hq.le hc.le
    have h2 : rnd q = 2 ^ 128 := le_antisymm h1 (by exact_mod_cast h)
    have h3 := rnd_best hq big
    rw [h2, abs_of_nonneg (by norm_num at hc ⊢; linarith)] at h3
    rcases abs_cases ((2 : ℚ) ^ 128 - 2 ^ 104 - q) with ⟨h4, _⟩ | ⟨h4, _⟩
    · rw [h4] at h3; norm_num at h3
    · rw [h4] at h3; norm_num at h3 hc; linarith
  · intro h
    have := rnd_mono (by norm_num) h
    rw [mid] at this
    exact_mod_cast this

/-- Rounding of rational numbers. -/
theorem ofRat_correct (z : Bool) (q : ℚ) : RoundsTo q (ofRat z q) := by
  unfold RoundsTo ofRat
  by_cases h0 : q = 0
  · subst h0
    rw [if_pos rfl, if_neg (by norm_num)]
    refine ⟨0, ⟨z, 0, rfl, le_refl _, by cases z <;> simp [signed]⟩, ⟨0, 0, by norm_num, by norm_num, by norm_num, by simp⟩, ?_, ?_⟩
    · intro w _; simp
    · intro w _ hw h
      simp at h
      exact absurd h hw
  rw [if_neg h0, round_eq]
  have hpos : 0 < |q| := abs_pos.mpr h0
  by_cases hlim : limit ≤ rnd |q|
  · rw [if_pos hlim, if_pos ((overflow_iff hpos).mp hlim)]
  rw [if_neg hlim, if_neg (fun h => hlim ((overflow_iff hpos).mpr h))]
  have hlt : rnd |q| < 2 ^ 128 := by
    rw [limit_eq, not_le] at hlim
    exact_mod_cast hlim
  have hn := rnd_nonneg hpos.le
  have hfin : Finite32 (rnd |q|) := rep_finite (rep_rnd hpos.le) hlt
  -- for positive numbers
  generalize hr : |q| = r at *
  have best : ∀ w, Finite32 w → |rnd r - r| ≤ |w - r| := by
    intro w hw
    rcases le_or_gt 0 w with h | h
    · exact rnd_best hpos (finite_rep hw h)
    · refine (rnd_best hpos rep_zero).trans ?_
      rw [zero_sub, abs_neg, abs_of_pos hpos, abs_of_neg (by linarith : w - r < 0)]
      linarith
  have even : ∀ w, Finite32 w → w ≠ rnd r → |w - r| = |rnd r - r| → EvenDigit (rnd r) := by
    intro w hw hne h
    rcases le_or_gt 0 w with h' | h'
    · exact rnd_even hpos hlt (rnd_tie hpos (finite_rep hw h') hne h)
    · have h2 := rnd_best hpos rep_zero
      rw [zero_sub, abs_neg, abs_of_pos hpos, ← h, abs_of_neg (by linarith : w - r < 0)] at h2
      linarith
  rcases lt_or_gt_of_ne h0 with hs | hs
  · rw [decide_eq_true hs]
    rw [abs_of_neg hs] at hr
    subst hr
    refine ⟨-rnd (-q), ⟨true, rnd (-q), rfl, hn, rfl⟩, hfin.neg, fun w hw => ?_, fun w hw hne h => ?_⟩
    · have := best (-w) hw.neg
      rw [← abs_neg (-rnd (-q) - q), ← abs_neg (w - q)]
      convert this using 2 <;> ring
    · refine (even (-w) hw.neg (fun h2 => hne (by rw [← h2]; ring)) ?_).neg
      rw [← abs_neg (-rnd (-q) - q), ← abs_neg (w - q)] at h
      convert h using 2 <;> ring
  · rw [decide_eq_false (not_lt.mpr hs.le)]
    rw [abs_of_pos hs] at hr
    subst hr
    exact ⟨rnd q, ⟨false, rnd q, rfl, hn, rfl⟩, hfin, best, even⟩

theorem lit_correct (q : ℚ) : RoundsTo q (FOps.lit q) := ofRat_correct false q

theorem ofNat_correct (n : Nat) : RoundsTo n (FOps.ofNat n) := ofRat_correct false n

/-! ## The four operations -/

theorem round_ofRat (s : Bool) {r : ℚ} (h : 0 ≤ r) : RoundsTo (signed s r) (round s r) := by
  rcases eq_or_lt_of_le h with h | h
  · subst h
    have := ofRat_correct s 0
    rw [ofRat, if_pos rfl] at this
    rw [round, if_pos rfl]
    convert this using 1
    cases s <;> simp [signed]
  · have := ofRat_correct false (signed s r)
    have h2 : signed s r ≠ 0 := by cases s <;> simp [signed, h.ne']
    rw [ofRat, if_neg h2] at this
    convert this using 1
    cases s
    · simp [signed, not_lt.mpr h.le, abs_of_pos h]
    · simp [signed, h, abs_of_pos h]

variable {x y : F32} {a b : ℚ}

theorem add_correct (hx : Is x a) (hy : Is y b) : RoundsTo (a + b) (add x y) := by
  obtain ⟨s, p, rfl, _, rfl⟩ := hx
  obtain ⟨t, q, rfl, _, rfl⟩ := hy
  exact ofRat_correct _ _

theorem Is.opposite (hy : Is y b) : Is (F32.neg y) (-b) := by
  obtain ⟨t, q, rfl, h, rfl⟩ := hy
  exact ⟨!t, q, rfl, h, by cases t <;> simp [signed]⟩

theorem sub_correct (hx : Is x a) (hy : Is y b) : RoundsTo (a - b) (sub x y) := by
  rw [sub_eq_add_neg]
  exact add_correct hx hy.opposite

theorem mul_correct (hx : Is x a) (hy : Is y b) : RoundsTo (a * b) (mul x y) := by
  obtain ⟨s, p, rfl, hp, rfl⟩ := hx
  obtain ⟨t, q, rfl, hq, rfl⟩ := hy
  have := round_ofRat (s ^^ t) (mul_nonneg hp hq)
  show RoundsTo _ (round (s ^^ t) (p * q))
  convert this using 1
  cases s <;> cases t <;> simp [signed]

theorem div_correct (hx : Is x a) (hy : Is y b) (hb : b ≠ 0) : RoundsTo (a / b) (div x y) := by
  obtain ⟨s, p, rfl, hp, rfl⟩ := hx
  obtain ⟨t, q, rfl, hq, rfl⟩ := hy
  have hq0 : q ≠ 0 := by rintro rfl; apply hb; cases t <;> simp [signed]
  have := round_ofRat (s ^^ t) (div_nonneg hp hq)
  simp only [div, if_neg hq0]
  convert this using 1
  cases s <;> cases t <;> simp [signed, neg_div, div_neg]

/-! ## Infinities, NaN and comparisons -/

theorem add_commutes (x y : F32) : add x y = add y x := by
  cases x <;> cases y <;> simp only [add]
  · rename_i s t; cases s <;> cases t <;> rfl
  · rename_i s p t q; rw [add_comm, Bool.and_comm]

theorem mul_commutes (x y : F32) : mul x y = mul y x := by
  cases x <;> cases y <;> simp only [mul, Bool.xor_comm, mul_comm]

/-- NaN comes out exactly where IEEE 754 §7.2 says: from NaN, `∞ − ∞`, `0·∞`, `0/0` and `∞/∞`. -/
theorem add_invalid (x y : F32) : add x y = nan ↔ x = nan ∨ y = nan ∨ ∃ s, x = inf s ∧ y = inf (!s) := by
  have hr : ∀ z q, ofRat z q ≠ nan := by
    intro z q; unfold ofRat round; split <;> [nofun; (split <;> [nofun; (dsimp only; split <;> nofun)])]
  cases x <;> cases y <;> simp [add, hr]
  rename_i s t; cases s <;> cases t <;> simp

theorem round_not_nan (s : Bool) (q : ℚ) : round s q ≠ nan := by
  unfold round; split <;> [nofun; (dsimp only; split <;> nofun)]

theorem mul_invalid (x y : F32) : mul x y = nan ↔ x = nan ∨ y = nan ∨ (∃ s t, x = inf s ∧ y = fin t 0) ∨ (∃ s t, x = fin s 0 ∧ y = inf t) := by
  cases x <;> cases y <;> simp [mul, round_not_nan]

theorem div_invalid (x y : F32) : div x y = nan ↔ x = nan ∨ y = nan ∨ (∃ s t, x = inf s ∧ y = inf t) ∨ (∃ s t, x = fin s 0 ∧ y = fin t 0) := by
  cases x <;> cases y <;> simp [div]
  rename_i s p t q
  by_cases hq : q = 0
  · by_cases hp : p = 0 <;> simp [hq, hp]
  · simp [hq, round_not_nan]

/-- Signs of products and quotients with infinities and zeros, IEEE 754 §6.3. -/
theorem infinite_cases (s t : Bool) (hy : Is y b) (hb : b ≠ 0) : mul (inf s) (inf t) = inf (s ^^ t) ∧ mul (inf s) y = inf (s ^^ decide (b < 0)) ∧
    div (inf s) y = inf (s ^^ decide (b < 0)) ∧ div y (inf s) = fin (s ^^ decide (b < 0)) 0 ∧ div y (fin s 0) = inf (s ^^ decide (b < 0)) ∧
    add (inf s) y = inf s ∧ add (inf s) (inf s) = inf s := by
  obtain ⟨t, q, rfl, hq, rfl⟩ := hy
  have hq0 : q ≠ 0 := by rintro rfl; apply hb; cases t <;> simp [signed]
  have hpos : 0 < q := lt_of_le_of_ne hq hq0.symm
  have ht : decide (signed t q < 0) = t := by
    cases t
    · simp [signed, hq]
    · simp [signed, hpos]
  rw [ht]
  simp [mul, div, add, hq0, Bool.xor_comm]

/-- The values in order: `-∞`, the finite numbers, `+∞`. -/
def rank : F32 → WithBot (WithTop ℚ)
  | nan => 0
  | inf true => ⊥
  | inf false => ((⊤ : WithTop ℚ) : WithBot (WithTop ℚ))
  | fin s p => ((signed s p : ℚ) : WithTop ℚ)

theorem lt_iff (x y : F32) : lt x y = true ↔ x ≠ nan ∧ y ≠ nan ∧ rank x < rank y := by
  match x, y with
  | nan, _ => simp [lt]
  | inf s, nan => simp [lt]
  | fin s p, nan => simp [lt]
  | inf s, inf t => cases s <;> cases t <;> simp [lt, rank]
  | inf s, fin t q => cases s <;> simp [lt, rank]
  | fin s p, inf true => simp [lt, rank]
  | fin s p, inf false => simpa [lt, rank] using WithBot.coe_lt_coe.mpr (WithTop.coe_lt_top (signed s p))
  | fin s p, fin t q => simp [lt, rank]

theorem le_iff (x y : F32) : le x y = true ↔ x ≠ nan ∧ y ≠ nan ∧ rank x ≤ rank y := by
  match x, y with
  | nan, _ => simp [le]
  | inf s, nan => simp [le]
  | fin s p, nan => simp [le]
  | inf s, inf t => cases s <;> cases t <;> simp [le, rank]
  | inf s, fin t q => cases s <;> simp [le, rank]
  | fin s p, inf t => cases t <;> simp [le, rank]
  | fin s p, fin t q => simp [le, rank]

/-- The three maxima are maxima of numbers, and differ in what they do with NaN. -/
theorem max_ranks (hx : x ≠ nan) (hy : y ≠ nan) : rank (maxNum x y) = max (rank x) (rank y) ∧ rank (maxPs x y) = max (rank x) (rank y) ∧
    rank (maxNeon x y) = max (rank x) (rank y) := by
  have h1 : lt x y = true ↔ rank x < rank y := by rw [lt_iff]; simp [hx, hy]
  have h2 : lt y x = true ↔ rank y < rank x := by rw [lt_iff]; simp [hx, hy]
  refine ⟨?_, ?_, ?_⟩
  · rw [maxNum, if_neg hx]
    by_cases h : lt x y = true
    · rw [if_pos h, max_eq_right (h1.mp h).le]
    · rw [if_neg h, max_eq_left (not_lt.mp fun h' => h (h1.mpr h'))]
  · rw [maxPs]
    by_cases h : lt y x = true
    · rw [if_pos h, max_eq_left (h2.mp h).le]
    · rw [if_neg h, max_eq_right (not_lt.mp fun h' => h (h2.mpr h'))]
  · rw [maxNeon, if_neg (by simp [hx, hy])]
    by_cases h : lt x y = true
    · rw [if_pos h, max_eq_right (h1.mp h).le]
    · rw [if_neg h]
      split
      · rename_i hz
        rw [hz.1, hz.2]
        simp [rank, signed]
      · rw [max_eq_left (not_lt.mp fun h' => h (h1.mpr h'))]

theorem max_nan : maxNum nan y = y ∧ maxNum x nan = x ∧ maxPs nan y = y ∧ maxPs x nan = nan ∧ maxNeon nan y = nan ∧ maxNeon x nan = nan := by
  refine ⟨by simp [maxNum], ?_, ?_, ?_, by simp [maxNeon], by simp [maxNeon]⟩
  · cases x <;> simp [maxNum, lt]
  · cases y <;> simp [maxPs, lt]
  · cases x <;> simp [maxPs, lt]

end F32
end Ezk

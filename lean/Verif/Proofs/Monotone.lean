import Verif.Proofs.SimdMath
import Verif.Proofs.Accuracy

/-!
# Monotonicity of binary32 arithmetic

Rounding is monotone, so operations that are monotone in the reals are so in binary32, as long as nothing overflows.
`Ord B x y`: `x` and `y` are finite, of magnitude at most `B`, and `x ≤ y`.
-/

namespace Ezk
open F32 FOps Spec

namespace F32

/-- Rounding of signed numbers. -/
def rds (q : ℚ) : ℚ := if q < 0 then - rnd (-q) else rnd q

theorem rds_mono {p q : ℚ} (h : p ≤ q) : rds p ≤ rds q := by
  unfold rds
  split_ifs with h1 h2 h2
  · exact neg_le_neg (rnd_mono (by linarith) (by linarith))
  · linarith [rnd_nonneg (q := -p) (by linarith), rnd_nonneg (q := q) (by linarith)]
  · linarith
  · exact rnd_mono (by linarith) h

theorem rds_abs (q : ℚ) : |rds q| = rnd |q| := by
  unfold rds
  split_ifs with h
  · rw [abs_neg, abs_of_neg h, abs_of_nonneg (rnd_nonneg (by linarith))]
  · rw [abs_of_nonneg (not_lt.mp h), abs_of_nonneg (rnd_nonneg (not_lt.mp h))]

theorem rds_le {q B : ℚ} (h : |q| ≤ B) (hB : 1 / 1000 ≤ B) : |rds q| ≤ 2 * B := by
  rw [rds_abs]
  have := rnd_error (abs_nonneg q)
  rw [abs_le] at this
  have h2 := this.2
  norm_num at h2 hB
  linarith

theorem round_fin (s : Bool) {q : ℚ} (h0 : 0 ≤ q) (hq : q ≤ 10 ^ 9) : round s q = fin s (rnd q) := by
  rw [round_eq, if_neg]
  rw [limit_eq, not_le]
  exact lt_of_le_of_lt (rnd_le_binade (e := 100) h0 (by norm_num) (hq.trans (by norm_num))) (by norm_num)

theorem signed_rnd (s : Bool) {q : ℚ} (h0 : 0 ≤ q) : signed s (rnd q) = rds (signed s q) := by
  cases s
  · simp only [signed, Bool.false_eq_true, if_false, rds, if_neg (not_lt.mpr h0)]
  · simp only [signed, if_true, rds, neg_neg]
    split_ifs with h
    · rfl
    · have : q = 0 := by linarith
      rw [this]; simp [rnd_zero]

theorem is_round_rds (s : Bool) {q : ℚ} (h0 : 0 ≤ q) (hq : q ≤ 10 ^ 9) : Is (round s q) (rds (signed s q)) :=
  ⟨s, rnd q, round_fin s h0 hq, rnd_nonneg h0, signed_rnd s h0⟩

theorem is_mul_rds {x y : F32} {a b : ℚ} (hx : Is x a) (hy : Is y b) (h : |a * b| ≤ 10 ^ 9) : Is (mul x y) (rds (a * b)) := by
  obtain ⟨s, p, rfl, hp, rfl⟩ := hx
  obtain ⟨t, q, rfl, hq, rfl⟩ := hy
  rw [abs_mul, signed_abs hp, signed_abs hq] at h
  rw [← signed_mul]
  exact is_round_rds _ (mul_nonneg hp hq) h

theorem is_add_rds {x y : F32} {a b : ℚ} (hx : Is x a) (hy : Is y b) (h : |a + b| ≤ 10 ^ 9) : Is (add x y) (rds (a + b)) := by
  obtain ⟨s, p, rfl, hp, rfl⟩ := hx
  obtain ⟨t, q, rfl, hq, rfl⟩ := hy
  change Is (ofRat (s && t) (signed s p + signed t q)) _
  generalize signed s p + signed t q = v at h ⊢
  unfold ofRat
  split
  · rename_i h0
    rw [h0]
    exact ⟨_, 0, rfl, le_refl _, by cases s && t <;> simp [signed, rds, rnd_zero]⟩
  · have := is_round_rds (decide (v < 0)) (abs_nonneg v) h
    rwa [signed_decide] at this

theorem is_div_rds {x y : F32} {a b : ℚ} (hx : Is x a) (hy : Is y b) (hb : 0 < b) (h : |a / b| ≤ 10 ^ 9) :
    Is (div x y) (rds (a / b)) := by
  obtain ⟨s, p, rfl, hp, rfl⟩ := hx
  obtain ⟨t, q, rfl, hq, rfl⟩ := hy
  have ht : t = false := by
    cases t
    · rfl
    · simp only [signed, if_true] at hb; linarith
  subst ht
  simp only [signed, Bool.false_eq_true, if_false] at hb h ⊢
  have e : (if s = true then -p else p) / q = signed (s ^^ false) (p / q) := by cases s <;> simp [signed, neg_div]
  rw [e] at h ⊢
  rw [signed_abs (div_nonneg hp hq)] at h
  simp only [div, if_neg hb.ne']
  exact is_round_rds _ (div_nonneg hp hq) h

theorem is_neg_rds {x : F32} {a : ℚ} (hx : Is x a) : Is (neg x) (-a) := by
  obtain ⟨s, p, rfl, hp, rfl⟩ := hx
  exact ⟨!s, p, rfl, hp, by cases s <;> simp [signed]⟩

/-- Finite, of magnitude at most `B`, and in order. -/
def Ord (B : ℚ) (x y : F32) : Prop := ∃ a b, Is x a ∧ Is y b ∧ |a| ≤ B ∧ |b| ≤ B ∧ a ≤ b

theorem Ord.mono {B C : ℚ} {x y : F32} (h : Ord B x y) (hB : B ≤ C) : Ord C x y := by
  obtain ⟨a, b, h1, h2, h3, h4, h5⟩ := h
  exact ⟨a, b, h1, h2, h3.trans hB, h4.trans hB, h5⟩

theorem Is.ord {x : F32} {a B : ℚ} (h : Is x a) (hB : |a| ≤ B) : Ord B x x := ⟨a, a, h, h, hB, hB, le_refl _⟩

theorem ord_add {A B C : ℚ} {x x' y y' : F32} (hx : Ord A x x') (hy : Ord B y y') (h1 : 1 / 1000 ≤ A + B)
    (h2 : A + B ≤ 10 ^ 9) (hC : 2 * (A + B) ≤ C) : Ord C (add x y) (add x' y') := by
  obtain ⟨a, a', x1, x2, x3, x4, x5⟩ := hx
  obtain ⟨b, b', y1, y2, y3, y4, y5⟩ := hy
  have e1 : |a + b| ≤ A + B := (abs_add_le a b).trans (add_le_add x3 y3)
  have e2 : |a' + b'| ≤ A + B := (abs_add_le a' b').trans (add_le_add x4 y4)
  exact ⟨_, _, is_add_rds x1 y1 (e1.trans h2), is_add_rds x2 y2 (e2.trans h2), (rds_le e1 h1).trans hC,
    (rds_le e2 h1).trans hC, rds_mono (add_le_add x5 y5)⟩

theorem ord_neg {A : ℚ} {x x' : F32} (hx : Ord A x x') : Ord A (neg x') (neg x) := by
  obtain ⟨a, a', x1, x2, x3, x4, x5⟩ := hx
  exact ⟨_, _, is_neg_rds x2, is_neg_rds x1, by rwa [abs_neg], by rwa [abs_neg], by linarith⟩

theorem ord_sub {A B C : ℚ} {x x' y y' : F32} (hx : Ord A x x') (hy : Ord B y' y) (h1 : 1 / 1000 ≤ A + B)
    (h2 : A + B ≤ 10 ^ 9) (hC : 2 * (A + B) ≤ C) : Ord C (sub x y) (sub x' y') := ord_add hx (ord_neg hy) h1 h2 hC

theorem ord_mul {A K C : ℚ} {x x' k : F32} {q : ℚ} (hx : Ord A x x') (hk : Is k q) (h0 : 0 ≤ q) (hq : q ≤ K)
    (h1 : 1 / 1000 ≤ A * K) (h2 : A * K ≤ 10 ^ 9) (hC : 2 * (A * K) ≤ C) : Ord C (mul x k) (mul x' k) := by
  obtain ⟨a, a', x1, x2, x3, x4, x5⟩ := hx
  have hA : 0 ≤ A := (abs_nonneg _).trans x3
  have e1 : |a * q| ≤ A * K := by rw [abs_mul, abs_of_nonneg h0]; exact mul_le_mul x3 hq h0 hA
  have e2 : |a' * q| ≤ A * K := by rw [abs_mul, abs_of_nonneg h0]; exact mul_le_mul x4 hq h0 hA
  exact ⟨_, _, is_mul_rds x1 hk (e1.trans h2), is_mul_rds x2 hk (e2.trans h2), (rds_le e1 h1).trans hC, (rds_le e2 h1).trans hC,
    rds_mono (mul_le_mul_of_nonneg_right x5 h0)⟩

theorem ord_mul_neg {A K C : ℚ} {x x' k : F32} {q : ℚ} (hx : Ord A x' x) (hk : Is k q) (h0 : q ≤ 0) (hq : -q ≤ K)
    (h1 : 1 / 1000 ≤ A * K) (h2 : A * K ≤ 10 ^ 9) (hC : 2 * (A * K) ≤ C) : Ord C (mul x k) (mul x' k) := by
  obtain ⟨a', a, x2, x1, x4, x3, x5⟩ := hx
  have hA : 0 ≤ A := (abs_nonneg _).trans x3
  have e1 : |a * q| ≤ A * K := by rw [abs_mul, abs_of_nonpos h0]; exact mul_le_mul x3 hq (by linarith) hA
  have e2 : |a' * q| ≤ A * K := by rw [abs_mul, abs_of_nonpos h0]; exact mul_le_mul x4 hq (by linarith) hA
  exact ⟨_, _, is_mul_rds x1 hk (e1.trans h2), is_mul_rds x2 hk (e2.trans h2), (rds_le e1 h1).trans hC, (rds_le e2 h1).trans hC,
    rds_mono (mul_le_mul_of_nonpos_right x5 h0)⟩

theorem ord_div {A K C : ℚ} {x x' k : F32} {q : ℚ} (hx : Ord A x x') (hk : Is k q) (h0 : 1 ≤ q)
    (h1 : 1 / 1000 ≤ A) (h2 : A ≤ 10 ^ 9) (hC : 2 * A ≤ C) : Ord C (div x k) (div x' k) := by
  obtain ⟨a, a', x1, x2, x3, x4, x5⟩ := hx
  have hp : 0 < q := by linarith
  have e : ∀ a : ℚ, |a| ≤ A → |a / q| ≤ A := by
    intro a ha
    rw [abs_div, abs_of_pos hp]
    exact (div_le_self (abs_nonneg _) h0).trans ha
  exact ⟨_, _, is_div_rds x1 hk hp ((e _ x3).trans h2), is_div_rds x2 hk hp ((e _ x4).trans h2), (rds_le (e _ x3) h1).trans hC,
    (rds_le (e _ x4) h1).trans hC, rds_mono (div_le_div_of_nonneg_right x5 hp.le)⟩

end F32
open PixelFormat

/-! ## Colours -/

/-- A constant between two numbers. -/
def between (x : F32) (lo hi : ℚ) : Bool :=
  match x with
  | fin s p => decide (0 ≤ p) && decide (lo ≤ signed s p) && decide (signed s p ≤ hi)
  | _ => false

theorem is_between {x : F32} {lo hi : ℚ} (h : between x lo hi = true) : ∃ q, Is x q ∧ lo ≤ q ∧ q ≤ hi := by
  cases x with
  | nan => cases h
  | inf s => cases h
  | fin s p =>
    simp only [between, Bool.and_eq_true, decide_eq_true_eq] at h
    exact ⟨_, ⟨s, p, rfl, h.1.1, rfl⟩, h.1.2, h.2⟩

/-- Times a positive constant. -/
theorem ord_up {A K C : ℚ} {x x' k : F32} (hk : between k 0 K = true) (hx : Ord A x x') (h1 : 1 / 1000 ≤ A * K)
    (h2 : A * K ≤ 10 ^ 9) (hC : 2 * (A * K) ≤ C) : Ord C (F32.mul x k) (F32.mul x' k) := by
  obtain ⟨q, h, h3, h4⟩ := is_between hk
  exact ord_mul hx h h3 h4 h1 h2 hC

/-- Times a negative constant. -/
theorem ord_down {A K C : ℚ} {x x' k : F32} (hk : between k (-K) 0 = true) (hx : Ord A x' x) (h1 : 1 / 1000 ≤ A * K)
    (h2 : A * K ≤ 10 ^ 9) (hC : 2 * (A * K) ≤ C) : Ord C (F32.mul x k) (F32.mul x' k) := by
  obtain ⟨q, h, h3, h4⟩ := is_between hk
  exact ord_mul_neg hx h h4 (by linarith) h1 h2 hC

theorem ord_self {x : F32} {lo hi B : ℚ} (h : between x lo hi = true) (h1 : -B ≤ lo) (h2 : hi ≤ B) : Ord B x x := by
  obtain ⟨q, h, h3, h4⟩ := is_between h
  exact h.ord (abs_le.mpr ⟨by linarith, by linarith⟩)

variable {ar ar' : Arith F32}

theorem ord_dot (hi : IsIeee ar) (hi' : IsIeee ar') {x y z x' y' z' a b c : F32} (h1 : Ord 128 (F32.mul x a) (F32.mul x' a))
    (h2 : Ord 128 (F32.mul y b) (F32.mul y' b)) (h3 : Ord 128 (F32.mul z c) (F32.mul z' c)) :
    Ord 1280 (dot ar x a y b z c) (dot ar' x' a y' b z' c) := by
  simp only [dot, hi.add, hi.mul, hi'.add, hi'.mul]
  exact ord_add (C := 1280) (ord_add (C := 512) h1 h2 (by norm_num) (by norm_num) (by norm_num)) h3 (by norm_num) (by norm_num)
    (by norm_num)

/-- The signs of the coefficients of RGB to YUV. -/
theorem forward_signs (cs : ColorSpace) :
    between (forwardMat cs : Mat F32).m00 0 1 = true ∧ between (forwardMat cs : Mat F32).m01 0 1 = true ∧
    between (forwardMat cs : Mat F32).m02 0 1 = true ∧
    between (forwardMat cs : Mat F32).m10 (-1) 0 = true ∧ between (forwardMat cs : Mat F32).m11 (-1) 0 = true ∧
    between (forwardMat cs : Mat F32).m12 0 1 = true ∧
    between (forwardMat cs : Mat F32).m20 0 1 = true ∧ between (forwardMat cs : Mat F32).m21 (-1) 0 = true ∧
    between (forwardMat cs : Mat F32).m22 (-1) 0 = true := by
  cases cs <;> decide +kernel

/-- The signs of the coefficients of YUV to RGB. -/
theorem backward_signs (cs : ColorSpace) :
    between (backwardMat cs : Mat F32).m20 0 2 = true ∧ between (backwardMat cs : Mat F32).m21 (-2) 0 = true ∧
    between (backwardMat cs : Mat F32).m11 (-2) 0 = true ∧ between (backwardMat cs : Mat F32).m12 0 2 = true := by
  cases cs <;> decide +kernel

theorem ord_compressLuma (hi : IsIeee ar) (hi' : IsIeee ar') (full : Bool) {y y' : F32} (h : Ord 1280 y y') :
    Ord 8192 (compressLuma ar full y) (compressLuma ar' full y') := by
  unfold compressLuma
  cases full
  · simp only [Bool.false_eq_true, if_false, hi.add, hi.mul, hi'.add, hi'.mul]
    exact ord_add (A := 1) (C := 8192) (ord_self (lo := 0) (hi := 1) (by decide +kernel) (by norm_num) (by norm_num))
      (ord_up (K := 1) (C := 2560) (by decide +kernel) h (by norm_num) (by norm_num) (by norm_num)) (by norm_num) (by norm_num)
      (by norm_num)
  · simp only [if_true]
    exact h.mono (by norm_num)

theorem ord_compressChroma (hi : IsIeee ar) (hi' : IsIeee ar') (full : Bool) {y y' : F32} (h : Ord 16384 y y') :
    Ord 200000 (compressChroma ar full y) (compressChroma ar' full y') := by
  have h1 : Ord 40000 (F32.add y (lit 0.5)) (F32.add y' (lit 0.5)) :=
    ord_add (B := 1) h (ord_self (lo := 0) (hi := 1) (by decide +kernel) (by norm_num) (by norm_num)) (by norm_num) (by norm_num)
      (by norm_num)
  unfold compressChroma
  cases full
  · simp only [Bool.false_eq_true, if_false, hi.add, hi.mul, hi'.add, hi'.mul]
    exact ord_add (A := 1) (ord_self (lo := 0) (hi := 1) (by decide +kernel) (by norm_num) (by norm_num))
      (ord_up (K := 1) (C := 80000) (by decide +kernel) h1 (by norm_num) (by norm_num) (by norm_num)) (by norm_num) (by norm_num)
      (by norm_num)
  · simp only [if_true, hi.add, hi'.add]
    exact h1.mono (by norm_num)

theorem ord_luma (hi : IsIeee ar) (hi' : IsIeee ar') {cs : ColorSpace} (hm : isMatrix cs = true) (t : ColorTransfer)
    (pr : ColorPrimaries) {q q' : C3 F32} (h1 : Ord 64 q.1 q'.1) (h2 : Ord 64 q.2.1 q'.2.1) (h3 : Ord 64 q.2.2 q'.2.2) :
    Ord 1280 (rgbToYuv ar cs t pr q).1 (rgbToYuv ar' cs t pr q').1 := by
  obtain ⟨a, b, c, _⟩ := forward_signs cs
  rw [rgbToYuv_matrix _ hm, rgbToYuv_matrix _ hm]
  exact ord_dot hi hi' (ord_up (C := 128) a h1 (by norm_num) (by norm_num) (by norm_num))
    (ord_up (C := 128) b h2 (by norm_num) (by norm_num) (by norm_num))
    (ord_up (C := 128) c h3 (by norm_num) (by norm_num) (by norm_num))

/-- Bluer: more blue, less of the other two. -/
def Bluer (B : ℚ) (q q' : C3 F32) : Prop := Ord B q'.1 q.1 ∧ Ord B q'.2.1 q.2.1 ∧ Ord B q.2.2 q'.2.2

/-- Redder: more red, less of the other two. -/
def Redder (B : ℚ) (q q' : C3 F32) : Prop := Ord B q.1 q'.1 ∧ Ord B q'.2.1 q.2.1 ∧ Ord B q'.2.2 q.2.2

theorem ord_u (hi : IsIeee ar) (hi' : IsIeee ar') {cs : ColorSpace} (hm : isMatrix cs = true) (t : ColorTransfer)
    (pr : ColorPrimaries) {q q' : C3 F32} (h : Bluer 64 q q') :
    Ord 1280 (rgbToYuv ar cs t pr q).2.1 (rgbToYuv ar' cs t pr q').2.1 := by
  obtain ⟨_, _, _, a, b, c, _⟩ := forward_signs cs
  rw [rgbToYuv_matrix _ hm, rgbToYuv_matrix _ hm]
  exact ord_dot hi hi' (ord_down (C := 128) a h.1 (by norm_num) (by norm_num) (by norm_num))
    (ord_down (C := 128) b h.2.1 (by norm_num) (by norm_num) (by norm_num))
    (ord_up (C := 128) c h.2.2 (by norm_num) (by norm_num) (by norm_num))

theorem ord_v (hi : IsIeee ar) (hi' : IsIeee ar') {cs : ColorSpace} (hm : isMatrix cs = true) (t : ColorTransfer)
    (pr : ColorPrimaries) {q q' : C3 F32} (h : Redder 64 q q') :
    Ord 1280 (rgbToYuv ar cs t pr q).2.2 (rgbToYuv ar' cs t pr q').2.2 := by
  obtain ⟨_, _, _, _, _, _, a, b, c⟩ := forward_signs cs
  rw [rgbToYuv_matrix _ hm, rgbToYuv_matrix _ hm]
  exact ord_dot hi hi' (ord_up (C := 128) a h.1 (by norm_num) (by norm_num) (by norm_num))
    (ord_down (C := 128) b h.2.1 (by norm_num) (by norm_num) (by norm_num))
    (ord_down (C := 128) c h.2.2 (by norm_num) (by norm_num) (by norm_num))

theorem ord_mean4 (hi : IsIeee ar) (hi' : IsIeee ar') {a b c d a' b' c' d' : F32} (h1 : Ord 2 a a') (h2 : Ord 2 b b')
    (h3 : Ord 2 c c') (h4 : Ord 2 d d') : Ord 64 (mean4 ar a b c d) (mean4 ar' a' b' c' d') := by
  simp only [mean4, hi.add, hi.mul, hi'.add, hi'.mul]
  refine ord_up (A := 32) (K := 1) (by decide +kernel) ?_ (by norm_num) (by norm_num) (by norm_num)
  exact ord_add (A := 8) (B := 8) (ord_add h1 h2 (by norm_num) (by norm_num) (by norm_num))
    (ord_add h3 h4 (by norm_num) (by norm_num) (by norm_num)) (by norm_num) (by norm_num) (by norm_num)

theorem ord_mean2 (hi : IsIeee ar) (hi' : IsIeee ar') {a b a' b' : F32} (h1 : Ord 1280 a a') (h2 : Ord 1280 b b') :
    Ord 16384 (ar.div (ar.add a b) (lit 2.0)) (ar'.div (ar'.add a' b') (lit 2.0)) := by
  simp only [hi.add, hi.div, hi'.add, hi'.div]
  exact ord_div (A := 5120) (K := 0) (ord_add h1 h2 (by norm_num) (by norm_num) (by norm_num))
    (is_const (q := 2) (by decide +kernel)) (by norm_num) (by norm_num) (by norm_num) (by norm_num)

/-- Pixels of the chroma cells of two pixels, pair by pair. -/
def cellwise (f : PixelFormat) (x y x' y' : Nat) (P : Nat → Nat → Nat → Nat → Prop) : Prop :=
  ∀ a < hsub f, ∀ b < vsub f,
    P (x / hsub f * hsub f + a) (y / vsub f * vsub f + b) (x' / hsub f * hsub f + a) (y' / vsub f * vsub f + b)

theorem ord_chroma {ar ar' : Nat → Arith F32} (hi : ∀ x, IsIeee (ar x)) (hi' : ∀ x, IsIeee (ar' x)) (f : PixelFormat)
    {i : YuvColorInfo} (hm : isMatrix i.space = true) (q q' : Pic F32) (x y x' y' : Nat) :
    (cellwise f x y x' y' (fun x y x' y' => Bluer 2 (q .R x y, q .G x y, q .B x y) (q' .R x' y', q' .G x' y', q' .B x' y')) →
      Ord 16384 (chromaOf ar f i q x y).1 (chromaOf ar' f i q' x' y').1) ∧
    (cellwise f x y x' y' (fun x y x' y' => Redder 2 (q .R x y, q .G x y, q .B x y) (q' .R x' y', q' .G x' y', q' .B x' y')) →
      Ord 16384 (chromaOf ar f i q x y).2 (chromaOf ar' f i q' x' y').2) := by
  have hb : ∀ {a b : C3 F32}, Bluer 2 a b → Bluer 64 a b := fun h =>
    ⟨h.1.mono (by norm_num), h.2.1.mono (by norm_num), h.2.2.mono (by norm_num)⟩
  have hr : ∀ {a b : C3 F32}, Redder 2 a b → Redder 64 a b := fun h =>
    ⟨h.1.mono (by norm_num), h.2.1.mono (by norm_num), h.2.2.mono (by norm_num)⟩
  have hv : hsub f = 1 ∧ vsub f = 1 ∨ hsub f = 2 ∧ vsub f = 1 ∨ hsub f = 2 ∧ vsub f = 2 := by cases f <;> simp [hsub, vsub]
  rcases hv with ⟨h1, h2⟩ | ⟨h1, h2⟩ | ⟨h1, h2⟩
  · simp only [cellwise, chromaOf, h1, h2, if_true]
    constructor <;> intro h <;> have h := h 0 (by norm_num) 0 (by norm_num) <;>
      simp only [Nat.div_one, Nat.mul_one, Nat.add_zero] at h
    · exact (ord_u (hi x) (hi' x') hm i.transfer i.primaries (hb h)).mono (by norm_num)
    · exact (ord_v (hi x) (hi' x') hm i.transfer i.primaries (hr h)).mono (by norm_num)
  · simp only [cellwise, chromaOf, h1, h2, if_true]
    rw [if_neg (by norm_num), if_neg (by norm_num)]
    constructor <;> intro h <;> have g0 := h 0 (by norm_num) 0 (by norm_num) <;> have g1 := h 1 (by norm_num) 0 (by norm_num) <;>
      simp only [Nat.div_one, Nat.mul_one, Nat.add_zero] at g0 g1
    · exact ord_mean2 (hi x) (hi' x') (ord_u (hi _) (hi' _) hm i.transfer i.primaries (hb g0))
        (ord_u (hi _) (hi' _) hm i.transfer i.primaries (hb g1))
    · exact ord_mean2 (hi x) (hi' x') (ord_v (hi _) (hi' _) hm i.transfer i.primaries (hr g0))
        (ord_v (hi _) (hi' _) hm i.transfer i.primaries (hr g1))
  · simp only [cellwise, chromaOf, h1, h2]
    rw [if_neg (by norm_num), if_neg (by norm_num), if_neg (by norm_num), if_neg (by norm_num)]
    simp only [chroma420, hm, if_true]
    constructor <;> intro h <;> have g0 := h 0 (by norm_num) 0 (by norm_num) <;> have g1 := h 0 (by norm_num) 1 (by norm_num) <;>
      have g2 := h 1 (by norm_num) 0 (by norm_num) <;> have g3 := h 1 (by norm_num) 1 (by norm_num) <;>
      simp only [Nat.add_zero] at g0 g1 g2 g3
    · exact (ord_u (hi x) (hi' x') hm i.transfer i.primaries
        ⟨ord_mean4 (hi' x') (hi x) g0.1 g1.1 g2.1 g3.1, ord_mean4 (hi' x') (hi x) g0.2.1 g1.2.1 g2.2.1 g3.2.1,
          ord_mean4 (hi x) (hi' x') g0.2.2 g1.2.2 g2.2.2 g3.2.2⟩).mono (by norm_num)
    · exact (ord_v (hi x) (hi' x') hm i.transfer i.primaries
        ⟨ord_mean4 (hi x) (hi' x') g0.1 g1.1 g2.1 g3.1, ord_mean4 (hi' x') (hi x) g0.2.1 g1.2.1 g2.2.1 g3.2.1,
          ord_mean4 (hi' x') (hi x) g0.2.2 g1.2.2 g2.2.2 g3.2.2⟩).mono (by norm_num)

/-- Samples keep their order. -/
theorem ord_sample (hi : IsIeee ar) (hi' : IsIeee ar') {n n' : Nat} (f : PixelFormat) (h : n ≤ n')
    (hn : n' ≤ 2 ^ sampleBits f - 1) : Ord 2 (ar.div (ofNat n) (maxSample f)) (ar'.div (ofNat n') (maxSample f)) := by
  simp only [hi.div, hi'.div, maxSample]
  have hM : 255 ≤ 2 ^ sampleBits f - 1 ∧ 2 ^ sampleBits f - 1 ≤ 4095 := by cases f <;> simp [sampleBits]
  generalize 2 ^ sampleBits f - 1 = M at *
  have isn : ∀ k < 2 ^ 24, Is (ofNat k : F32) (k : ℚ) := fun k hk => ⟨false, k, ofNat_eq hk, by positivity, by simp [signed]⟩
  have hMp : (0 : ℚ) < M := by exact_mod_cast (by omega : 0 < M)
  have e : ∀ k : Nat, k ≤ M → |(k : ℚ) / M| ≤ 1 := by
    intro k hk
    rw [abs_of_nonneg (by positivity), div_le_one hMp]
    exact_mod_cast hk
  have e1 := e n (by omega)
  have e2 := e n' hn
  refine ⟨_, _, is_div_rds (isn n (by omega)) (isn M (by omega)) hMp (e1.trans (by norm_num)),
    is_div_rds (isn n' (by omega)) (isn M (by omega)) hMp (e2.trans (by norm_num)),
    (rds_le e1 (by norm_num)).trans (by norm_num), (rds_le e2 (by norm_num)).trans (by norm_num), rds_mono ?_⟩
  exact div_le_div_of_nonneg_right (by exact_mod_cast h) hMp.le

theorem ord_expandLuma (hi : IsIeee ar) (hi' : IsIeee ar') (full : Bool) {y y' : F32} (h : Ord 2 y y') :
    Ord 64 (expandLuma ar full y) (expandLuma ar' full y') := by
  unfold expandLuma
  cases full
  · simp only [Bool.false_eq_true, if_false, hi.sub, hi.mul, hi'.sub, hi'.mul]
    exact ord_up (A := 6) (K := 2) (by decide +kernel) (ord_sub (B := 1) h
      (ord_self (lo := 0) (hi := 1) (by decide +kernel) (by norm_num) (by norm_num)) (by norm_num) (by norm_num) (by norm_num))
      (by norm_num) (by norm_num) (by norm_num)
  · simp only [if_true]
    exact h.mono (by norm_num)

theorem ord_expandChroma (hi : IsIeee ar) (hi' : IsIeee ar') (full : Bool) {y y' : F32} (h : Ord 2 y y') :
    Ord 64 (expandChroma ar full y) (expandChroma ar' full y') := by
  have half : Ord 1 (lit 0.5 : F32) (lit 0.5) := ord_self (lo := 0) (hi := 1) (by decide +kernel) (by norm_num) (by norm_num)
  unfold expandChroma
  cases full
  · simp only [Bool.false_eq_true, if_false, hi.sub, hi.mul, hi'.sub, hi'.mul]
    exact ord_sub (A := 24) (ord_up (A := 6) (K := 2) (by decide +kernel) (ord_sub (B := 1) h
      (ord_self (lo := 0) (hi := 1) (by decide +kernel) (by norm_num) (by norm_num)) (by norm_num) (by norm_num) (by norm_num))
      (by norm_num) (by norm_num) (by norm_num)) half (by norm_num) (by norm_num) (by norm_num)
  · simp only [if_true, hi.sub, hi'.sub]
    exact ord_sub h half (by norm_num) (by norm_num) (by norm_num)

theorem ord_decode (hi : IsIeee ar) (hi' : IsIeee ar') {cs : ColorSpace} (hm : isMatrix cs = true) (t : ColorTransfer)
    (pr : ColorPrimaries) {y u v y' u' v' : F32} (hy : Ord 64 y y') :
    (Ord 64 v v' → Ord 4096 (yuvToRgb ar cs t pr (y, u, v)).1 (yuvToRgb ar' cs t pr (y', u', v')).1) ∧
    (Ord 64 u' u → Ord 64 v' v → Ord 4096 (yuvToRgb ar cs t pr (y, u, v)).2.1 (yuvToRgb ar' cs t pr (y', u', v')).2.1) ∧
    (Ord 64 u u' → Ord 4096 (yuvToRgb ar cs t pr (y, u, v)).2.2 (yuvToRgb ar' cs t pr (y', u', v')).2.2) := by
  obtain ⟨a, b, c, d⟩ := backward_signs cs
  rw [yuvToRgb_matrix _ hm, yuvToRgb_matrix _ hm]
  simp only [yuvToRgbMatrix, hi.add, hi.mul, hi'.add, hi'.mul]
  refine ⟨fun hv => ?_, fun hu hv => ?_, fun hu => ?_⟩
  · exact ord_add hy (ord_up (C := 256) a hv (by norm_num) (by norm_num) (by norm_num)) (by norm_num) (by norm_num) (by norm_num)
  · exact ord_add hy (ord_add (C := 1024) (ord_down (C := 256) b hv (by norm_num) (by norm_num) (by norm_num))
      (ord_down (C := 256) c hu (by norm_num) (by norm_num) (by norm_num)) (by norm_num) (by norm_num) (by norm_num))
      (by norm_num) (by norm_num) (by norm_num)
  · exact ord_add hy (ord_up (C := 256) d hu (by norm_num) (by norm_num) (by norm_num)) (by norm_num) (by norm_num) (by norm_num)

end Ezk

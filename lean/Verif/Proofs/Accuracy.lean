import Verif.Proofs.Rounding
import Verif.Spec.Convert

/-!
# Rounding errors of the colour formulas

The formulas of `Verif/Spec/Color.lean` and `Verif/Spec/Convert.lean` in binary32, compared with the same formulas over the
real numbers.
-/

namespace Ezk
open F32 FOps Spec

/-! ## Constants -/

/-- The constants over the rational numbers (the value of `e` is not used). -/
local instance ratOps : FOps ℚ where
  lit q := q
  ofNat n := n
  add := (· + ·)
  sub := (· - ·)
  mul := (· * ·)
  div := (· / ·)
  neg := (- ·)
  e := 0

/-- A matrix approximates a real matrix whose entries are at most `C`. -/
structure MatApp (m : Mat F32) (M : Mat ℝ) (e C : ℝ) : Prop where
  m00 : App m.m00 M.m00 e ∧ |M.m00| ≤ C
  m01 : App m.m01 M.m01 e ∧ |M.m01| ≤ C
  m02 : App m.m02 M.m02 e ∧ |M.m02| ≤ C
  m10 : App m.m10 M.m10 e ∧ |M.m10| ≤ C
  m11 : App m.m11 M.m11 e ∧ |M.m11| ≤ C
  m12 : App m.m12 M.m12 e ∧ |M.m12| ≤ C
  m20 : App m.m20 M.m20 e ∧ |M.m20| ≤ C
  m21 : App m.m21 M.m21 e ∧ |M.m21| ≤ C
  m22 : App m.m22 M.m22 e ∧ |M.m22| ≤ C

/-- The same for a matrix of rational numbers, by computation. -/
def matClose (m : Mat F32) (M : Mat ℚ) (e C : ℚ) : Bool :=
  let ok (x : F32) (q : ℚ) : Bool := closeTo x q e && decide (|q| ≤ C)
  ok m.m00 M.m00 && ok m.m01 M.m01 && ok m.m02 M.m02 && ok m.m10 M.m10 && ok m.m11 M.m11 && ok m.m12 M.m12 &&
    ok m.m20 M.m20 && ok m.m21 M.m21 && ok m.m22 M.m22

/-- A rational matrix as a real one. -/
def Mat.cast (M : Mat ℚ) : Mat ℝ := ⟨M.m00, M.m01, M.m02, M.m10, M.m11, M.m12, M.m20, M.m21, M.m22⟩

theorem matApp_of {m : Mat F32} {M : Mat ℚ} {e C : ℚ} (h : matClose m M e C = true) : MatApp m M.cast e C := by
  simp only [matClose, Bool.and_eq_true, decide_eq_true_eq] at h
  obtain ⟨⟨⟨⟨⟨⟨⟨⟨h00, h01⟩, h02⟩, h10⟩, h11⟩, h12⟩, h20⟩, h21⟩, h22⟩ := h
  have key : ∀ {x : F32} {q : ℚ}, closeTo x q e = true ∧ |q| ≤ C → App x (q : ℝ) e ∧ |(q : ℝ)| ≤ C := by
    intro x q h
    refine ⟨app_const h.1 rfl (le_refl _), ?_⟩
    have : ((|q| : ℚ) : ℝ) ≤ C := by exact_mod_cast h.2
    rwa [Rat.cast_abs] at this
  exact ⟨key h00, key h01, key h02, key h10, key h11, key h12, key h20, key h21, key h22⟩

theorem cast_rgbToYuv (a b c : ℚ) : (makeRgbToYuv (lit a) (lit b) (lit c) : Mat ℝ) = (makeRgbToYuv (lit a) (lit b) (lit c) : Mat ℚ).cast := by
  simp only [makeRgbToYuv, Mat.cast, Mat.mk.injEq, lit, FOps.mul, FOps.div, FOps.sub, Rat.cast_mul, Rat.cast_div, Rat.cast_sub,
    and_self]

theorem cast_yuvToRgb (a b c : ℚ) : (makeYuvToRgb (lit a) (lit b) (lit c) : Mat ℝ) = (makeYuvToRgb (lit a) (lit b) (lit c) : Mat ℚ).cast := by
  simp only [makeYuvToRgb, Mat.cast, Mat.mk.injEq, lit, FOps.mul, FOps.div, FOps.sub, FOps.neg, Rat.cast_mul, Rat.cast_div,
    Rat.cast_sub, Rat.cast_neg, and_self]

/-- The `RGB → YUV` matrix of a colour space. -/
def forwardMat {F : Type} [FOps F] : ColorSpace → Mat F
  | .BT601 => BT601_RGB_TO_YUV
  | .BT709 => BT709_RGB_TO_YUV
  | _ => BT2020_RGB_TO_YUV

/-- The `YUV → RGB` matrix of a colour space. -/
def backwardMat {F : Type} [FOps F] : ColorSpace → Mat F
  | .BT601 => BT601_YUV_TO_RGB
  | .BT709 => BT709_YUV_TO_RGB
  | _ => BT2020_YUV_TO_RGB

theorem forward_app (cs : ColorSpace) : MatApp (forwardMat cs) (forwardMat cs) (1 / 10 ^ 7) 1 := by
  have key : MatApp (forwardMat cs) (forwardMat cs : Mat ℚ).cast ((1 / 10 ^ 7 : ℚ) : ℝ) ((1 : ℚ) : ℝ) := by
    apply matApp_of
    cases cs <;> decide +kernel
  push_cast at key
  convert key using 1
  cases cs <;> exact cast_rgbToYuv _ _ _

theorem backward_app (cs : ColorSpace) : MatApp (backwardMat cs) (backwardMat cs) (3 / 10 ^ 7) 2 := by
  have key : MatApp (backwardMat cs) (backwardMat cs : Mat ℚ).cast ((3 / 10 ^ 7 : ℚ) : ℝ) ((2 : ℚ) : ℝ) := by
    apply matApp_of
    cases cs <;> decide +kernel
  push_cast at key
  convert key using 1
  cases cs <;> exact cast_yuvToRgb _ _ _

theorem rgbToYuv_matrix {F : Type} [FOps F] (ar : Arith F) {cs : ColorSpace} (h : isMatrix cs = true) (t : ColorTransfer)
    (prim : ColorPrimaries) (p : C3 F) : rgbToYuv ar cs t prim p = matMul ar (forwardMat cs) p := by
  cases cs <;> first | rfl | cases h

theorem yuvToRgb_matrix {F : Type} [FOps F] (ar : Arith F) {cs : ColorSpace} (h : isMatrix cs = true) (t : ColorTransfer)
    (prim : ColorPrimaries) (p : C3 F) : yuvToRgb ar cs t prim p = yuvToRgbMatrix ar (backwardMat cs) p := by
  cases cs <;> first | rfl | cases h

theorem app_16 : App (FOps.div (lit 16.0) (lit 255.0)) (FOps.div (lit 16.0) (lit 255.0)) (1 / 10 ^ 8) := by
  refine app_const (q := 16 / 255) (d := 1 / 10 ^ 8) (by decide +kernel) ?_ (by norm_num)
  simp only [lit_real, div_real]; norm_num [Rat.cast_ofScientific]
theorem app_219 : App (FOps.div (lit 219.0) (lit 255.0)) (FOps.div (lit 219.0) (lit 255.0)) (1 / 10 ^ 7) := by
  refine app_const (q := 219 / 255) (d := 1 / 10 ^ 7) (by decide +kernel) ?_ (by norm_num)
  simp only [lit_real, div_real]; norm_num [Rat.cast_ofScientific]
theorem app_224 : App (FOps.div (lit 224.0) (lit 255.0)) (FOps.div (lit 224.0) (lit 255.0)) (1 / 10 ^ 7) := by
  refine app_const (q := 224 / 255) (d := 1 / 10 ^ 7) (by decide +kernel) ?_ (by norm_num)
  simp only [lit_real, div_real]; norm_num [Rat.cast_ofScientific]
theorem app_255_219 : App (FOps.div (lit 255.0) (lit 219.0)) (FOps.div (lit 255.0) (lit 219.0)) (1 / 10 ^ 7) := by
  refine app_const (q := 255 / 219) (d := 1 / 10 ^ 7) (by decide +kernel) ?_ (by norm_num)
  simp only [lit_real, div_real]; norm_num [Rat.cast_ofScientific]
theorem app_255_224 : App (FOps.div (lit 255.0) (lit 224.0)) (FOps.div (lit 255.0) (lit 224.0)) (1 / 10 ^ 7) := by
  refine app_const (q := 255 / 224) (d := 1 / 10 ^ 7) (by decide +kernel) ?_ (by norm_num)
  simp only [lit_real, div_real]; norm_num [Rat.cast_ofScientific]
theorem app_half : App (lit 0.5) (lit 0.5) 0 := by
  refine app_const (q := 1 / 2) (d := 0) (by decide +kernel) ?_ (by norm_num)
  simp only [lit_real]; norm_num [Rat.cast_ofScientific]
theorem app_quarter : App (lit 0.25) (lit 0.25) 0 := by
  refine app_const (q := 1 / 4) (d := 0) (by decide +kernel) ?_ (by norm_num)
  simp only [lit_real]; norm_num [Rat.cast_ofScientific]
theorem lit_two : (lit 2.0 : F32) = fin false (2 : Nat) := by decide +kernel

/-! ## One pixel -/

section
variable {ar : Arith F32} (hi : IsIeee ar) {rr : Arith ℝ} (he : Exact rr)
include hi he

theorem dot_app {x a y b z c : F32} {x' a' y' b' z' c' : ℝ} (hx : App x x' (5 / 10 ^ 7)) (hx' : |x'| ≤ 1)
    (hy : App y y' (5 / 10 ^ 7)) (hy' : |y'| ≤ 1) (hz : App z z' (5 / 10 ^ 7)) (hz' : |z'| ≤ 1)
    (ha : App a a' (1 / 10 ^ 7) ∧ |a'| ≤ 1) (hb : App b b' (1 / 10 ^ 7) ∧ |b'| ≤ 1)
    (hc : App c c' (1 / 10 ^ 7) ∧ |c'| ≤ 1) :
    App (dot ar x a y b z c) (dot rr x' a' y' b' z' c') (24 / 10 ^ 7) ∧ |dot rr x' a' y' b' z' c'| ≤ 3 := by
  have prod : ∀ {u v : ℝ}, |u| ≤ 1 → |v| ≤ 1 → |u * v| ≤ 1 := by
    intro u v h1 h2; rw [abs_mul]; exact mul_le_one₀ h1 (abs_nonneg _) h2
  have p1 := prod hx' ha.2
  have p2 := prod hy' hb.2
  have p3 := prod hz' hc.2
  have q1 := (app_mul (B := 1.001) hx ha.1 hx' ha.2 (by norm_num) (by norm_num) (by norm_num)).mono
    (show _ ≤ 67 / 10 ^ 8 by norm_num)
  have q2 := (app_mul (B := 1.001) hy hb.1 hy' hb.2 (by norm_num) (by norm_num) (by norm_num)).mono
    (show _ ≤ 67 / 10 ^ 8 by norm_num)
  have q3 := (app_mul (B := 1.001) hz hc.1 hz' hc.2 (by norm_num) (by norm_num) (by norm_num)).mono
    (show _ ≤ 67 / 10 ^ 8 by norm_num)
  have s1 := abs_add_le (x' * a') (y' * b')
  have s2 := abs_add_le (x' * a' + y' * b') (z' * c')
  have r1 := (app_add (B := 2.001) q1 q2 (by linarith) (by norm_num) (by norm_num)).mono
    (show _ ≤ 147 / 10 ^ 8 by norm_num)
  have r2 := (app_add (B := 3.001) r1 q3 (by linarith) (by norm_num) (by norm_num)).mono
    (show _ ≤ 24 / 10 ^ 7 by norm_num)
  rw [dot_real he]
  refine ⟨?_, by linarith⟩
  simpa only [dot, hi.add, hi.mul] using r2

/-- A colour approximates a real colour of components at most `B`. -/
def App3 (p : C3 F32) (q : C3 ℝ) (e B : ℝ) : Prop :=
  (App p.1 q.1 e ∧ |q.1| ≤ B) ∧ (App p.2.1 q.2.1 e ∧ |q.2.1| ≤ B) ∧ (App p.2.2 q.2.2 e ∧ |q.2.2| ≤ B)

theorem rgbToYuv_app {cs : ColorSpace} (hcs : isMatrix cs = true) (t : ColorTransfer) (prim : ColorPrimaries) {p : C3 F32}
    {q : C3 ℝ} (h : App3 p q (5 / 10 ^ 7) 1) :
    App3 (rgbToYuv ar cs t prim p) (rgbToYuv rr cs t prim q) (24 / 10 ^ 7) 3 := by
  rw [rgbToYuv_matrix _ hcs, rgbToYuv_matrix _ hcs]
  have hm := forward_app cs
  obtain ⟨⟨h1, h1'⟩, ⟨h2, h2'⟩, h3, h3'⟩ := h
  exact ⟨dot_app hi he h1 h1' h2 h2' h3 h3' hm.m00 hm.m01 hm.m02,
    dot_app hi he h1 h1' h2 h2' h3 h3' hm.m10 hm.m11 hm.m12,
    dot_app hi he h1 h1' h2 h2' h3 h3' hm.m20 hm.m21 hm.m22⟩

theorem mean4_app {a b c d : F32} {a' b' c' d' : ℝ} (ha : App a a' (1 / 10 ^ 7)) (hb : App b b' (1 / 10 ^ 7))
    (hc : App c c' (1 / 10 ^ 7)) (hd : App d d' (1 / 10 ^ 7)) (ha' : |a'| ≤ 1) (hb' : |b'| ≤ 1) (hc' : |c'| ≤ 1)
    (hd' : |d'| ≤ 1) : App (mean4 ar a b c d) (mean4 rr a' b' c' d') (5 / 10 ^ 7) ∧ |mean4 rr a' b' c' d'| ≤ 1 := by
  have s1 := abs_add_le a' b'
  have s2 := abs_add_le c' d'
  have s3 := abs_add_le (a' + b') (c' + d')
  have q : |(lit 0.25 : ℝ)| ≤ 1 / 4 := by rw [lit_real]; norm_num [Rat.cast_ofScientific]
  have r1 := (app_add (B := 2.001) ha hb (by linarith) (by norm_num) (by norm_num)).mono (show _ ≤ 33 / 10 ^ 8 by norm_num)
  have r2 := (app_add (B := 2.001) hc hd (by linarith) (by norm_num) (by norm_num)).mono (show _ ≤ 33 / 10 ^ 8 by norm_num)
  have r3 := (app_add (B := 4.001) r1 r2 (by linarith) (by norm_num) (by norm_num)).mono (show _ ≤ 92 / 10 ^ 8 by norm_num)
  have r4 := (app_mul (A := 4) (B := 1.001) r3 app_quarter (by linarith) q (by norm_num) (by norm_num) (by norm_num)).mono
    (show _ ≤ 5 / 10 ^ 7 by norm_num)
  simp only [mean4, he.add, he.mul, hi.add, hi.mul]
  refine ⟨r4, ?_⟩
  rw [abs_mul]
  have := mul_le_mul (show |a' + b' + (c' + d')| ≤ 4 by linarith) q (abs_nonneg _) (by norm_num)
  linarith

theorem compressLuma_app (full : Bool) {y : F32} {y' : ℝ} (h : App y y' (24 / 10 ^ 7)) (h' : |y'| ≤ 3) :
    App (compressLuma ar full y) (compressLuma rr full y') (4 / 10 ^ 6) ∧ |compressLuma rr full y'| ≤ 4 := by
  cases full
  · have c : |(FOps.div (lit 219.0) (lit 255.0) : ℝ)| ≤ 1 := by
      simp only [lit_real, div_real]; norm_num [Rat.cast_ofScientific, abs_le]
    have c2 : |(FOps.div (lit 16.0) (lit 255.0) : ℝ)| ≤ 1 / 10 := by
      simp only [lit_real, div_real]; norm_num [Rat.cast_ofScientific, abs_le]
    have r1 := (app_mul (B := 3.001) h app_219 h' c (by norm_num) (by norm_num) (by norm_num)).mono
      (show _ ≤ 29 / 10 ^ 7 by norm_num)
    have s0 : |y' * FOps.div (lit 219.0) (lit 255.0)| ≤ 3 := by
      rw [abs_mul]
      have := mul_le_mul h' c (abs_nonneg _) (by norm_num)
      linarith
    have s1 := abs_add_le (FOps.div (lit 16.0) (lit 255.0)) (y' * FOps.div (lit 219.0) (lit 255.0))
    have r2 := (app_add (B := 3.2) app_16 r1 (by linarith) (by norm_num) (by norm_num)).mono (show _ ≤ 4 / 10 ^ 6 by norm_num)
    simp only [compressLuma, Bool.false_eq_true, if_false, he.add, he.mul, hi.add, hi.mul]
    exact ⟨r2, by linarith⟩
  · simp only [compressLuma, if_true]
    exact ⟨h.mono (by norm_num), by linarith⟩

theorem compressChroma_app (full : Bool) {u : F32} {u' : ℝ} (h : App u u' (28 / 10 ^ 7)) (h' : |u'| ≤ 3) :
    App (compressChroma ar full u) (compressChroma rr full u') (4 / 10 ^ 6) ∧ |compressChroma rr full u'| ≤ 4 := by
  have c0 : |(lit 0.5 : ℝ)| ≤ 1 / 2 := by rw [lit_real]; norm_num [Rat.cast_ofScientific]
  have s0 := abs_add_le u' (lit 0.5)
  have r0 := (app_add (B := 3.6) h app_half (by linarith) (by norm_num) (by norm_num)).mono (show _ ≤ 302 / 10 ^ 8 by norm_num)
  cases full
  · have c : |(FOps.div (lit 224.0) (lit 255.0) : ℝ)| ≤ 224 / 255 := by
      simp only [lit_real, div_real]; norm_num [Rat.cast_ofScientific, abs_le]
    have c2 : |(FOps.div (lit 16.0) (lit 255.0) : ℝ)| ≤ 1 / 10 := by
      simp only [lit_real, div_real]; norm_num [Rat.cast_ofScientific, abs_le]
    have r1 := (app_mul (A := 3.5) (B := 3.1) r0 app_224 (by linarith) c (by norm_num) (by norm_num) (by norm_num)).mono
      (show _ ≤ 33 / 10 ^ 7 by norm_num)
    have s1 : |(u' + lit 0.5) * FOps.div (lit 224.0) (lit 255.0)| ≤ 3.1 := by
      rw [abs_mul]
      have := mul_le_mul (show |u' + lit 0.5| ≤ 3.5 by linarith) c (abs_nonneg _) (by norm_num)
      norm_num at this ⊢
      linarith
    have s2 := abs_add_le (FOps.div (lit 16.0) (lit 255.0)) ((u' + lit 0.5) * FOps.div (lit 224.0) (lit 255.0))
    have r2 := (app_add (B := 3.3) app_16 r1 (by linarith) (by norm_num) (by norm_num)).mono (show _ ≤ 4 / 10 ^ 6 by norm_num)
    simp only [compressChroma, Bool.false_eq_true, if_false, he.add, he.mul, hi.add, hi.mul]
    exact ⟨r2, by linarith⟩
  · simp only [compressChroma, if_true, he.add, hi.add]
    exact ⟨r0.mono (by norm_num), by linarith⟩

theorem expandLuma_app (full : Bool) {y : F32} {y' : ℝ} (h : App y y' (1 / 10 ^ 7)) (h' : |y'| ≤ 1) :
    App (expandLuma ar full y) (expandLuma rr full y') (5 / 10 ^ 7) ∧ |expandLuma rr full y'| ≤ 13 / 10 := by
  cases full
  · have c : |(FOps.div (lit 255.0) (lit 219.0) : ℝ)| ≤ 117 / 100 := by
      simp only [lit_real, div_real]; norm_num [Rat.cast_ofScientific, abs_le]
    have c2 : |(FOps.div (lit 16.0) (lit 255.0) : ℝ)| ≤ 7 / 100 := by
      simp only [lit_real, div_real]; norm_num [Rat.cast_ofScientific, abs_le]
    have s1 := abs_sub y' (FOps.div (lit 16.0) (lit 255.0))
    have r1 := (app_sub (B := 1.08) h app_16 (by linarith) (by norm_num) (by norm_num)).mono (show _ ≤ 18 / 10 ^ 8 by norm_num)
    have r2 := (app_mul (A := 1.07) (B := 1.3) r1 app_255_219 (by linarith) c (by norm_num) (by norm_num) (by norm_num)).mono
      (show _ ≤ 5 / 10 ^ 7 by norm_num)
    simp only [expandLuma, Bool.false_eq_true, if_false, he.sub, he.mul, hi.sub, hi.mul]
    refine ⟨r2, ?_⟩
    rw [abs_mul]
    have := mul_le_mul (show |y' - FOps.div (lit 16.0) (lit 255.0)| ≤ 1.07 by linarith) c (abs_nonneg _) (by norm_num)
    norm_num at this ⊢
    linarith
  · simp only [expandLuma, if_true]
    exact ⟨h.mono (by norm_num), by linarith⟩

theorem expandChroma_app (full : Bool) {u : F32} {u' : ℝ} (h : App u u' (1 / 10 ^ 7)) (h' : |u'| ≤ 1) :
    App (expandChroma ar full u) (expandChroma rr full u') (7 / 10 ^ 7) ∧ |expandChroma rr full u'| ≤ 18 / 10 := by
  have c0 : |(lit 0.5 : ℝ)| ≤ 1 / 2 := by rw [lit_real]; norm_num [Rat.cast_ofScientific]
  cases full
  · have c : |(FOps.div (lit 255.0) (lit 224.0) : ℝ)| ≤ 115 / 100 := by
      simp only [lit_real, div_real]; norm_num [Rat.cast_ofScientific, abs_le]
    have c2 : |(FOps.div (lit 16.0) (lit 255.0) : ℝ)| ≤ 7 / 100 := by
      simp only [lit_real, div_real]; norm_num [Rat.cast_ofScientific, abs_le]
    have s1 := abs_sub u' (FOps.div (lit 16.0) (lit 255.0))
    have r1 := (app_sub (B := 1.08) h app_16 (by linarith) (by norm_num) (by norm_num)).mono (show _ ≤ 18 / 10 ^ 8 by norm_num)
    have r2 := (app_mul (A := 1.07) (B := 1.3) r1 app_255_224 (by linarith) c (by norm_num) (by norm_num) (by norm_num)).mono
      (show _ ≤ 5 / 10 ^ 7 by norm_num)
    have s2 : |(u' - FOps.div (lit 16.0) (lit 255.0)) * FOps.div (lit 255.0) (lit 224.0)| ≤ 13 / 10 := by
      rw [abs_mul]
      have := mul_le_mul (show |u' - FOps.div (lit 16.0) (lit 255.0)| ≤ 1.07 by linarith) c (abs_nonneg _) (by norm_num)
      norm_num at this ⊢
      linarith
    have s3 := abs_sub ((u' - FOps.div (lit 16.0) (lit 255.0)) * FOps.div (lit 255.0) (lit 224.0)) (lit 0.5)
    have r3 := (app_sub (B := 1.9) r2 app_half (by linarith) (by norm_num) (by norm_num)).mono (show _ ≤ 7 / 10 ^ 7 by norm_num)
    simp only [expandChroma, Bool.false_eq_true, if_false, he.sub, he.mul, hi.sub, hi.mul]
    exact ⟨r3, by linarith⟩
  · have s3 := abs_sub u' (lit 0.5)
    have r3 := (app_sub (B := 1.6) h app_half (by linarith) (by norm_num) (by norm_num)).mono (show _ ≤ 7 / 10 ^ 7 by norm_num)
    simp only [expandChroma, if_true, he.sub, hi.sub]
    exact ⟨r3, by linarith⟩

theorem yuvToRgb_app {cs : ColorSpace} (hcs : isMatrix cs = true) (t : ColorTransfer) (prim : ColorPrimaries) {y u v : F32}
    {y' u' v' : ℝ} (hy : App y y' (5 / 10 ^ 7) ∧ |y'| ≤ 13 / 10) (hu : App u u' (7 / 10 ^ 7) ∧ |u'| ≤ 18 / 10)
    (hv : App v v' (7 / 10 ^ 7) ∧ |v'| ≤ 18 / 10) :
    App3 (yuvToRgb ar cs t prim (y, u, v)) (yuvToRgb rr cs t prim (y', u', v')) (8 / 10 ^ 6) 9 := by
  rw [yuvToRgb_matrix _ hcs, yuvToRgb_matrix _ hcs]
  have hm := backward_app cs
  have prod : ∀ {x a : F32} {x' a' : ℝ}, App x x' (7 / 10 ^ 7) ∧ |x'| ≤ 18 / 10 → App a a' (3 / 10 ^ 7) ∧ |a'| ≤ 2 →
      App (F32.mul x a) (x' * a') (22 / 10 ^ 7) ∧ |x' * a'| ≤ 36 / 10 := by
    intro x a x' a' hx ha
    refine ⟨(app_mul (B := 3.7) hx.1 ha.1 hx.2 ha.2 (by norm_num) (by norm_num) (by norm_num)).mono (by norm_num), ?_⟩
    rw [abs_mul]
    have := mul_le_mul hx.2 ha.2 (abs_nonneg _) (by norm_num)
    linarith
  have one : ∀ {a : F32} {a' : ℝ}, App a a' (22 / 10 ^ 7) ∧ |a'| ≤ 36 / 10 →
      App (F32.add y a) (y' + a') (8 / 10 ^ 6) ∧ |y' + a'| ≤ 9 := by
    intro a a' ha
    have s := abs_add_le y' a'
    exact ⟨(app_add (B := 5) hy.1 ha.1 (by linarith [hy.2, ha.2]) (by norm_num) (by norm_num)).mono (by norm_num),
      by linarith [hy.2, ha.2]⟩
  simp only [yuvToRgbMatrix, App3, he.add, he.mul, hi.add, hi.mul]
  refine ⟨one (prod hv hm.m20), ?_, one (prod hu hm.m12)⟩
  have p1 := prod hv hm.m21
  have p2 := prod hu hm.m11
  have s1 := abs_add_le (v' * (backwardMat cs : Mat ℝ).m21) (u' * (backwardMat cs : Mat ℝ).m11)
  have s2 := abs_add_le y' (v' * (backwardMat cs : Mat ℝ).m21 + u' * (backwardMat cs : Mat ℝ).m11)
  have r1 := (app_add (B := 7.3) p1.1 p2.1 (by linarith [p1.2, p2.2]) (by norm_num) (by norm_num)).mono
    (show _ ≤ 49 / 10 ^ 7 by norm_num)
  exact ⟨(app_add (B := 9) hy.1 r1 (by linarith [hy.2, p1.2, p2.2]) (by norm_num) (by norm_num)).mono (by norm_num),
    by linarith [hy.2, p1.2, p2.2]⟩

omit he in
/-- A sample as a float. -/
theorem sample_app {n M : Nat} (hM : 0 < M) (hM' : M < 2 ^ 24) (hn : n ≤ M) :
    App (ar.div (FOps.ofNat n) (FOps.ofNat M)) ((n : ℝ) / M) (1 / 10 ^ 7) ∧ |(n : ℝ) / M| ≤ 1 := by
  have h : |(n : ℝ) / M| ≤ 1 := by
    have hM0 : (0 : ℝ) < M := by exact_mod_cast hM
    rw [abs_div, abs_of_nonneg (by positivity : (0 : ℝ) ≤ n), abs_of_pos hM0, div_le_one hM0]
    exact_mod_cast hn
  refine ⟨?_, h⟩
  rw [hi.div, ofNat_eq hM']
  refine (app_div_nat (B := 1) (app_nat (by omega)) hM hM' ?_ (by norm_num) (by norm_num)).mono ?_
  · rw [add_zero, abs_of_nonneg (by positivity : (0 : ℝ) ≤ n)]
    exact (abs_le.mp h).2
  · norm_num

end

/-! ## A picture -/

/-- A float RGB picture approximates a real one with components in `[0, 1]`. -/
def PicApp (p : Pic F32) (q : Pic ℝ) (e : ℝ) : Prop :=
  ∀ c x y, (c = .R ∨ c = .G ∨ c = .B) → App (p c x y) (q c x y) e ∧ 0 ≤ q c x y ∧ q c x y ≤ 1

section
variable {ar : Nat → Arith F32} (hi : ∀ x, IsIeee (ar x)) {rr : Nat → Arith ℝ} (he : ∀ x, Exact (rr x))
include hi he

theorem yuvAt_app {i : YuvColorInfo} (hs : isMatrix i.space = true) {p : Pic F32} {q : Pic ℝ} (h : PicApp p q (1 / 10 ^ 7))
    (x y : Nat) : App3 (yuvAt ar i p x y) (yuvAt rr i q x y) (24 / 10 ^ 7) 3 := by
  have key : ∀ c, (c = .R ∨ c = .G ∨ c = .B) → App (p c x y) (q c x y) (5 / 10 ^ 7) ∧ |q c x y| ≤ 1 := fun c hc => by
    obtain ⟨a, b, d⟩ := h c x y hc
    exact ⟨a.mono (by norm_num), by rw [abs_of_nonneg b]; exact d⟩
  exact rgbToYuv_app (hi x) (he x) hs _ _ ⟨key .R (by simp), key .G (by simp), key .B (by simp)⟩

theorem chroma422_app {i : YuvColorInfo} (hs : isMatrix i.space = true) {p : Pic F32} {q : Pic ℝ}
    (h : PicApp p q (1 / 10 ^ 7)) (x y : Nat) :
    (App (chroma422 ar i p x y).1 (chroma422 rr i q x y).1 (28 / 10 ^ 7) ∧ |(chroma422 rr i q x y).1| ≤ 3) ∧
    (App (chroma422 ar i p x y).2 (chroma422 rr i q x y).2 (28 / 10 ^ 7) ∧ |(chroma422 rr i q x y).2| ≤ 3) := by
  have h0 := yuvAt_app hi he hs h (x / 2 * 2) y
  have h1 := yuvAt_app hi he hs h (x / 2 * 2 + 1) y
  have key : ∀ {a b : F32} {a' b' : ℝ}, App a a' (24 / 10 ^ 7) ∧ |a'| ≤ 3 → App b b' (24 / 10 ^ 7) ∧ |b'| ≤ 3 →
      App ((ar x).div ((ar x).add a b) (lit 2.0)) ((rr x).div ((rr x).add a' b') (lit 2.0)) (28 / 10 ^ 7) ∧
        |(rr x).div ((rr x).add a' b') (lit 2.0)| ≤ 3 := by
    intro a b a' b' ha hb
    have s := abs_add_le a' b'
    have r1 := (app_add (B := 6.1) ha.1 hb.1 (by linarith [ha.2, hb.2]) (by norm_num) (by norm_num)).mono
      (show _ ≤ 52 / 10 ^ 7 by norm_num)
    have r2 := (app_div_nat (n := 2) (B := 3.1) r1 (by norm_num) (by norm_num)
      (by rw [div_le_iff₀ (by norm_num)]; norm_num; linarith [ha.2, hb.2]) (by norm_num) (by norm_num)).mono
      (show _ ≤ 28 / 10 ^ 7 by norm_num)
    have e2 : (lit 2.0 : ℝ) = ((2 : Nat) : ℝ) := by rw [lit_real]; norm_num [Rat.cast_ofScientific]
    rw [(he x).div, (he x).add, (hi x).div, (hi x).add, lit_two, e2]
    refine ⟨r2, ?_⟩
    rw [abs_div, div_le_iff₀ (by norm_num)]
    norm_num
    linarith [ha.2, hb.2]
  exact ⟨key h0.2.1 h1.2.1, key h0.2.2 h1.2.2⟩

theorem chroma420_app {i : YuvColorInfo} (hs : isMatrix i.space = true) {p : Pic F32} {q : Pic ℝ}
    (h : PicApp p q (1 / 10 ^ 7)) (x y : Nat) :
    (App (chroma420 ar i p x y).1 (chroma420 rr i q x y).1 (28 / 10 ^ 7) ∧ |(chroma420 rr i q x y).1| ≤ 3) ∧
    (App (chroma420 ar i p x y).2 (chroma420 rr i q x y).2 (28 / 10 ^ 7) ∧ |(chroma420 rr i q x y).2| ≤ 3) := by
  have key : ∀ c, (c = .R ∨ c = .G ∨ c = .B) → ∀ x y, App (p c x y) (q c x y) (1 / 10 ^ 7) ∧ |q c x y| ≤ 1 := fun c hc x y => by
    obtain ⟨a, b, d⟩ := h c x y hc
    exact ⟨a, by rw [abs_of_nonneg b]; exact d⟩
  have m : ∀ c : Chan, (c = .R ∨ c = .G ∨ c = .B) → ∀ X Y, _ := fun c hc X Y =>
    mean4_app (hi x) (he x) (key c hc X Y).1 (key c hc X (Y + 1)).1 (key c hc (X + 1) Y).1 (key c hc (X + 1) (Y + 1)).1
      (key c hc X Y).2 (key c hc X (Y + 1)).2 (key c hc (X + 1) Y).2 (key c hc (X + 1) (Y + 1)).2
  have r := rgbToYuv_app (hi x) (he x) hs i.transfer i.primaries (p := (_, _, _)) (q := (_, _, _))
    ⟨m .R (by simp) (x / 2 * 2) (y / 2 * 2), m .G (by simp) (x / 2 * 2) (y / 2 * 2), m .B (by simp) (x / 2 * 2) (y / 2 * 2)⟩
  simp only [chroma420, hs, if_true]
  exact ⟨⟨r.2.1.1.mono (by norm_num), r.2.1.2⟩, r.2.2.1.mono (by norm_num), r.2.2.2⟩

theorem chromaOf_app (f : PixelFormat) {i : YuvColorInfo} (hs : isMatrix i.space = true) {p : Pic F32} {q : Pic ℝ}
    (h : PicApp p q (1 / 10 ^ 7)) (x y : Nat) :
    (App (chromaOf ar f i p x y).1 (chromaOf rr f i q x y).1 (28 / 10 ^ 7) ∧ |(chromaOf rr f i q x y).1| ≤ 3) ∧
    (App (chromaOf ar f i p x y).2 (chromaOf rr f i q x y).2 (28 / 10 ^ 7) ∧ |(chromaOf rr f i q x y).2| ≤ 3) := by
  unfold chromaOf
  split
  · have r := yuvAt_app hi he hs h x y
    exact ⟨⟨r.2.1.1.mono (by norm_num), r.2.1.2⟩, r.2.2.1.mono (by norm_num), r.2.2.2⟩
  · split
    · exact chroma422_app hi he hs h x y
    · exact chroma420_app hi he hs h x y

/-- The YUV picture. -/
theorem encode_app (f : PixelFormat) {i : YuvColorInfo} (hs : isMatrix i.space = true) {p : Pic F32} {q : Pic ℝ}
    (h : PicApp p q (1 / 10 ^ 7)) {c : Chan} (hc : c = .Y ∨ c = .U ∨ c = .V) (x y : Nat) :
    App (encode ar f i p c x y) (encode rr f i q c x y) (4 / 10 ^ 6) ∧ |encode rr f i q c x y| ≤ 4 := by
  have r := chromaOf_app hi he f hs h x y
  rcases hc with rfl | rfl | rfl
  · have r := yuvAt_app hi he hs h x y
    exact compressLuma_app (hi x) (he x) _ r.1.1 r.1.2
  · exact compressChroma_app (hi x) (he x) _ r.1.1 r.1.2
  · exact compressChroma_app (hi x) (he x) _ r.2.1 r.2.2

/-- The RGB picture. -/
theorem decode_app {i : YuvColorInfo} (hs : isMatrix i.space = true) {p : Pic F32} {q : Pic ℝ} {x y : Nat}
    (h : ∀ c, (c = .Y ∨ c = .U ∨ c = .V) → App (p c x y) (q c x y) (1 / 10 ^ 7) ∧ |q c x y| ≤ 1) {c : Chan}
    (hc : c = .R ∨ c = .G ∨ c = .B) :
    App (decode ar i p c x y) (decode rr i q c x y) (8 / 10 ^ 6) ∧ |decode rr i q c x y| ≤ 9 := by
  have a := h .Y (by simp)
  have b := h .U (by simp)
  have d := h .V (by simp)
  have r := yuvToRgb_app (hi x) (he x) hs i.transfer i.primaries (expandLuma_app (hi x) (he x) i.fullRange a.1 a.2)
    (expandChroma_app (hi x) (he x) i.fullRange b.1 b.2) (expandChroma_app (hi x) (he x) i.fullRange d.1 d.2)
  rcases hc with rfl | rfl | rfl
  · exact r.1
  · exact r.2.1
  · exact r.2.2

end

/-! ## The range of the exact values -/

theorem forward_range {rr : Arith ℝ} (he : Exact rr) (cs : ColorSpace) {r g b : ℝ} (hr : 0 ≤ r ∧ r ≤ 1) (hg : 0 ≤ g ∧ g ≤ 1)
    (hb : 0 ≤ b ∧ b ≤ 1) :
    let p := matMul rr (forwardMat cs) (r, g, b)
    (0 ≤ p.1 ∧ p.1 ≤ 1) ∧ (-(1 / 2) ≤ p.2.1 ∧ p.2.1 ≤ 1 / 2) ∧ (-(1 / 2) ≤ p.2.2 ∧ p.2.2 ≤ 1 / 2) := by
  cases cs <;>
  · refine matrix_range he ?_ ?_ ?_ ?_ hr.1 hr.2 hg.1 hg.2 hb.1 hb.2 <;>
    · simp only [lit_real]; norm_num [Rat.cast_ofScientific]

section
variable {rr : Nat → Arith ℝ} (he : ∀ x, Exact (rr x))
include he

theorem chromaOf_range (f : PixelFormat) {i : YuvColorInfo} (hs : isMatrix i.space = true) {q : Pic ℝ}
    (h : ∀ c x y, (c = .R ∨ c = .G ∨ c = .B) → 0 ≤ q c x y ∧ q c x y ≤ 1) (x y : Nat) :
    (-(1 / 2) ≤ (chromaOf rr f i q x y).1 ∧ (chromaOf rr f i q x y).1 ≤ 1 / 2) ∧
    (-(1 / 2) ≤ (chromaOf rr f i q x y).2 ∧ (chromaOf rr f i q x y).2 ≤ 1 / 2) := by
  have hyuv : ∀ x y, _ := fun x y =>
    (forward_range (he x) i.space (h .R x y (by simp)) (h .G x y (by simp)) (h .B x y (by simp))).2
  unfold chromaOf
  split
  · simpa only [yuvAt, rgbToYuv_matrix _ hs] using hyuv x y
  · split
    · have e2 : (lit 2.0 : ℝ) = 2 := by rw [lit_real]; norm_num [Rat.cast_ofScientific]
      have h0 := hyuv (x / 2 * 2) y
      have h1 := hyuv (x / 2 * 2 + 1) y
      simp only [chroma422, yuvAt, rgbToYuv_matrix _ hs, (he x).div, (he x).add, e2]
      refine ⟨⟨?_, ?_⟩, ?_, ?_⟩ <;> linarith [h0.1.1, h0.1.2, h0.2.1, h0.2.2, h1.1.1, h1.1.2, h1.2.1, h1.2.2]
    · have m : ∀ c : Chan, (c = .R ∨ c = .G ∨ c = .B) → ∀ X Y,
          0 ≤ mean4 (rr x) (q c X Y) (q c X (Y + 1)) (q c (X + 1) Y) (q c (X + 1) (Y + 1)) ∧
          mean4 (rr x) (q c X Y) (q c X (Y + 1)) (q c (X + 1) Y) (q c (X + 1) (Y + 1)) ≤ 1 := by
        intro c hc X Y
        have e4 : (lit 0.25 : ℝ) = 1 / 4 := by rw [lit_real]; norm_num [Rat.cast_ofScientific]
        have a := h c X Y hc
        have b := h c X (Y + 1) hc
        have d := h c (X + 1) Y hc
        have e := h c (X + 1) (Y + 1) hc
        simp only [mean4, (he x).add, (he x).mul, e4]
        constructor <;> linarith [a.1, a.2, b.1, b.2, d.1, d.2, e.1, e.2]
      have r := forward_range (he x) i.space (m .R (by simp) (x / 2 * 2) (y / 2 * 2)) (m .G (by simp) (x / 2 * 2) (y / 2 * 2))
        (m .B (by simp) (x / 2 * 2) (y / 2 * 2))
      simp only [chroma420, hs, if_true, rgbToYuv_matrix _ hs]
      exact r.2

theorem encode_range (f : PixelFormat) {i : YuvColorInfo} (hs : isMatrix i.space = true) {q : Pic ℝ}
    (h : ∀ c x y, (c = .R ∨ c = .G ∨ c = .B) → 0 ≤ q c x y ∧ q c x y ≤ 1) {c : Chan} (hc : c = .Y ∨ c = .U ∨ c = .V)
    (x y : Nat) : 0 ≤ encode rr f i q c x y ∧ encode rr f i q c x y ≤ 1 := by
  have r := chromaOf_range he f hs h x y
  have chroma : ∀ u : ℝ, -(1 / 2) ≤ u ∧ u ≤ 1 / 2 →
      0 ≤ compressChroma (rr x) i.fullRange u ∧ compressChroma (rr x) i.fullRange u ≤ 1 := by
    intro u hu
    cases i.fullRange
    · rw [compressChroma_real (he x)]; constructor <;> linarith [hu.1, hu.2]
    · rw [compressChroma_full (he x)]; constructor <;> linarith [hu.1, hu.2]
  rcases hc with rfl | rfl | rfl
  · have r := (forward_range (he x) i.space (h .R x y (by simp)) (h .G x y (by simp)) (h .B x y (by simp))).1
    simp only [encode, yuvAt, rgbToYuv_matrix _ hs]
    cases i.fullRange
    · rw [compressLuma_real (he x)]; constructor <;> linarith [r.1, r.2]
    · simpa only [compressLuma, if_true] using r
  · exact chroma _ r.1
  · exact chroma _ r.2

end

/-! ## Stores -/

/-- The code stored for a value close to an exact one of the range. -/
theorem F32.Near.app {T M : Nat} {q : F32 → Nat} (h : Near T q) (hM : M ≤ T) {x : F32} {r e : ℝ} (hx : App x r e)
    (he : e < 1 / 2) (h0 : 0 ≤ r) (h1 : r ≤ M) : |(q x : ℝ) - r| < 1 + e ∧ q x ≤ M := by
  obtain ⟨s, p, rfl, _, ha⟩ := hx
  have hMT : (M : ℝ) ≤ T := by exact_mod_cast hM
  rw [abs_le] at ha
  have b1 : ((-1 / 2 : ℚ) : ℝ) ≤ (signed s p : ℝ) := by push_cast; linarith [ha.1]
  have b2 : (signed s p : ℝ) < ((T + 1 / 2 : ℚ) : ℝ) := by push_cast; linarith [ha.2]
  have b3 : (signed s p : ℝ) < ((M + 1 / 2 : ℚ) : ℝ) := by push_cast; linarith [ha.2]
  obtain ⟨n1, n2⟩ := h s p (by exact_mod_cast b1) (by exact_mod_cast b2)
  refine ⟨?_, n2 M (by exact_mod_cast b3)⟩
  have n3 : ((|(q (fin s p) : ℚ) - signed s p| : ℚ) : ℝ) < 1 := by exact_mod_cast n1
  push_cast at n3
  rw [abs_lt] at n3 ⊢
  constructor <;> linarith [n3.1, n3.2, ha.1, ha.2]

/-- Scaling by the largest sample. -/
theorem scale_app {ar : Arith F32} (hi : IsIeee ar) (f : PixelFormat) {x : F32} {r e : ℝ} (hx : App x r e) (hr : |r| ≤ 10)
    (he : e ≤ 1 / 10 ^ 4) : App (ar.mul x (maxSample f)) (r * (2 ^ sampleBits f - 1 : Nat))
      ((e + 61 / 10 ^ 8) * (2 ^ sampleBits f - 1 : Nat)) := by
  have hM : 255 ≤ 2 ^ sampleBits f - 1 ∧ 2 ^ sampleBits f - 1 ≤ 4095 := by cases f <;> simp [sampleBits]
  have he0 := hx.nonneg
  rw [hi.mul, maxSample]
  generalize 2 ^ sampleBits f - 1 = M at *
  have hM1 : (255 : ℝ) ≤ M := by exact_mod_cast hM.1
  have hM2 : (M : ℝ) ≤ 4095 := by exact_mod_cast hM.2
  have heM : e * M ≤ 1 / 10 ^ 4 * M := by gcongr
  refine (app_mul (B := (10 + 1 / 100) * M) hx (app_nat (by omega)) hr (by rw [abs_of_nonneg (by linarith)])
    (by nlinarith) (by norm_num; linarith) (by norm_num; linarith)).mono ?_
  have : (1 : ℝ) / 10 ^ 9 ≤ 1 / 100 * M := by norm_num; linarith
  nlinarith

end Ezk

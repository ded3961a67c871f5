import Verif.Proofs.Accuracy

/-!
# Rounding errors of YUV to YUV conversions

Such conversions go through RGB colours that are not limited to `[0, 1]`.
-/

namespace Ezk
open F32 FOps Spec

section
variable {ar : Arith F32} (hi : IsIeee ar) {rr : Arith ℝ} (he : Exact rr)
include hi he

theorem dot_wide {x a y b z c : F32} {x' a' y' b' z' c' : ℝ} (hx : App x x' (105 / 10 ^ 7) ∧ |x'| ≤ 10.2)
    (hy : App y y' (105 / 10 ^ 7) ∧ |y'| ≤ 10.2) (hz : App z z' (105 / 10 ^ 7) ∧ |z'| ≤ 10.2)
    (ha : App a a' (1 / 10 ^ 7) ∧ |a'| ≤ 1) (hb : App b b' (1 / 10 ^ 7) ∧ |b'| ≤ 1)
    (hc : App c c' (1 / 10 ^ 7) ∧ |c'| ≤ 1) :
    App (dot ar x a y b z c) (dot rr x' a' y' b' z' c') (41 / 10 ^ 6) ∧ |dot rr x' a' y' b' z' c'| ≤ 30.6 := by
  have prod : ∀ {u v : ℝ}, |u| ≤ 10.2 → |v| ≤ 1 → |u * v| ≤ 10.2 := by
    intro u v h1 h2; rw [abs_mul]
    have := mul_le_mul h1 h2 (abs_nonneg _) (by norm_num)
    linarith
  have p1 := prod hx.2 ha.2
  have p2 := prod hy.2 hb.2
  have p3 := prod hz.2 hc.2
  have q1 := (app_mul (B := 10.201) hx.1 ha.1 hx.2 ha.2 (by norm_num) (by norm_num) (by norm_num)).mono
    (show _ ≤ 125 / 10 ^ 7 by norm_num)
  have q2 := (app_mul (B := 10.201) hy.1 hb.1 hy.2 hb.2 (by norm_num) (by norm_num) (by norm_num)).mono
    (show _ ≤ 125 / 10 ^ 7 by norm_num)
  have q3 := (app_mul (B := 10.201) hz.1 hc.1 hz.2 hc.2 (by norm_num) (by norm_num) (by norm_num)).mono
    (show _ ≤ 125 / 10 ^ 7 by norm_num)
  have s1 := abs_add_le (x' * a') (y' * b')
  have s2 := abs_add_le (x' * a' + y' * b') (z' * c')
  have r1 := (app_add (B := 20.401) q1 q2 (by linarith) (by norm_num) (by norm_num)).mono
    (show _ ≤ 265 / 10 ^ 7 by norm_num)
  have r2 := (app_add (B := 30.601) r1 q3 (by linarith) (by norm_num) (by norm_num)).mono
    (show _ ≤ 41 / 10 ^ 6 by norm_num)
  rw [dot_real he]
  refine ⟨?_, by linarith⟩
  simpa only [dot, hi.add, hi.mul] using r2

theorem rgbToYuv_wide {cs : ColorSpace} (hcs : isMatrix cs = true) (t : ColorTransfer) (prim : ColorPrimaries) {p : C3 F32}
    {q : C3 ℝ} (h : App3 p q (105 / 10 ^ 7) 10.2) :
    App3 (rgbToYuv ar cs t prim p) (rgbToYuv rr cs t prim q) (41 / 10 ^ 6) 30.6 := by
  rw [rgbToYuv_matrix _ hcs, rgbToYuv_matrix _ hcs]
  have hm := forward_app cs
  obtain ⟨h1, h2, h3⟩ := h
  exact ⟨dot_wide hi he h1 h2 h3 hm.m00 hm.m01 hm.m02, dot_wide hi he h1 h2 h3 hm.m10 hm.m11 hm.m12,
    dot_wide hi he h1 h2 h3 hm.m20 hm.m21 hm.m22⟩

theorem mean4_wide {a b c d : F32} {a' b' c' d' : ℝ} (ha : App a a' (8 / 10 ^ 6) ∧ |a'| ≤ 10.2)
    (hb : App b b' (8 / 10 ^ 6) ∧ |b'| ≤ 10.2) (hc : App c c' (8 / 10 ^ 6) ∧ |c'| ≤ 10.2) (hd : App d d' (8 / 10 ^ 6) ∧ |d'| ≤ 10.2) :
    App (mean4 ar a b c d) (mean4 rr a' b' c' d') (105 / 10 ^ 7) ∧ |mean4 rr a' b' c' d'| ≤ 10.2 := by
  have s1 := abs_add_le a' b'
  have s2 := abs_add_le c' d'
  have s3 := abs_add_le (a' + b') (c' + d')
  have q : |(lit 0.25 : ℝ)| ≤ 1 / 4 := by rw [lit_real]; norm_num [Rat.cast_ofScientific]
  have r1 := (app_add (B := 20.401) ha.1 hb.1 (by linarith [ha.2, hb.2]) (by norm_num) (by norm_num)).mono
    (show _ ≤ 173 / 10 ^ 7 by norm_num)
  have r2 := (app_add (B := 20.401) hc.1 hd.1 (by linarith [hc.2, hd.2]) (by norm_num) (by norm_num)).mono
    (show _ ≤ 173 / 10 ^ 7 by norm_num)
  have r3 := (app_add (B := 40.801) r1 r2 (by linarith [ha.2, hb.2, hc.2, hd.2]) (by norm_num) (by norm_num)).mono
    (show _ ≤ 371 / 10 ^ 7 by norm_num)
  have r4 := (app_mul (A := 40.8) (B := 10.201) r3 app_quarter (by linarith [ha.2, hb.2, hc.2, hd.2]) q (by norm_num)
    (by norm_num) (by norm_num)).mono (show _ ≤ 105 / 10 ^ 7 by norm_num)
  simp only [mean4, he.add, he.mul, hi.add, hi.mul]
  refine ⟨r4, ?_⟩
  rw [abs_mul]
  have := mul_le_mul (show |a' + b' + (c' + d')| ≤ 40.8 by linarith [ha.2, hb.2, hc.2, hd.2]) q (abs_nonneg _) (by norm_num)
  linarith

theorem compressLuma_wide (full : Bool) {y : F32} {y' : ℝ} (h : App y y' (41 / 10 ^ 6)) (h' : |y'| ≤ 30.6) :
    App (compressLuma ar full y) (compressLuma rr full y') (5 / 10 ^ 5) ∧ |compressLuma rr full y'| ≤ 32 := by
  cases full
  · have c : |(FOps.div (lit 219.0) (lit 255.0) : ℝ)| ≤ 219 / 255 := by
      simp only [lit_real, div_real]; norm_num [Rat.cast_ofScientific, abs_le]
    have c2 : |(FOps.div (lit 16.0) (lit 255.0) : ℝ)| ≤ 1 / 10 := by
      simp only [lit_real, div_real]; norm_num [Rat.cast_ofScientific, abs_le]
    have r1 := (app_mul (B := 30.601) h app_219 h' c (by norm_num) (by norm_num) (by norm_num)).mono
      (show _ ≤ 41 / 10 ^ 6 by norm_num)
    have s0 : |y' * FOps.div (lit 219.0) (lit 255.0)| ≤ 30.6 := by
      rw [abs_mul]
      have := mul_le_mul h' c (abs_nonneg _) (by norm_num)
      linarith
    have s1 := abs_add_le (FOps.div (lit 16.0) (lit 255.0)) (y' * FOps.div (lit 219.0) (lit 255.0))
    have r2 := (app_add (B := 30.8) app_16 r1 (by linarith) (by norm_num) (by norm_num)).mono (show _ ≤ 5 / 10 ^ 5 by norm_num)
    simp only [compressLuma, Bool.false_eq_true, if_false, he.add, he.mul, hi.add, hi.mul]
    exact ⟨r2, by linarith⟩
  · simp only [compressLuma, if_true]
    exact ⟨h.mono (by norm_num), by linarith⟩

theorem compressChroma_wide (full : Bool) {u : F32} {u' : ℝ} (h : App u u' (46 / 10 ^ 6)) (h' : |u'| ≤ 30.6) :
    App (compressChroma ar full u) (compressChroma rr full u') (5 / 10 ^ 5) ∧ |compressChroma rr full u'| ≤ 32 := by
  have c0 : |(lit 0.5 : ℝ)| ≤ 1 / 2 := by rw [lit_real]; norm_num [Rat.cast_ofScientific]
  have s0 := abs_add_le u' (lit 0.5)
  have r0 := (app_add (B := 31.2) h app_half (by linarith) (by norm_num) (by norm_num)).mono (show _ ≤ 48 / 10 ^ 6 by norm_num)
  cases full
  · have c : |(FOps.div (lit 224.0) (lit 255.0) : ℝ)| ≤ 224 / 255 := by
      simp only [lit_real, div_real]; norm_num [Rat.cast_ofScientific, abs_le]
    have c2 : |(FOps.div (lit 16.0) (lit 255.0) : ℝ)| ≤ 1 / 10 := by
      simp only [lit_real, div_real]; norm_num [Rat.cast_ofScientific, abs_le]
    have r1 := (app_mul (A := 31.1) (B := 30.6) r0 app_224 (by linarith) c (by norm_num) (by norm_num) (by norm_num)).mono
      (show _ ≤ 48 / 10 ^ 6 by norm_num)
    have s1 : |(u' + lit 0.5) * FOps.div (lit 224.0) (lit 255.0)| ≤ 30.6 := by
      rw [abs_mul]
      have := mul_le_mul (show |u' + lit 0.5| ≤ 31.1 by linarith) c (abs_nonneg _) (by norm_num)
      norm_num at this ⊢
      linarith
    have s2 := abs_add_le (FOps.div (lit 16.0) (lit 255.0)) ((u' + lit 0.5) * FOps.div (lit 224.0) (lit 255.0))
    have r2 := (app_add (B := 30.9) app_16 r1 (by linarith) (by norm_num) (by norm_num)).mono (show _ ≤ 5 / 10 ^ 5 by norm_num)
    simp only [compressChroma, Bool.false_eq_true, if_false, he.add, he.mul, hi.add, hi.mul]
    exact ⟨r2, by linarith⟩
  · simp only [compressChroma, if_true, he.add, hi.add]
    exact ⟨r0.mono (by norm_num), by linarith⟩

end

/-! ## A picture -/

section
variable {ar : Nat → Arith F32} (hi : ∀ x, IsIeee (ar x)) {rr : Nat → Arith ℝ} (he : ∀ x, Exact (rr x))
include hi he

/-- A float RGB picture approximates a real one in the cell of pixel `(x, y)`. -/
def CellApp (f : PixelFormat) (p : Pic F32) (q : Pic ℝ) (x y : Nat) : Prop :=
  ∀ c, (c = .R ∨ c = .G ∨ c = .B) → ∀ x' y', x' / hsub f = x / hsub f → y' / vsub f = y / vsub f →
    App (p c x' y') (q c x' y') (8 / 10 ^ 6) ∧ |q c x' y'| ≤ 10.2

theorem yuvAt_wide {i : YuvColorInfo} (hs : isMatrix i.space = true) {p : Pic F32} {q : Pic ℝ} {x y : Nat}
    (h : ∀ c, (c = .R ∨ c = .G ∨ c = .B) → App (p c x y) (q c x y) (8 / 10 ^ 6) ∧ |q c x y| ≤ 10.2) :
    App3 (yuvAt ar i p x y) (yuvAt rr i q x y) (41 / 10 ^ 6) 30.6 := by
  have key : ∀ c, (c = .R ∨ c = .G ∨ c = .B) → App (p c x y) (q c x y) (105 / 10 ^ 7) ∧ |q c x y| ≤ 10.2 := fun c hc =>
    ⟨(h c hc).1.mono (by norm_num), (h c hc).2⟩
  exact rgbToYuv_wide (hi x) (he x) hs _ _ ⟨key .R (by simp), key .G (by simp), key .B (by simp)⟩

theorem chroma422_wide {f : PixelFormat} (hf : hsub f = 2) {i : YuvColorInfo} (hs : isMatrix i.space = true) {p : Pic F32}
    {q : Pic ℝ} {x y : Nat} (h : CellApp f p q x y) :
    (App (chroma422 ar i p x y).1 (chroma422 rr i q x y).1 (46 / 10 ^ 6) ∧ |(chroma422 rr i q x y).1| ≤ 30.6) ∧
    (App (chroma422 ar i p x y).2 (chroma422 rr i q x y).2 (46 / 10 ^ 6) ∧ |(chroma422 rr i q x y).2| ≤ 30.6) := by
  have h0 := yuvAt_wide hi he hs (x := x / 2 * 2) (y := y) fun c hc => h c hc _ _ (by rw [hf]; omega) rfl
  have h1 := yuvAt_wide hi he hs (x := x / 2 * 2 + 1) (y := y) fun c hc => h c hc _ _ (by rw [hf]; omega) rfl
  have key : ∀ {a b : F32} {a' b' : ℝ}, App a a' (41 / 10 ^ 6) ∧ |a'| ≤ 30.6 → App b b' (41 / 10 ^ 6) ∧ |b'| ≤ 30.6 →
      App ((ar x).div ((ar x).add a b) (lit 2.0)) ((rr x).div ((rr x).add a' b') (lit 2.0)) (46 / 10 ^ 6) ∧
        |(rr x).div ((rr x).add a' b') (lit 2.0)| ≤ 30.6 := by
    intro a b a' b' ha hb
    have s := abs_add_le a' b'
    have r1 := (app_add (B := 61.3) ha.1 hb.1 (by linarith [ha.2, hb.2]) (by norm_num) (by norm_num)).mono
      (show _ ≤ 86 / 10 ^ 6 by norm_num)
    have r2 := (app_div_nat (n := 2) (B := 30.7) r1 (by norm_num) (by norm_num)
      (by rw [div_le_iff₀ (by norm_num)]; norm_num; linarith [ha.2, hb.2]) (by norm_num) (by norm_num)).mono
      (show _ ≤ 46 / 10 ^ 6 by norm_num)
    have e2 : (lit 2.0 : ℝ) = ((2 : Nat) : ℝ) := by rw [lit_real]; norm_num [Rat.cast_ofScientific]
    rw [(he x).div, (he x).add, (hi x).div, (hi x).add, lit_two, e2]
    refine ⟨r2, ?_⟩
    rw [abs_div, div_le_iff₀ (by norm_num)]
    norm_num
    linarith [ha.2, hb.2]
  exact ⟨key h0.2.1 h1.2.1, key h0.2.2 h1.2.2⟩

theorem chroma420_wide {f : PixelFormat} (hf : hsub f = 2) (hf' : vsub f = 2) {i : YuvColorInfo}
    (hs : isMatrix i.space = true) {p : Pic F32} {q : Pic ℝ} {x y : Nat} (h : CellApp f p q x y) :
    (App (chroma420 ar i p x y).1 (chroma420 rr i q x y).1 (46 / 10 ^ 6) ∧ |(chroma420 rr i q x y).1| ≤ 30.6) ∧
    (App (chroma420 ar i p x y).2 (chroma420 rr i q x y).2 (46 / 10 ^ 6) ∧ |(chroma420 rr i q x y).2| ≤ 30.6) := by
  have m : ∀ c : Chan, (c = .R ∨ c = .G ∨ c = .B) → _ := fun c hc =>
    mean4_wide (hi x) (he x) (h c hc (x / 2 * 2) (y / 2 * 2) (by rw [hf]; omega) (by rw [hf']; omega))
      (h c hc (x / 2 * 2) (y / 2 * 2 + 1) (by rw [hf]; omega) (by rw [hf']; omega))
      (h c hc (x / 2 * 2 + 1) (y / 2 * 2) (by rw [hf]; omega) (by rw [hf']; omega))
      (h c hc (x / 2 * 2 + 1) (y / 2 * 2 + 1) (by rw [hf]; omega) (by rw [hf']; omega))
  have r := rgbToYuv_wide (hi x) (he x) hs i.transfer i.primaries (p := (_, _, _)) (q := (_, _, _))
    ⟨m .R (by simp), m .G (by simp), m .B (by simp)⟩
  simp only [chroma420, hs, if_true]
  exact ⟨⟨r.2.1.1.mono (by norm_num), r.2.1.2⟩, r.2.2.1.mono (by norm_num), r.2.2.2⟩

theorem chromaOf_wide (f : PixelFormat) {i : YuvColorInfo} (hs : isMatrix i.space = true) {p : Pic F32} {q : Pic ℝ} {x y : Nat}
    (h : CellApp f p q x y) :
    (App (chromaOf ar f i p x y).1 (chromaOf rr f i q x y).1 (46 / 10 ^ 6) ∧ |(chromaOf rr f i q x y).1| ≤ 30.6) ∧
    (App (chromaOf ar f i p x y).2 (chromaOf rr f i q x y).2 (46 / 10 ^ 6) ∧ |(chromaOf rr f i q x y).2| ≤ 30.6) := by
  unfold chromaOf
  split
  · have r := yuvAt_wide hi he hs fun c hc => h c hc x y rfl rfl
    exact ⟨⟨r.2.1.1.mono (by norm_num), r.2.1.2⟩, r.2.2.1.mono (by norm_num), r.2.2.2⟩
  · rename_i h1
    have h2 : hsub f = 2 := by revert h1; cases f <;> simp [hsub]
    split
    · exact chroma422_wide hi he h2 hs h
    · rename_i h3
      exact chroma420_wide hi he h2 (by revert h3; cases f <;> simp [vsub]) hs h

/-- The YUV picture. -/
theorem encode_wide (f : PixelFormat) {i : YuvColorInfo} (hs : isMatrix i.space = true) {p : Pic F32} {q : Pic ℝ} {x y : Nat}
    (h : CellApp f p q x y) {c : Chan} (hc : c = .Y ∨ c = .U ∨ c = .V) :
    App (encode ar f i p c x y) (encode rr f i q c x y) (5 / 10 ^ 5) ∧ |encode rr f i q c x y| ≤ 32 := by
  have r := chromaOf_wide hi he f hs h
  rcases hc with rfl | rfl | rfl
  · have r := yuvAt_wide hi he hs fun c hc => h c hc x y rfl rfl
    exact compressLuma_wide (hi x) (he x) _ r.1.1 r.1.2
  · exact compressChroma_wide (hi x) (he x) _ r.1.1 r.1.2
  · exact compressChroma_wide (hi x) (he x) _ r.2.1 r.2.2

end
end Ezk

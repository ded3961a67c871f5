import Verif.Proofs.ChangeApp
import Verif.Proofs.Ideal

/-!
# The RGB signals of YUV samples, precisely
-/

namespace Ezk
open F32 FOps Spec

theorem luma_range {rr : Arith ℝ} (he : Exact rr) (full : Bool) {u : ℝ} (h0 : 0 ≤ u) (h1 : u ≤ 1) :
    -8 / 100 ≤ expandLuma rr full u ∧ expandLuma rr full u ≤ 11 / 10 := by
  cases full
  · simp only [expandLuma, Bool.false_eq_true, if_false, he.sub, he.mul, lit_real, div_real]
    norm_num only [Rat.cast_ofScientific]
    constructor <;> linarith
  · simp only [expandLuma, if_true]
    constructor <;> linarith

theorem chroma_range {rr : Arith ℝ} (he : Exact rr) (full : Bool) {u : ℝ} (h0 : 0 ≤ u) (h1 : u ≤ 1) :
    -572 / 1000 ≤ expandChroma rr full u ∧ expandChroma rr full u ≤ 568 / 1000 := by
  cases full
  · simp only [expandChroma, Bool.false_eq_true, if_false, he.sub, he.mul, lit_real, div_real]
    norm_num only [Rat.cast_ofScientific]
    constructor <;> linarith
  · simp only [expandChroma, if_true, he.sub, lit_real]
    norm_num only [Rat.cast_ofScientific]
    constructor <;> linarith

theorem backward_le {cs : ColorSpace} (hcs : cs = .BT601 ∨ cs = .BT709) :
    |(backwardMat cs : Mat ℝ).m20| ≤ 158 / 100 ∧ |(backwardMat cs : Mat ℝ).m21| ≤ 72 / 100 ∧
      |(backwardMat cs : Mat ℝ).m11| ≤ 35 / 100 ∧ |(backwardMat cs : Mat ℝ).m12| ≤ 186 / 100 := by
  rcases hcs with rfl | rfl <;>
  · simp only [backwardMat, BT601_YUV_TO_RGB, BT709_YUV_TO_RGB, makeYuvToRgb, lit_real, div_real, FOps.mul, FOps.sub, FOps.neg]
    norm_num [Rat.cast_ofScientific, abs_le]

section
variable {ar : Arith F32} (hi : IsIeee ar) {rr : Arith ℝ} (he : Exact rr)
include hi he

theorem yuvToRgb_tight {cs : ColorSpace} (hcs : cs = .BT601 ∨ cs = .BT709) (t : ColorTransfer) (prim : ColorPrimaries) {y u v : F32}
    {y' u' v' : ℝ} (hy : App y y' (5 / 10 ^ 7) ∧ -8 / 100 ≤ y' ∧ y' ≤ 11 / 10)
    (hu : App u u' (7 / 10 ^ 7) ∧ -572 / 1000 ≤ u' ∧ u' ≤ 568 / 1000)
    (hv : App v v' (7 / 10 ^ 7) ∧ -572 / 1000 ≤ v' ∧ v' ≤ 568 / 1000) :
    let s := yuvToRgb ar cs t prim (y, u, v)
    let s' := yuvToRgb rr cs t prim (y', u', v')
    (App s.1 s'.1 (24 / 10 ^ 7) ∧ Good s.1 ∧ |s'.1 - 51 / 100| ≤ 168 / 100) ∧
    (App s.2.1 s'.2.1 (24 / 10 ^ 7) ∧ Good s.2.1 ∧ |s'.2.1 - 51 / 100| ≤ 168 / 100) ∧
    (App s.2.2 s'.2.2 (24 / 10 ^ 7) ∧ Good s.2.2 ∧ |s'.2.2 - 51 / 100| ≤ 168 / 100) := by
  have hm : isMatrix cs = true := by rcases hcs with rfl | rfl <;> rfl
  obtain ⟨b1, b2, b3, b4⟩ := backward_le hcs
  have hb := backward_app cs
  rw [yuvToRgb_matrix _ hm, yuvToRgb_matrix _ hm]
  have hu' : |u'| ≤ 572 / 1000 := by rw [abs_le]; constructor <;> linarith [hu.2.1, hu.2.2]
  have hv' : |v'| ≤ 572 / 1000 := by rw [abs_le]; constructor <;> linarith [hv.2.1, hv.2.2]
  have prod : ∀ {x a : F32} {x' a' A : ℝ}, App x x' (7 / 10 ^ 7) → |x'| ≤ 572 / 1000 → App a a' (3 / 10 ^ 7) → |a'| ≤ A → A ≤ 2 →
      App (F32.mul x a) (x' * a') (3 / 10 ^ 7 + A * (7 / 10 ^ 7)) ∧ |x' * a'| ≤ 572 / 1000 * A := by
    intro x a x' a' A hx hx' ha ha' hA
    have A0 := (abs_nonneg _).trans ha'
    refine ⟨(app_mul (B := 2) hx ha hx' ha' (by nlinarith) (by norm_num) (by norm_num)).mono (by norm_num; linarith), ?_⟩
    rw [abs_mul]
    exact mul_le_mul hx' ha' (abs_nonneg _) (by norm_num)
  have one : ∀ {a : F32} {a' : ℝ}, App a a' (17 / 10 ^ 7) ∧ |a'| ≤ 1065 / 1000 →
      App (F32.add y a) (y' + a') (24 / 10 ^ 7) ∧ Good (F32.add y a) ∧ |y' + a' - 51 / 100| ≤ 168 / 100 := by
    intro a a' ha
    have h := abs_le.mp ha.2
    refine ⟨(app_add (B := 23 / 10) hy.1 ha.1 ?_ (by norm_num) (by norm_num)).mono (by norm_num), good_add_any _ _, ?_⟩
    · have : |y' + a'| ≤ 22 / 10 := by rw [abs_le]; constructor <;> linarith [hy.2.1, hy.2.2, h.1, h.2]
      norm_num
      linarith
    · rw [abs_le]; constructor <;> linarith [hy.2.1, hy.2.2, h.1, h.2]
  have p1 := prod hv.1 hv' hb.m20.1 b1 (by norm_num)
  have p2 := prod hv.1 hv' hb.m21.1 b2 (by norm_num)
  have p3 := prod hu.1 hu' hb.m11.1 b3 (by norm_num)
  have p4 := prod hu.1 hu' hb.m12.1 b4 (by norm_num)
  simp only [yuvToRgbMatrix, he.add, he.mul, hi.add, hi.mul]
  refine ⟨one ⟨p1.1.mono (by norm_num), by linarith [p1.2]⟩, one ⟨?_, ?_⟩, one ⟨p4.1.mono (by norm_num), by linarith [p4.2]⟩⟩
  · refine (app_add (B := 1) p2.1 p3.1 ?_ (by norm_num) (by norm_num)).mono (by norm_num)
    have := abs_add_le (v' * (backwardMat cs : Mat ℝ).m21) (u' * (backwardMat cs : Mat ℝ).m11)
    norm_num
    linarith [p2.2, p3.2]
  · have := abs_add_le (v' * (backwardMat cs : Mat ℝ).m21) (u' * (backwardMat cs : Mat ℝ).m11)
    linarith [p2.2, p3.2]

end

/-- The RGB signals. -/
theorem decode_tight {ar : Nat → Arith F32} (hi : ∀ x, IsIeee (ar x)) {rr : Nat → Arith ℝ} (he : ∀ x, Exact (rr x))
    {i : YuvColorInfo} (hs : i.space = .BT601 ∨ i.space = .BT709) {p : Pic F32} {q : Pic ℝ} {x y : Nat}
    (h : ∀ c, (c = .Y ∨ c = .U ∨ c = .V) → App (p c x y) (q c x y) (1 / 10 ^ 7) ∧ 0 ≤ q c x y ∧ q c x y ≤ 1) {c : Chan}
    (hc : c = .R ∨ c = .G ∨ c = .B) :
    App (decode ar i p c x y) (decode rr i q c x y) (24 / 10 ^ 7) ∧ Good (decode ar i p c x y) ∧
      |decode rr i q c x y - 51 / 100| ≤ 168 / 100 := by
  have a := h .Y (by simp)
  have b := h .U (by simp)
  have d := h .V (by simp)
  have ab : ∀ {z : ℝ}, 0 ≤ z ∧ z ≤ 1 → |z| ≤ 1 := fun hz => by rw [abs_of_nonneg hz.1]; exact hz.2
  have r := yuvToRgb_tight (hi x) (he x) hs i.transfer i.primaries
    ⟨(expandLuma_app (hi x) (he x) i.fullRange a.1 (ab a.2)).1, luma_range (he x) i.fullRange a.2.1 a.2.2⟩
    ⟨(expandChroma_app (hi x) (he x) i.fullRange b.1 (ab b.2)).1, chroma_range (he x) i.fullRange b.2.1 b.2.2⟩
    ⟨(expandChroma_app (hi x) (he x) i.fullRange d.1 (ab d.2)).1, chroma_range (he x) i.fullRange d.2.1 d.2.2⟩
  rcases hc with rfl | rfl | rfl
  · exact r.1
  · exact r.2.1
  · exact r.2.2

end Ezk

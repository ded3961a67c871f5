import Verif.Proofs.Accuracy
import Verif.Proofs.DecodeInRange
import Verif.Proofs.DecodeTight

/-!
# Limited-range 8-bit YUV greys as floats
-/

namespace Ezk
open F32 Spec

/-- The float of the limited-range luma code `n`. -/
def lumaFloat (n : Nat) : F32 :=
  F32.mul (F32.sub (F32.div (FOps.ofNat n) (FOps.ofNat 255)) (F32.div (FOps.lit 16.0) (FOps.lit 255.0)))
    (F32.div (FOps.lit 255.0) (FOps.lit 219.0))

/-- The float of the limited-range chroma code `n`. -/
def chromaFloat (n : Nat) : F32 :=
  F32.sub (F32.mul (F32.sub (F32.div (FOps.ofNat n) (FOps.ofNat 255)) (F32.div (FOps.lit 16.0) (FOps.lit 255.0)))
    (F32.div (FOps.lit 255.0) (FOps.lit 224.0))) (FOps.lit 0.5)

/-- Chroma of greys is exactly 0. -/
theorem chroma_neutral : chromaFloat 128 = .fin false 0 := by decide +kernel

/-- What is needed of the float of a luma code. -/
def lumaOk (n : Nat) : Bool :=
  (F32.add (lumaFloat n) (.fin false 0) == lumaFloat n) && (F32.add (lumaFloat n) (.fin true 0) == lumaFloat n) &&
    match lumaFloat n with
    | .fin s q => decide (0 ≤ q) && decide (signed s q - ((n : ℚ) - 16) / 219 ≤ 1 / 10 ^ 6) &&
        decide (-(1 / 10 ^ 6) ≤ signed s q - ((n : ℚ) - 16) / 219) && (n != 16 || (decide (q = 0) && !s))
    | _ => false

theorem luma_table : (List.range 256).all lumaOk = true := by decide +kernel

theorem luma_ok {n : Nat} (hn : n ≤ 255) : lumaOk n = true :=
  List.all_eq_true.mp luma_table n (List.mem_range.mpr (by omega))

/-- Adding a zero to the luma of a code does not change it. -/
theorem luma_add_zero {n : Nat} (hn : n ≤ 255) (b : Bool) : F32.add (lumaFloat n) (.fin b 0) = lumaFloat n := by
  have h := luma_ok hn
  simp only [lumaOk, Bool.and_eq_true, beq_iff_eq] at h
  cases b
  · exact h.1.1
  · exact h.1.2

theorem luma_is {n : Nat} (hn : n ≤ 255) : ∃ X : ℚ, Is (lumaFloat n) X ∧ |X - ((n : ℚ) - 16) / 219| ≤ 1 / 10 ^ 6 ∧
    (n = 16 → X = 0 ∧ lumaFloat n = .fin false 0) := by
  have h := luma_ok hn
  simp only [lumaOk, Bool.and_eq_true] at h
  replace h := h.2
  cases e : lumaFloat n with
  | nan => rw [e] at h; cases h
  | inf s => rw [e] at h; cases h
  | fin s q =>
    rw [e] at h
    simp only [Bool.and_eq_true, decide_eq_true_eq, Bool.or_eq_true, bne_iff_ne, ne_eq, Bool.not_eq_true'] at h
    obtain ⟨⟨⟨h0, h1⟩, h2⟩, h3⟩ := h
    refine ⟨signed s q, ⟨s, q, rfl, h0, rfl⟩, abs_le.mpr ⟨h2, h1⟩, fun hn => ?_⟩
    obtain ⟨rfl, rfl⟩ := h3.resolve_left (not_not.mpr hn)
    exact ⟨by simp [signed], rfl⟩

theorem luma_good (n : Nat) : Good (lumaFloat n) :=
  good_mul (good_sub (good_div (good_ofRat _ _) (good_ofRat _ _)) (good_div (good_lit _) (good_lit _))) (good_div (good_lit _) (good_lit _))

/-- The three signals of a grey are its luma. -/
theorem decode_neutral {ar : Nat → Arith F32} (hi : ∀ x, IsIeee (ar x)) {i : YuvColorInfo} (hm : isMatrix i.space = true)
    (hr : i.fullRange = false) {f : PixelFormat} (h8 : sampleBits f = 8) {V : Pic Nat} {x y : Nat} (hY : V .Y x y ≤ 255)
    (hU : V .U x y = 128) (hV : V .V x y = 128) {c : Chan} (hc : c = .R ∨ c = .G ∨ c = .B) :
    decode ar i (Spec.normalize ar f V) c x y = lumaFloat (V .Y x y) := by
  have eY : expandLuma (ar x) false (Spec.normalize ar f V .Y x y) = lumaFloat (V .Y x y) := by
    simp only [expandLuma, Spec.normalize, maxSample, h8, (hi x).mul, (hi x).sub, (hi x).div]
    rfl
  have eC : ∀ {c : Chan}, V c x y = 128 → expandChroma (ar x) false (Spec.normalize ar f V c x y) = .fin false 0 := by
    intro c h
    rw [← chroma_neutral]
    simp only [expandChroma, Spec.normalize, maxSample, h8, h, (hi x).mul, (hi x).sub, (hi x).div]
    rfl
  have key : ∀ M : Mat F32, (∃ b, F32.mul (.fin false 0) M.m20 = .fin b 0) → (∃ b, F32.mul (.fin false 0) M.m12 = .fin b 0) →
      (∃ b, F32.add (F32.mul (.fin false 0) M.m21) (F32.mul (.fin false 0) M.m11) = .fin b 0) →
      yuvToRgbMatrix (ar x) M (lumaFloat (V .Y x y), .fin false 0, .fin false 0) =
        (lumaFloat (V .Y x y), lumaFloat (V .Y x y), lumaFloat (V .Y x y)) := by
    rintro M ⟨b1, h1⟩ ⟨b2, h2⟩ ⟨b3, h3⟩
    simp only [yuvToRgbMatrix, (hi x).mul, (hi x).add, h1, h2, h3, luma_add_zero hY]
  simp only [decode, hr, eY, eC hU, eC hV]
  have : yuvToRgb (ar x) i.space i.transfer i.primaries (lumaFloat (V .Y x y), .fin false 0, .fin false 0) =
      (lumaFloat (V .Y x y), lumaFloat (V .Y x y), lumaFloat (V .Y x y)) := by
    cases e : i.space <;> rw [e] at hm <;> simp only [yuvToRgb]
    · exact key _ ⟨false, by decide +kernel⟩ ⟨false, by decide +kernel⟩ ⟨true, by decide +kernel⟩
    · exact key _ ⟨false, by decide +kernel⟩ ⟨false, by decide +kernel⟩ ⟨true, by decide +kernel⟩
    · exact key _ ⟨false, by decide +kernel⟩ ⟨false, by decide +kernel⟩ ⟨true, by decide +kernel⟩
    · cases hm
    · cases hm
  rw [this]
  rcases hc with rfl | rfl | rfl <;> rfl

end Ezk

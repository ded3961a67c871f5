import Verif.Spec.Convert
import Verif.Proofs.Stores

/-!
# Conversions do not depend on where a pixel is
-/

namespace Ezk
open Spec FOps

section
variable {F : Type} [FOps F] {ar br : Nat → Arith F} {α : Type}

/-- The 2×2 cell of `(i, j)` of the picture `Q` is that of `(x0 + i, y0 + j)` of `P`. -/
def CellAt (P Q : Pic α) (x0 y0 i j : Nat) : Prop :=
  ∀ c i' j', i' / 2 = i / 2 → j' / 2 = j / 2 → Q c i' j' = P c (x0 + i') (y0 + j')

/-- The columns of the cell of column `i` are treated alike. -/
def ColumnsAt (ar br : Nat → Arith F) (x0 i : Nat) : Prop := ∀ i', i' / 2 = i / 2 → br i' = ar (x0 + i')

variable {x0 y0 i j : Nat} (ha : ColumnsAt ar br x0 i)
include ha

theorem normalize_at {f : PixelFormat} {V W : Pic Nat} (h : CellAt V W x0 y0 i j) :
    CellAt (normalize ar f V) (normalize br f W) x0 y0 i j := fun c i' j' e1 e2 => by
  rw [normalize, normalize, h c i' j' e1 e2, ha i' e1]

theorem decode_at {k : YuvColorInfo} {P Q : Pic F} (h : CellAt P Q x0 y0 i j) :
    CellAt (decode ar k P) (decode br k Q) x0 y0 i j := fun c i' j' e1 e2 => by
  cases c <;> simp only [decode, h _ i' j' e1 e2, ha i' e1]

omit ha in
theorem withAlpha_at {f : PixelFormat} {P Q : Pic F} (h : CellAt P Q x0 y0 i j) :
    CellAt (withAlpha f P) (withAlpha f Q) x0 y0 i j := fun c i' j' e1 e2 => by
  rw [withAlpha, withAlpha, h c i' j' e1 e2]

theorem adaptPic_at {sc dc : ColorInfo} {P Q : Pic F} (h : CellAt P Q x0 y0 i j) :
    CellAt (adaptPic ar sc dc P) (adaptPic br sc dc Q) x0 y0 i j := by
  unfold adaptPic
  split
  · exact h
  · intro c i' j' e1 e2
    cases c <;> simp only [changeColor, h _ i' j' e1 e2, ha i' e1]

theorem readPic_at {f : PixelFormat} {c : ColorInfo} {V W : Pic Nat} (h : CellAt V W x0 y0 i j) :
    CellAt (readPic ar f c V) (readPic br f c W) x0 y0 i j := by
  have hn := normalize_at (f := f) ha h
  cases c with
  | YUV k =>
    unfold readPic
    simp only
    split
    · exact decode_at ha hn
    · exact withAlpha_at hn
  | RGB k => exact withAlpha_at hn

theorem encode_at (hx : x0 % 2 = 0) (hy : y0 % 2 = 0) {f : PixelFormat} {k : YuvColorInfo} {P Q : Pic F} (h : CellAt P Q x0 y0 i j) (c : Chan) :
    encode br f k Q c i j = encode ar f k P c (x0 + i) (y0 + j) := by
  have hy' : ∀ i' j', i' / 2 = i / 2 → j' / 2 = j / 2 → yuvAt br k Q i' j' = yuvAt ar k P (x0 + i') (y0 + j') := by
    intro i' j' e1 e2
    simp only [yuvAt, h _ i' j' e1 e2, ha i' e1]
  have ex : (x0 + i) / 2 * 2 = x0 + i / 2 * 2 := by omega
  have ey : (y0 + j) / 2 * 2 = y0 + j / 2 * 2 := by omega
  have q1 : i / 2 * 2 / 2 = i / 2 := by omega
  have q2 : (i / 2 * 2 + 1) / 2 = i / 2 := by omega
  have q3 : j / 2 * 2 / 2 = j / 2 := by omega
  have q4 : (j / 2 * 2 + 1) / 2 = j / 2 := by omega
  have hc : chromaOf br f k Q i j = chromaOf ar f k P (x0 + i) (y0 + j) := by
    unfold chromaOf
    split
    · rw [hy' i j rfl rfl]
    · split
      · simp only [chroma422, ex, ha i rfl, hy' _ j q1 rfl, hy' _ j q2 rfl, Nat.add_assoc]
      · simp only [chroma420, ex, ey, ha i rfl, h _ _ _ q1 q3, h _ _ _ q1 q4, h _ _ _ q2 q3, h _ _ _ q2 q4, hy' _ _ q1 q3, hy' _ _ q1 q4,
          hy' _ _ q2 q3, hy' _ _ q2 q4, Nat.add_assoc]
  cases c <;> simp only [encode, ha i rfl, hy' i j rfl rfl, hc, h _ i j rfl rfl]

/-- The floats to be stored for the cell. -/
theorem convertedF_at (hx : x0 % 2 = 0) (hy : y0 % 2 = 0) {sf df : PixelFormat} {sc dc : ColorInfo} {V W : Pic Nat}
    (h : CellAt V W x0 y0 i j) (c : Chan) :
    convertedF br sf sc df dc W c i j = convertedF ar sf sc df dc V c (x0 + i) (y0 + j) := by
  have hr := adaptPic_at ha (sc := sc) (dc := dc) (readPic_at (f := sf) (c := sc) ha h)
  unfold convertedF
  split
  · exact normalize_at ha h c i j rfl rfl
  · cases dc with
    | YUV k =>
      unfold writePic
      simp only
      split
      · exact encode_at ha hx hy hr c
      · exact hr c i j rfl rfl
    | RGB k => exact hr c i j rfl rfl

/-- The codes to be stored for the cell. -/
theorem converted_at (hx : x0 % 2 = 0) (hy : y0 % 2 = 0) {sf df : PixelFormat} {sc dc : ColorInfo} {V W : Pic Nat}
    (h : CellAt V W x0 y0 i j) (c : Chan) :
    converted br sf sc df dc W c i j = converted ar sf sc df dc V c (x0 + i) (y0 + j) := by
  unfold converted quantize
  rw [convertedF_at ha hx hy h, ha i rfl]

end

/-- Colour information of a matrix colour space, or of RGB. -/
def MatrixColor : ColorInfo → Prop
  | .YUV i => isMatrix i.space = true
  | .RGB _ => True

/-- The floats are the same with any IEEE arithmetic if there is no change of transfer function and primaries. -/
theorem convertedF_ieee {ar br : Nat → Arith F32} (hi : ∀ x, IsIeee (ar x)) (hi' : ∀ x, IsIeee (br x)) {sf df : PixelFormat} {sc dc : ColorInfo}
    (hs : MatrixColor sc) (hd : MatrixColor dc) (ht : sc.transfer = dc.transfer) (hp : sc.primaries = dc.primaries) (V : Pic Nat) :
    convertedF ar sf sc df dc V = convertedF br sf sc df dc V := by
  have hn : normalize ar sf V = normalize br sf V := by
    funext c x y
    simp only [normalize, (hi x).div, (hi' x).div]
  have hr : readPic ar sf sc V = readPic br sf sc V := by
    cases sc with
    | YUV i =>
      have hs : isMatrix i.space = true := hs
      unfold readPic
      rw [hn]
      simp only
      split
      · funext c x y
        unfold decode
        have : ∀ q : C3 F32, yuvToRgb (ar x) i.space i.transfer i.primaries q = yuvToRgb (br x) i.space i.transfer i.primaries q := by
          intro q
          revert hs
          cases i.space <;> simp only [isMatrix, Bool.false_eq_true, false_imp_iff, true_imp_iff, yuvToRgb, yuvToRgbMatrix, (hi x).add, (hi x).mul,
            (hi' x).add, (hi' x).mul]
        simp only [this, expandLuma, expandChroma, (hi x).sub, (hi x).mul, (hi' x).sub, (hi' x).mul]
      · rfl
    | RGB i => unfold readPic; rw [hn]
  have hA : ∀ (ar : Nat → Arith F32) (P : Pic F32), adaptPic ar sc dc P = P := fun _ _ => if_pos ⟨ht, hp⟩
  unfold convertedF
  rw [hn, hr, hA, hA]
  generalize readPic br sf sc V = P
  split
  · rfl
  · cases dc with
    | RGB i => rfl
    | YUV i =>
      have hd : isMatrix i.space = true := hd
      have hy : ∀ x x' : Nat, ∀ q : C3 F32, rgbToYuv (ar x) i.space i.transfer i.primaries q = rgbToYuv (br x') i.space i.transfer i.primaries q := by
        intro x x' q
        revert hd
        cases i.space <;> simp only [isMatrix, Bool.false_eq_true, false_imp_iff, true_imp_iff, rgbToYuv, matMul, dot, (hi x).add, (hi x).mul,
            (hi' x').add, (hi' x').mul]
      have hya : ∀ x y, yuvAt ar i P x y = yuvAt br i P x y := fun x y => hy x x _
      have hc : ∀ x y, chromaOf ar df i P x y = chromaOf br df i P x y := by
        intro x y
        simp only [chromaOf, hya, chroma422, chroma420, hd, if_true, mean4, (hi x).add, (hi' x).add, (hi x).mul, (hi' x).mul, (hi x).div,
          (hi' x).div, hy x x]
      unfold writePic
      simp only
      split
      · funext c x y
        cases c <;> simp only [encode, hya, hc, compressLuma, compressChroma, (hi x).add, (hi x).mul, (hi' x).add, (hi' x).mul]
      · rfl

end Ezk

import Verif.Spec.Convert

/-!
# What is stored in 4:2:0 images with an ICtCp colour space

`Spec.converted` is what a conversion has to store.  For 4:2:0 destinations with an ICtCp colour space the code stores
something else, which depends on the number of lanes of a vector.  This is the picture it does store.
-/

namespace Ezk.Spec
open FOps PixelFormat

/-- Lanes of the vectors used for column `x` of an image `w` wide, on a CPU with `len` lanes. -/
def lanes (len w x : Nat) : Nat := if x < w - w % (len * 2) then len else 1

section
variable {F : Type} [FOps F] (ar : Nat → Arith F)

/-- Chroma of the 2×2 cell of pixel `(x, y)`, the `k`-th of a block of `n` cells beginning at column `x₀`: three parts of
the chroma of pixel `x₀ + k` and one of that of pixel `x₀ + n + k`, both in the upper row. -/
def chromaAsIs (len w : Nat) (i : YuvColorInfo) (p : Pic F) (x y : Nat) : F × F :=
  let a := ar x
  let n := lanes len w x
  let x₀ := x / (n * 2) * (n * 2)
  let k := (x - x₀) / 2
  let q := yuvAt ar i p (x₀ + k) (y / 2 * 2)
  let r := yuvAt ar i p (x₀ + n + k) (y / 2 * 2)
  let sum (f : C3 F → F) : F := a.div (a.add (a.add (a.add (f q) (f r)) (f q)) (f q)) (lit 4.0)
  (sum (·.2.1), sum (·.2.2))

/-- The float picture `convert` stores for a source showing `V`. -/
def convertedAsIsF (len w : Nat) (sf : PixelFormat) (sc : ColorInfo) (df : PixelFormat) (dc : ColorInfo) (V : Pic Nat) :
    Pic F := fun c x y =>
  let p := adaptPic ar sc dc (readPic ar sf sc V)
  match dc, c with
  | .YUV i, .U =>
    if ¬ (sf = df ∧ sc = dc) ∧ vsub df = 2 ∧ isMatrix i.space = false then
      compressChroma (ar x) i.fullRange (chromaAsIs ar len w i p x y).1
    else convertedF ar sf sc df dc V c x y
  | .YUV i, .V =>
    if ¬ (sf = df ∧ sc = dc) ∧ vsub df = 2 ∧ isMatrix i.space = false then
      compressChroma (ar x) i.fullRange (chromaAsIs ar len w i p x y).2
    else convertedF ar sf sc df dc V c x y
  | _, _ => convertedF ar sf sc df dc V c x y

/-- What `convert` stores for a source showing `V`. -/
def convertedAsIs (len w : Nat) (sf : PixelFormat) (sc : ColorInfo) (df : PixelFormat) (dc : ColorInfo) (V : Pic Nat) :
    Pic Nat :=
  quantize ar df (convertedAsIsF ar len w sf sc df dc V)

end
end Ezk.Spec

import Verif.Spec.Color
import Verif.Spec.Layout

/-!
# What a conversion has to produce

A picture is a function from channel and pixel position to a value; there are no planes, strides, blocks or vectors
here.  `ar x` is the arithmetic the CPU uses for column `x` (SIMD for most columns, scalar for the rest).
-/

namespace Ezk.Spec
open FOps PixelFormat

/-- Formats storing YUV. -/
def isYuv : PixelFormat → Bool
  | RGBA | BGRA | RGB | BGR => false
  | _ => true

/-- A picture: the value of a channel at pixel `(x, y)`. -/
abbrev Pic (α : Type) := Chan → Nat → Nat → α

/-- The image of format `f` stored in planes `ps` of memory `m` shows `V`: wherever the format stores a sample, that
sample has the value given by `V`.  (`V` is unconstrained for channels that the format does not store.) -/
def Depicts (f : PixelFormat) (ps : List Plane) (w h : Nat) (m : Mem) (V : Pic Nat) : Prop :=
  ∀ c x y l, x < w → y < h → sampleLoc f c x y = some l → sample f ps m c x y = some (V c x y)

/-- The picture in a memory (0 where nothing is stored). -/
def shown (f : PixelFormat) (ps : List Plane) (m : Mem) : Pic Nat := fun c x y => (sample f ps m c x y).getD 0

/-- No common address. -/
def SliceDisjoint (s t : Slice) : Prop :=
  ∀ a, s.addr ≤ a → a < s.addr + s.len → t.addr ≤ a → a < t.addr + t.len → False

/-- The planes of an image (`&mut [u8]`) do not overlap. -/
def PlanesDisjoint (f : PixelFormat) (ps : List Plane) : Prop :=
  ∀ i j p q, i < planeCount f → j < planeCount f → i ≠ j → ps[i]? = some p → ps[j]? = some q →
    SliceDisjoint p.slice q.slice

/-- The planes of the source (`&[u8]`) do not overlap the planes of the destination (`&mut [u8]`). -/
def Separate (sf : PixelFormat) (sps : List Plane) (df : PixelFormat) (dps : List Plane) : Prop :=
  ∀ i j p q, i < planeCount sf → j < planeCount df → sps[i]? = some p → dps[j]? = some q →
    SliceDisjoint p.slice q.slice

/-- The three planes of a 4:4:4 image have the same stride. -/
def UniformStrides (f : PixelFormat) (ps : List Plane) : Prop :=
  isYuv f = true ∧ hsub f = 1 → ∀ i < 3, ∀ p p0 : Plane, ps[i]? = some p → ps[0]? = some p0 → p.stride = p0.stride

/-- The samples of an image, with the mistake `I444Reader` makes: it looks for odd rows of U and V as if their planes had
the stride of Y. -/
def asRead (f : PixelFormat) (ps : List Plane) (m : Mem) : Pic Nat := fun c x y =>
  match sampleLoc f c x y with
  | none => 0
  | some l => match ps[l.plane]?, ps[0]? with
    | some p, some p0 => sampleVal f m (p.slice.addr +
        l.row * (if isYuv f = true ∧ hsub f = 1 ∧ y % 2 = 1 then p0.stride else p.stride) + l.col)
    | _, _ => 0

/-- Address `a` holds a byte of a sample of the image. -/
def SampleByte (f : PixelFormat) (ps : List Plane) (w h a : Nat) : Prop :=
  ∃ c x y l b k, x < w ∧ y < h ∧ sampleLoc f c x y = some l ∧ locAddr ps l = some b ∧ k < sampleBytes f ∧ a = b + k

/-- Formats storing alpha. -/
def hasAlpha : PixelFormat → Bool
  | RGBA | BGRA => true
  | _ => false

/-- Significant bits of a sample. -/
def sampleBits : PixelFormat → Nat
  | I010 | I210 | I410 => 10
  | I012 | I212 | I412 => 12
  | _ => 8

section
variable {F : Type} [FOps F] (ar : Nat → Arith F)

/-- The largest sample value of a format, as a float. -/
def maxSample (f : PixelFormat) : F := ofNat (2 ^ sampleBits f - 1)

/-- Samples as floats in `[0, 1]`. -/
def normalize (f : PixelFormat) (V : Pic Nat) : Pic F := fun c x y => (ar x).div (ofNat (V c x y)) (maxSample f)

/-- Floats to samples: scaled, then converted by the store instruction for that format. -/
def quantize (f : PixelFormat) (p : Pic F) : Pic Nat := fun c x y =>
  let v := (ar x).mul (p c x y) (maxSample f)
  if isYuv f = false then ((ar x).q8i v).toNat
  else if sampleBytes f = 1 then ((ar x).q8 v).toNat else ((ar x).q16 v).toNat

/-- RGB picture from a YUV picture, pixel by pixel; opaque. -/
def decode (i : YuvColorInfo) (p : Pic F) : Pic F := fun c x y =>
  let rgb := yuvToRgb (ar x) i.space i.transfer i.primaries
    (expandLuma (ar x) i.fullRange (p .Y x y), expandChroma (ar x) i.fullRange (p .U x y),
     expandChroma (ar x) i.fullRange (p .V x y))
  match c with
  | .R => rgb.1
  | .G => rgb.2.1
  | .B => rgb.2.2
  | .A => lit 1.0
  | c => p c x y

/-- RGB(A) picture from an RGB(A) picture: alpha is 1 where it is not stored. -/
def withAlpha (f : PixelFormat) (p : Pic F) : Pic F := fun c x y =>
  if c = .A ∧ hasAlpha f = false then lit 1.0 else p c x y

/-- Change of transfer function and primaries, pixel by pixel; alpha is kept. -/
def changeColor (sc dc : ColorInfo) (p : Pic F) : Pic F := fun c x y =>
  let rgb := changeRgb (ar x) sc.transfer sc.primaries dc.transfer dc.primaries (p .R x y, p .G x y, p .B x y)
  match c with
  | .R => rgb.1
  | .G => rgb.2.1
  | .B => rgb.2.2
  | c => p c x y

/-- YUV of one RGB pixel. -/
def yuvAt (i : YuvColorInfo) (p : Pic F) (x y : Nat) : C3 F :=
  rgbToYuv (ar x) i.space i.transfer i.primaries (p .R x y, p .G x y, p .B x y)

/-- `((a + b) + (c + d)) · ¼` -/
def mean4 (ar : Arith F) (a b c d : F) : F := ar.mul (ar.add (ar.add a b) (ar.add c d)) (lit 0.25)

/-- Colour spaces given by a 3×3 matrix. -/
def isMatrix : ColorSpace → Bool
  | .BT601 | .BT709 | .BT2020 => true
  | .ICtCpPQ | .ICtCpHLG => false

/-- Chroma (`U`, `V`) of the 2×2 cell of pixel `(x, y)`: the matrix applied to the mean colour of its four pixels;
for the non-linear ICtCp spaces the mean of the four pixels' chroma. -/
def chroma420 (i : YuvColorInfo) (p : Pic F) (x y : Nat) : F × F :=
  let a := ar x
  let x := x / 2 * 2
  let y := y / 2 * 2
  if isMatrix i.space then
    let mean (c : Chan) : F := mean4 a (p c x y) (p c x (y + 1)) (p c (x + 1) y) (p c (x + 1) (y + 1))
    let yuv := rgbToYuv a i.space i.transfer i.primaries (mean .R, mean .G, mean .B)
    (yuv.2.1, yuv.2.2)
  else
    let mean (f : C3 F → F) : F := a.div (a.add (a.add (a.add (f (yuvAt ar i p x y)) (f (yuvAt ar i p (x + 1) y)))
      (f (yuvAt ar i p x (y + 1)))) (f (yuvAt ar i p (x + 1) (y + 1)))) (lit 4.0)
    (mean (·.2.1), mean (·.2.2))

/-- Chroma of the 2×1 cell of pixel `(x, y)`: the mean of its two pixels' chroma. -/
def chroma422 (i : YuvColorInfo) (p : Pic F) (x y : Nat) : F × F :=
  let a := ar x
  let x := x / 2 * 2
  let mean (f : C3 F → F) : F := a.div (a.add (f (yuvAt ar i p x y)) (f (yuvAt ar i p (x + 1) y))) (lit 2.0)
  (mean (·.2.1), mean (·.2.2))

/-- Chroma of a pixel as stored by format `f`. -/
def chromaOf (f : PixelFormat) (i : YuvColorInfo) (p : Pic F) (x y : Nat) : F × F :=
  if hsub f = 1 then ((yuvAt ar i p x y).2.1, (yuvAt ar i p x y).2.2)
  else if vsub f = 1 then chroma422 ar i p x y
  else chroma420 ar i p x y

/-- YUV picture (as stored by format `f`) from an RGB picture. -/
def encode (f : PixelFormat) (i : YuvColorInfo) (p : Pic F) : Pic F := fun c x y =>
  match c with
  | .Y => compressLuma (ar x) i.fullRange (yuvAt ar i p x y).1
  | .U => compressChroma (ar x) i.fullRange (chromaOf ar f i p x y).1
  | .V => compressChroma (ar x) i.fullRange (chromaOf ar f i p x y).2
  | c => p c x y

/-- The RGBA picture read from a source image. -/
def readPic (f : PixelFormat) (c : ColorInfo) (V : Pic Nat) : Pic F :=
  match c with
  | .YUV i => if isYuv f then decode ar i (normalize ar f V) else withAlpha f (normalize ar f V)
  | .RGB _ => withAlpha f (normalize ar f V)

/-- The change of colour, if transfer function or primaries differ. -/
def adaptPic (sc dc : ColorInfo) (p : Pic F) : Pic F :=
  if sc.transfer = dc.transfer ∧ sc.primaries = dc.primaries then p else changeColor ar sc dc p

/-- The float picture stored in a destination image. -/
def writePic (f : PixelFormat) (c : ColorInfo) (p : Pic F) : Pic F :=
  match c with
  | .YUV i => if isYuv f then encode ar f i p else p
  | .RGB _ => p

/-- The float picture that `convert` has to store for a source showing `V`. -/
def convertedF (sf : PixelFormat) (sc : ColorInfo) (df : PixelFormat) (dc : ColorInfo) (V : Pic Nat) : Pic F :=
  if sf = df ∧ sc = dc then normalize ar sf V
  else writePic ar df dc (adaptPic ar sc dc (readPic ar sf sc V))

/-- What `convert` has to store for a source showing `V`. -/
def converted (sf : PixelFormat) (sc : ColorInfo) (df : PixelFormat) (dc : ColorInfo) (V : Pic Nat) : Pic Nat :=
  quantize ar df (convertedF ar sf sc df dc V)

end
end Ezk.Spec

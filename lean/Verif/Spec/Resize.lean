import Verif.Spec.Convert
import Verif.Model.Resize

/-!
# Specification of resizing: how a plane is a picture

Written from the descriptions of the pixel formats.  A "pixel" of a plane is the smallest group of bytes that may be
interpolated independently: one sample of a planar format, a `UV` pair of NV12, a `YUYV` quadruple, an RGB or RGBA pixel.
-/

namespace Ezk.Spec
open PixelFormat

/-- The kind of the pixels of plane `i`. -/
def pixelKind (f : PixelFormat) (i : Nat) : PixelType :=
  match f with
  | I420 | I422 | I444 => .U8
  | I010 | I012 | I210 | I212 | I410 | I412 => .U16
  | NV12 => if i = 0 then .U8 else .U8x2
  | YUYV | RGBA | BGRA => .U8x4
  | RGB | BGR => .U8x3

/-- Pixels in a row of plane `i` of an image `w` wide. -/
def planePixels (f : PixelFormat) (i w : Nat) : Nat :=
  match f with
  | I420 | I422 | I010 | I012 | I210 | I212 | NV12 => if i = 0 then w else w / 2
  | YUYV => w / 2
  | I444 | I410 | I412 | RGBA | BGRA | RGB | BGR => w

/-- Bytes of a pixel. -/
def kindBytes : PixelType → Nat
  | .U8 => 1
  | .U16 => 2
  | .U8x2 => 2
  | .U8x3 => 3
  | .U8x4 => 4

/-- The bytes of plane `p` (number `i`) of a `w`×`h` image. -/
def planeBytes (f : PixelFormat) (i w h : Nat) (p : Plane) (m : Mem) : Nat → Nat → UInt8 := fun r c =>
  if r < rowCount f i h ∧ c < planePixels f i w * kindBytes (pixelKind f i) then m (p.slice.addr + r * p.stride + c) else 0

/-- The bytes that plane `i` of the destination should have: the source plane, scaled. -/
def scaledPlane (fir : Fir) (f : PixelFormat) (i sw sh dw dh : Nat) (p : Plane) (m : Mem) : Nat → Nat → UInt8 :=
  fir (pixelKind f i) (planePixels f i sw) (rowCount f i sh) (planeBytes f i sw sh p m) (planePixels f i dw)
    (rowCount f i dh)

/-- The planes of a `w`×`h` image can be shown to fir: they end before there is room for another row, and their rows
are aligned for 16-bit samples. -/
def Showable (f : PixelFormat) (h : Nat) (ps : List Plane) : Prop :=
  ∀ i < planeCount f, ∀ p, ps[i]? = some p → 0 < p.stride ∧ p.slice.len < p.stride * (rowCount f i h + 1) ∧
    (sampleBytes f = 2 → p.slice.addr % 2 = 0 ∧ p.stride % 2 = 0)

end Ezk.Spec

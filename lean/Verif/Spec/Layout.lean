import Verif.Model.Image

/-!
# Specification of the pixel formats' memory layout

Written from the documentation of the formats (`src/pixel_format.rs:5-50`), not from the code that walks
planes.  Nothing here uses `PlaneDesc` or `Op`.
-/

namespace Ezk.Spec
open PixelFormat

/-- Number of planes of a format. -/
def planeCount : PixelFormat → Nat
  | I420 | I422 | I444 | I010 | I012 | I210 | I212 | I410 | I412 => 3
  | NV12 => 2
  | YUYV | RGBA | BGRA | RGB | BGR => 1

/-- Bytes of one sample. -/
def sampleBytes : PixelFormat → Nat
  | I010 | I012 | I210 | I212 | I410 | I412 => 2
  | I420 | I422 | I444 | NV12 | YUYV | RGBA | BGRA | RGB | BGR => 1

/-- Bytes of one packed row of plane `i` of an image `w` pixels wide. -/
def rowBytes (f : PixelFormat) (i w : Nat) : Nat :=
  match f with
  | I420 | I422 => if i = 0 then w else w / 2
  | I444 => w
  | I010 | I012 | I210 | I212 => if i = 0 then 2 * w else 2 * (w / 2)
  | I410 | I412 => 2 * w
  | NV12 => w
  | YUYV => 2 * w
  | RGBA | BGRA => 4 * w
  | RGB | BGR => 3 * w

/-- Rows of plane `i` of an image `h` pixels high. -/
def rowCount (f : PixelFormat) (i h : Nat) : Nat :=
  match f with
  | I420 | I010 | I012 | NV12 => if i = 0 then h else h / 2
  | I422 | I444 | I210 | I212 | I410 | I412 | YUYV | RGBA | BGRA | RGB | BGR => h

/-- Horizontal chroma sub-sampling factor. -/
def hsub : PixelFormat → Nat
  | I420 | I422 | I010 | I012 | I210 | I212 | NV12 | YUYV => 2
  | I444 | I410 | I412 | RGBA | BGRA | RGB | BGR => 1

/-- Vertical chroma sub-sampling factor. -/
def vsub : PixelFormat → Nat
  | I420 | I010 | I012 | NV12 => 2
  | I422 | I444 | I210 | I212 | I410 | I412 | YUYV | RGBA | BGRA | RGB | BGR => 1

/-- Colour channels. -/
inductive Chan
  | Y | U | V | R | G | B | A
  deriving DecidableEq, Repr

/-- Where a sample lives: plane, row in the plane, byte offset in the row. -/
structure Loc where
  plane : Nat
  row : Nat
  col : Nat
  deriving DecidableEq, Repr

/-- The location of channel `c` of pixel `(x, y)`; `none` if the format does not store that channel. -/
def sampleLoc (f : PixelFormat) (c : Chan) (x y : Nat) : Option Loc :=
  match f, c with
  | I420, .Y => some ⟨0, y, x⟩
  | I420, .U => some ⟨1, y / 2, x / 2⟩
  | I420, .V => some ⟨2, y / 2, x / 2⟩
  | I422, .Y => some ⟨0, y, x⟩
  | I422, .U => some ⟨1, y, x / 2⟩
  | I422, .V => some ⟨2, y, x / 2⟩
  | I444, .Y => some ⟨0, y, x⟩
  | I444, .U => some ⟨1, y, x⟩
  | I444, .V => some ⟨2, y, x⟩
  | I010, .Y | I012, .Y => some ⟨0, y, 2 * x⟩
  | I010, .U | I012, .U => some ⟨1, y / 2, 2 * (x / 2)⟩
  | I010, .V | I012, .V => some ⟨2, y / 2, 2 * (x / 2)⟩
  | I210, .Y | I212, .Y => some ⟨0, y, 2 * x⟩
  | I210, .U | I212, .U => some ⟨1, y, 2 * (x / 2)⟩
  | I210, .V | I212, .V => some ⟨2, y, 2 * (x / 2)⟩
  | I410, .Y | I412, .Y => some ⟨0, y, 2 * x⟩
  | I410, .U | I412, .U => some ⟨1, y, 2 * x⟩
  | I410, .V | I412, .V => some ⟨2, y, 2 * x⟩
  | NV12, .Y => some ⟨0, y, x⟩
  | NV12, .U => some ⟨1, y / 2, 2 * (x / 2)⟩
  | NV12, .V => some ⟨1, y / 2, 2 * (x / 2) + 1⟩
  | YUYV, .Y => some ⟨0, y, 2 * x⟩
  | YUYV, .U => some ⟨0, y, 4 * (x / 2) + 1⟩
  | YUYV, .V => some ⟨0, y, 4 * (x / 2) + 3⟩
  | RGBA, .R => some ⟨0, y, 4 * x⟩
  | RGBA, .G => some ⟨0, y, 4 * x + 1⟩
  | RGBA, .B => some ⟨0, y, 4 * x + 2⟩
  | RGBA, .A => some ⟨0, y, 4 * x + 3⟩
  | BGRA, .B => some ⟨0, y, 4 * x⟩
  | BGRA, .G => some ⟨0, y, 4 * x + 1⟩
  | BGRA, .R => some ⟨0, y, 4 * x + 2⟩
  | BGRA, .A => some ⟨0, y, 4 * x + 3⟩
  | RGB, .R => some ⟨0, y, 3 * x⟩
  | RGB, .G => some ⟨0, y, 3 * x + 1⟩
  | RGB, .B => some ⟨0, y, 3 * x + 2⟩
  | BGR, .B => some ⟨0, y, 3 * x⟩
  | BGR, .G => some ⟨0, y, 3 * x + 1⟩
  | BGR, .R => some ⟨0, y, 3 * x + 2⟩
  | _, _ => none

/-- Address of the first byte of a location, given the planes. -/
def locAddr (ps : List Plane) (l : Loc) : Option Nat :=
  ps[l.plane]?.map fun p => p.slice.addr + l.row * p.stride + l.col

/-- The bytes at a location are inside its plane's slice and inside its row. -/
def Addressable (ps : List Plane) (l : Loc) (bytes : Nat) : Prop :=
  ∃ p, ps[l.plane]? = some p ∧ l.col + bytes ≤ p.stride ∧
    l.row * p.stride + l.col + bytes ≤ p.slice.len

/-- Total bytes of a packed image. -/
def packedSize (f : PixelFormat) (w h : Nat) : Nat :=
  ((List.range (planeCount f)).map fun i => rowBytes f i w * rowCount f i h).sum

/-- Sizes of the planes for given strides and height. -/
def stridedSizes (f : PixelFormat) (h : Nat) (ss : List Nat) : List Nat :=
  ss.mapIdx fun i s => s * rowCount f i h

/-- Numerical value of the sample at a location: one byte, or two in little-endian order. -/
def sampleVal (f : PixelFormat) (m : Mem) (addr : Nat) : Nat :=
  if sampleBytes f = 1 then (m addr).toNat else (m addr).toNat + 256 * (m (addr + 1)).toNat

/-- The value of channel `c` of pixel `(x, y)` of an image with planes `ps`. -/
def sample (f : PixelFormat) (ps : List Plane) (m : Mem) (c : Chan) (x y : Nat) : Option Nat :=
  ((sampleLoc f c x y).bind (locAddr ps)).map (sampleVal f m)

end Ezk.Spec

/-! ## What a bounds check has to decide -/
namespace Ezk.Spec

/-- Plane `i` is large enough for a `w`×`h` image, and its sizes are representable in `usize`. -/
structure PlaneFits (f : PixelFormat) (w h i : Nat) (p : Plane) : Prop where
  packed_usize : rowBytes f i w < 2 ^ 64
  stride_ge : rowBytes f i w ≤ p.stride
  size_usize : p.stride * rowCount f i h < 2 ^ 64
  size_le : p.stride * rowCount f i h ≤ p.slice.len

/-- What is wrong with plane `i`, and the error to report for it. -/
inductive PlaneViolation (f : PixelFormat) (w h i : Nat) (p : Plane) : BoundsCheckError → Prop
  | stride : rowBytes f i w < 2 ^ 64 → p.stride < rowBytes f i w →
      PlaneViolation f w h i p (.invalidStride i (rowBytes f i w) p.stride)
  | size : rowBytes f i w < 2 ^ 64 → rowBytes f i w ≤ p.stride → p.stride * rowCount f i h < 2 ^ 64 →
      p.slice.len < p.stride * rowCount f i h →
      PlaneViolation f w h i p (.invalidPlaneSize i (p.stride * rowCount f i h) p.slice.len)

/-- A size of plane `i` does not fit in `usize`. -/
def PlaneOverflow (f : PixelFormat) (w h i : Nat) (p : Plane) : Prop :=
  2 ^ 64 ≤ rowBytes f i w ∨ rowBytes f i w ≤ p.stride ∧ 2 ^ 64 ≤ p.stride * rowCount f i h

end Ezk.Spec

namespace Ezk.Spec

/-- Pixel `(x, y)` has a complete cell for channel `c`: with an odd size the last column (row) has no chroma
sample of its own in a sub-sampled format. -/
def HasCell (f : PixelFormat) (c : Chan) (w h x y : Nat) : Prop :=
  x < w ∧ y < h ∧
    (c = .U ∨ c = .V → x / hsub f * hsub f + hsub f ≤ w ∧ y / vsub f * vsub f + vsub f ≤ h)

end Ezk.Spec

/-! ## Windows -/
namespace Ezk.Spec

/-- The window lies inside a `w`×`h` image (sums as mathematical integers, and representable in `usize`). -/
def WindowInside (win : Window) (w h : Nat) : Prop :=
  win.x + win.width ≤ w ∧ win.y + win.height ≤ h ∧ win.x + win.width < 2 ^ 64 ∧ win.y + win.height < 2 ^ 64

/-- Plane `i` has the rows of the window, the last one with a full stride behind the window's first column. -/
def HasWindowRows (f : PixelFormat) (win : Window) (i : Nat) (p : Plane) : Prop :=
  (rowCount f i win.y + rowCount f i win.height) * p.stride + rowBytes f i win.x ≤ p.slice.len

/-- The window starts on the chroma grid of the format. -/
def Aligned (f : PixelFormat) (win : Window) : Prop := win.x % hsub f = 0 ∧ win.y % vsub f = 0

instance (f : PixelFormat) (win : Window) : Decidable (Aligned f win) := inferInstanceAs (Decidable (_ ∧ _))
instance (f : PixelFormat) (win : Window) (i : Nat) (p : Plane) : Decidable (HasWindowRows f win i p) :=
  inferInstanceAs (Decidable (_ ≤ _))

/-- The window `w2` of a window `w1`, seen from the outside. -/
def addWindow (w1 w2 : Window) : Window := ⟨w1.x + w2.x, w1.y + w2.y, w2.width, w2.height⟩

end Ezk.Spec

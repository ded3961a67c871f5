import Verif.Model.Basic

/-!
# Plane descriptions, pixel formats, buffer sizes and the bounds check
-/

namespace Ezk

/-- `src/plane_decs.rs:30-34`. -/
inductive Op
  | mul (n : Nat)
  | div (n : Nat)
  | identity
  deriving DecidableEq, Repr

/-- `src/plane_decs.rs:36-44`. (`Op::Div` only occurs with the literal 2, so there is no division by zero.) -/
def Op.op (o : Op) (lhs : Nat) : Exec Nat :=
  match o with
  | .mul rhs => mulU lhs rhs
  | .div rhs => divU lhs rhs
  | .identity => .ok lhs

/-- The `fir::PixelType` variants used by the plane descriptions. (`src/plane_decs.rs:17`) -/
inductive PixelType
  | U8 | U16 | U8x2 | U8x3 | U8x4
  deriving DecidableEq, Repr

/-- `fir::PixelType::size`: bytes of one pixel of that type (external crate `fast_image_resize`).
(called at `src/resize.rs:77`) -/
def PixelType.size : PixelType → Nat
  | .U8 => 1 | .U16 => 2 | .U8x2 => 2 | .U8x3 => 3 | .U8x4 => 4

/-- `src/plane_decs.rs:9-18`. -/
structure PlaneDesc where
  widthOp : Op
  heightOp : Op
  bytesPerPrimitive : Nat
  pixelType : PixelType
  deriving DecidableEq, Repr

/-- `src/plane_decs.rs:21-25`. -/
def PlaneDesc.packedStride (d : PlaneDesc) (width : Nat) : Exec Nat := do
  mulU (← d.widthOp.op width) d.bytesPerPrimitive

/-- `src/plane_decs.rs:46-68`. -/
def I420_PLANES : List PlaneDesc :=
  [⟨.identity, .identity, 1, .U8⟩, ⟨.div 2, .div 2, 1, .U8⟩, ⟨.div 2, .div 2, 1, .U8⟩]
/-- `src/plane_decs.rs:70-92`. -/
def I422_PLANES : List PlaneDesc :=
  [⟨.identity, .identity, 1, .U8⟩, ⟨.div 2, .identity, 1, .U8⟩, ⟨.div 2, .identity, 1, .U8⟩]
/-- `src/plane_decs.rs:94-116`. -/
def I444_PLANES : List PlaneDesc :=
  [⟨.identity, .identity, 1, .U8⟩, ⟨.identity, .identity, 1, .U8⟩, ⟨.identity, .identity, 1, .U8⟩]
/-- `src/plane_decs.rs:118-140`. -/
def I01X_PLANES : List PlaneDesc :=
  [⟨.identity, .identity, 2, .U16⟩, ⟨.div 2, .div 2, 2, .U16⟩, ⟨.div 2, .div 2, 2, .U16⟩]
/-- `src/plane_decs.rs:142-164`. -/
def I21X_PLANES : List PlaneDesc :=
  [⟨.identity, .identity, 2, .U16⟩, ⟨.div 2, .identity, 2, .U16⟩, ⟨.div 2, .identity, 2, .U16⟩]
/-- `src/plane_decs.rs:166-188`. -/
def I41X_PLANES : List PlaneDesc :=
  [⟨.identity, .identity, 2, .U16⟩, ⟨.identity, .identity, 2, .U16⟩, ⟨.identity, .identity, 2, .U16⟩]
/-- `src/plane_decs.rs:190-205`. -/
def NV12_PLANES : List PlaneDesc :=
  [⟨.identity, .identity, 1, .U8⟩, ⟨.identity, .div 2, 1, .U8x2⟩]
/-- `src/plane_decs.rs:207-213`. -/
def YUYV_PLANES : List PlaneDesc := [⟨.mul 2, .identity, 1, .U8x4⟩]
/-- `src/plane_decs.rs:215-221`. -/
def RGBA_PLANES : List PlaneDesc := [⟨.mul 4, .identity, 1, .U8x4⟩]
/-- `src/plane_decs.rs:223-229`. -/
def RGB_PLANES : List PlaneDesc := [⟨.mul 3, .identity, 1, .U8x3⟩]

/-- `src/pixel_format.rs:5-50`. -/
inductive PixelFormat
  | I420 | I422 | I444 | I010 | I012 | I210 | I212 | I410 | I412
  | NV12 | YUYV | RGBA | BGRA | RGB | BGR
  deriving DecidableEq, Repr

/-- `src/planes.rs:11-16`. -/
structure InvalidNumberOfPlanes where
  expected : Nat
  got : Nat
  deriving DecidableEq, Repr

/-- `src/pixel_format.rs:191-212`. -/
inductive BoundsCheckError
  | invalidNumberOfPlanes (e : InvalidNumberOfPlanes)
  | invalidStride (plane minimum got : Nat)
  | invalidPlaneSize (plane minimum got : Nat)
  deriving DecidableEq, Repr

/-- A plane as yielded by `ImageRef::planes` / `ImageMut::planes_mut`: slice and stride. (`src/image_traits.rs:3-21`) -/
structure Plane where
  slice : Slice
  stride : Nat
  deriving DecidableEq, Repr

/-- The loop of `read_planes`/`read_planes_mut`, `src/planes.rs:18-46`: take planes one by one until
`n` are read; `i` counts the ones already taken. -/
def readPlanesAux (expected : Nat) : (remaining i : Nat) → List Plane →
    Except InvalidNumberOfPlanes (List Plane)
  | 0, _, _ => .ok []
  | _ + 1, i, [] => .error ⟨expected, i⟩
  | n + 1, i, p :: ps =>
    match readPlanesAux expected n (i + 1) ps with
    | .ok r => .ok (p :: r)
    | .error e => .error e

/-- `read_planes::<N>` / `read_planes_mut::<N>`, `src/planes.rs:18-46`. Surplus planes are ignored. -/
def readPlanes (n : Nat) (ps : List Plane) : Except InvalidNumberOfPlanes (List Plane) :=
  readPlanesAux n n 0 ps

namespace PixelFormat

/-- `src/pixel_format.rs:164-179`. -/
def planeDesc : PixelFormat → List PlaneDesc
  | I420 => I420_PLANES
  | I422 => I422_PLANES
  | I444 => I444_PLANES
  | I010 | I012 => I01X_PLANES
  | I210 | I212 => I21X_PLANES
  | I410 | I412 => I41X_PLANES
  | NV12 => NV12_PLANES
  | YUYV => YUYV_PLANES
  | RGBA | BGRA => RGBA_PLANES
  | RGB | BGR => RGB_PLANES

/-- `src/pixel_format.rs:144-162`. -/
def bitsPerComponent : PixelFormat → Nat
  | I420 => 8 | I422 => 8 | I444 => 8
  | I010 => 10 | I012 => 12 | I210 => 10 | I212 => 12 | I410 => 10 | I412 => 12
  | NV12 => 8 | YUYV => 8 | RGBA => 8 | BGRA => 8 | RGB => 8 | BGR => 8

/-- The inner function of `buffer_size`, `src/pixel_format.rs:58-69`; `size` is the running total. -/
def bufferSizeLoop (width height : Nat) : List PlaneDesc → (size : Nat) → Exec Nat
  | [], size => .ok size
  | plane :: rest, size => do
    let w ← plane.widthOp.op width
    let h ← plane.heightOp.op height
    let size ← addU size (← mulU (← mulU w h) plane.bytesPerPrimitive)
    bufferSizeLoop width height rest size

/-- `PixelFormat::buffer_size`, `src/pixel_format.rs:57-72`. -/
def bufferSize (f : PixelFormat) (width height : Nat) : Exec Nat :=
  bufferSizeLoop width height f.planeDesc 0

/-- `PixelFormat::packed_strides`, `src/pixel_format.rs:76-85`. -/
def packedStrides (f : PixelFormat) (width : Nat) : Exec (List Nat) :=
  f.planeDesc.mapM fun d => d.packedStride width

/-- The loop of the inner `bounds_check`, `src/pixel_format.rs:97-128`; `i` is the `enumerate` index. -/
def boundsCheckLoop (width height : Nat) :
    List PlaneDesc → List Plane → (i : Nat) → Exec (Except BoundsCheckError Unit)
  | [], _, _ => .ok (.ok ())
  | _, [], _ => .ok (.ok ())
  | plane :: planes, p :: got, i => do
    let minStride ← plane.packedStride width
    if minStride > p.stride then
      return .error (.invalidStride i minStride p.stride)
    let minLen ← mulU p.stride (← plane.heightOp.op height)
    if minLen > p.slice.len then
      return .error (.invalidPlaneSize i minLen p.slice.len)
    boundsCheckLoop width height planes got (i + 1)

/-- `PixelFormat::bounds_check`, `src/pixel_format.rs:89-142`.  The match there selects for each format the
same table as `plane_desc`, and `N` is the length of that table. -/
def boundsCheck (f : PixelFormat) (planes : List Plane) (width height : Nat) :
    Exec (Except BoundsCheckError Unit) :=
  match readPlanes f.planeDesc.length planes with
  | .error e => .ok (.error (.invalidNumberOfPlanes e))
  | .ok got => boundsCheckLoop width height f.planeDesc got 0

end PixelFormat
end Ezk

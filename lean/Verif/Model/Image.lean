import Verif.Model.PixelFormat

/-!
# Colour infos, `infer`, `Image`, `Cropped` and the `ImageRef`/`ImageMut` view of them
-/

namespace Ezk

/-- `src/color/space.rs:9-24`. -/
inductive ColorSpace
  | BT601 | BT709 | BT2020 | ICtCpPQ | ICtCpHLG
  deriving DecidableEq, Repr

/-- `src/color/transfer.rs:5-20`. -/
inductive ColorTransfer
  | Linear | Gamma22 | Gamma28 | SRGB | SDR | BT2100PQ | BT2100HLG
  deriving DecidableEq, Repr

/-- `src/color/primaries.rs:5-12`. -/
inductive ColorPrimaries
  | ST240 | BT709 | BT2020
  deriving DecidableEq, Repr

/-- `src/color/mod.rs:10-13`. -/
structure RgbColorInfo where
  transfer : ColorTransfer
  primaries : ColorPrimaries
  deriving DecidableEq, Repr

/-- `src/color/mod.rs:16-25`. -/
structure YuvColorInfo where
  transfer : ColorTransfer
  primaries : ColorPrimaries
  space : ColorSpace
  fullRange : Bool
  deriving DecidableEq, Repr

/-- `src/color/mod.rs:29-32`. -/
inductive ColorInfo
  | RGB (i : RgbColorInfo)
  | YUV (i : YuvColorInfo)
  deriving DecidableEq, Repr

/-- `src/color/mod.rs:35-40`. -/
def ColorInfo.primaries : ColorInfo → ColorPrimaries
  | .RGB i => i.primaries
  | .YUV i => i.primaries

/-- `src/color/mod.rs:42-47`. -/
def ColorInfo.transfer : ColorInfo → ColorTransfer
  | .RGB i => i.transfer
  | .YUV i => i.transfer

/-- The loop of `infer_impl`, `src/planes.rs:97-104`: cut one plane after the other off the front. -/
def inferLoop (height : Nat) : List (PlaneDesc × Nat) → Slice → Exec (List Slice)
  | [], _ => .ok []
  | (desc, stride) :: rest, buf => do
    let splitAt ← mulU (← desc.heightOp.op height) stride
    let (prev, rem) ← buf.splitAt splitAt
    let out ← inferLoop height rest rem
    return prev :: out

/-- `infer_impl::<N, _>`, `src/planes.rs:82-107`. -/
def inferImpl (descs : List PlaneDesc) (buf : Slice) (width height : Nat) (strides : Option (List Nat)) :
    Exec (List Slice) := do
  let strides ← match strides with
    | some s => if s.length = descs.length then .ok s else .error (.panic .unwrap)
    | none => descs.mapM fun d => d.packedStride width
  inferLoop height (descs.zip strides) buf

/-- `infer`, `src/planes.rs:54-79` (with `infer_i420` ... `infer_nv12`, `src/planes.rs:115-212`, inlined). -/
def infer (format : PixelFormat) (buf : Slice) (width height : Nat) (strides : Option (List Nat)) :
    Exec (List Slice) :=
  match format with
  | .I420 => inferImpl I420_PLANES buf width height strides
  | .I422 => inferImpl I422_PLANES buf width height strides
  | .I444 => inferImpl I444_PLANES buf width height strides
  | .I010 | .I012 => inferImpl I01X_PLANES buf width height strides
  | .I210 | .I212 => inferImpl I21X_PLANES buf width height strides
  | .I410 | .I412 => inferImpl I41X_PLANES buf width height strides
  | .NV12 => inferImpl NV12_PLANES buf width height strides
  | .YUYV => .ok [buf]
  | .RGBA | .BGRA => .ok [buf]
  | .RGB | .BGR => .ok [buf]

/-- `src/image.rs:16-19`. -/
inductive Buffer
  | whole (s : Slice)
  | split (ps : List Slice)
  deriving DecidableEq, Repr

/-- `Image<S>`, `src/image.rs:5-13`.  `S: AsRef<[u8]>` is represented by the slice it gives access to. -/
structure Image where
  format : PixelFormat
  buffer : Buffer
  strides : List Nat
  width : Nat
  height : Nat
  color : ColorInfo
  deriving DecidableEq, Repr

/-- `ImageRef::planes` / `ImageMut::planes_mut` of `Image`, `src/image.rs:110-129` and `136-155`. -/
def Image.planes (img : Image) : Exec (List Plane) :=
  match img.buffer with
  | .whole buffer => do
    let ps ← infer img.format buffer img.width img.height (some img.strides)
    return (ps.zip img.strides).map fun (s, st) => ⟨s, st⟩
  | .split planes => .ok ((planes.zip img.strides).map fun (s, st) => ⟨s, st⟩)

/-- `Window`, `src/crop.rs:18-23`. -/
structure Window where
  x : Nat
  y : Nat
  width : Nat
  height : Nat
  deriving DecidableEq, Repr

/-- Everything that implements `ImageRef`/`ImageMut`: an `Image`, a `Cropped<T>` (`src/crop.rs:26`) of
anything, or an arbitrary user implementation obeying the contract of the trait
(`src/image_traits.rs:3-21`: the same values on every call). `&T`/`&mut T` (`src/image_traits.rs:42-90`)
only forward. -/
inductive Img
  | image (i : Image)
  | cropped (t : Img) (w : Window)
  | raw (format : PixelFormat) (width height : Nat) (planes : List Plane) (color : ColorInfo)
  deriving Repr

/-- `crop_planes`, `src/crop.rs:82-106`, for one plane. -/
def cropPlane (d : PlaneDesc) (p : Plane) (window : Window) : Exec Plane := do
  let x ← d.widthOp.op window.x
  let y ← d.heightOp.op window.y
  let splitAt ← mulP (← addP (← mulP y p.stride) x) d.bytesPerPrimitive
  let (_, slice) ← p.slice.splitAt splitAt
  let splitAt ← mulP (← d.heightOp.op window.height) p.stride
  let (slice, _) ← slice.splitAt splitAt
  return ⟨slice, p.stride⟩

/-- `crop_planes`, `src/crop.rs:82-106`. -/
def cropPlanes (ds : List PlaneDesc) (ps : List Plane) (window : Window) : Exec (List Plane) :=
  (ds.zip ps).mapM fun (d, p) => cropPlane d p window

namespace Img

/-- `ImageRef::format`: `src/image.rs:100`, `src/crop.rs:55`. -/
def format : Img → PixelFormat
  | image i => i.format
  | cropped t _ => t.format
  | raw f _ _ _ _ => f

/-- `ImageRef::width`: `src/image.rs:103`, `src/crop.rs:59`. -/
def width : Img → Nat
  | image i => i.width
  | cropped _ w => w.width
  | raw _ w _ _ _ => w

/-- `ImageRef::height`: `src/image.rs:106`, `src/crop.rs:63`. -/
def height : Img → Nat
  | image i => i.height
  | cropped _ w => w.height
  | raw _ _ h _ _ => h

/-- `ImageRef::color`: `src/image.rs:130`, `src/crop.rs:71`. -/
def color : Img → ColorInfo
  | image i => i.color
  | cropped t _ => t.color
  | raw _ _ _ _ c => c

/-- `ImageRef::planes` / `ImageMut::planes_mut`: `src/image.rs:110-155`, `src/crop.rs:67-80`.  The iterator is
evaluated eagerly; every consumer in the crate exhausts it. -/
def planes : Img → Exec (List Plane)
  | image i => i.planes
  | cropped t w => do cropPlanes t.format.planeDesc (← t.planes) w
  | raw _ _ _ ps _ => .ok ps

/-- `ImageRefExt::bounds_check`, `src/image_traits.rs:26-29`. -/
def boundsCheck (t : Img) : Exec (Except BoundsCheckError Unit) := do
  t.format.boundsCheck (← t.planes) t.width t.height

end Img

/-- `src/image.rs:23-29`. -/
inductive ImageError
  | invalidDimensions
  | boundsCheck (e : BoundsCheckError)
  deriving DecidableEq, Repr

namespace Image

/-- `Image::new`, `src/image.rs:70-96`. -/
def new (format : PixelFormat) (buffer : Buffer) (strides : Option (List Nat)) (width height : Nat)
    (color : ColorInfo) : Exec (Except ImageError Image) := do
  if width = 0 ∨ height = 0 then
    return .error .invalidDimensions
  let strides ← match strides with
    | some s => .ok s
    | none => format.packedStrides width
  let this : Image := ⟨format, buffer, strides, width, height, color⟩
  match ← (Img.image this).boundsCheck with
  | .error e => return .error (.boundsCheck e)
  | .ok () => return .ok this

/-- `Image::from_buffer`, `src/image.rs:48-57`. -/
def fromBuffer (format : PixelFormat) (buffer : Slice) (strides : Option (List Nat)) (width height : Nat)
    (color : ColorInfo) : Exec (Except ImageError Image) :=
  new format (.whole buffer) strides width height color

/-- `Image::from_planes`, `src/image.rs:59-68`. -/
def fromPlanes (format : PixelFormat) (planes : List Slice) (strides : Option (List Nat))
    (width height : Nat) (color : ColorInfo) : Exec (Except ImageError Image) :=
  new format (.split planes) strides width height color

/-- `vec![0u8; n]`: the allocator picks some address `addr`; the bytes are zeroed.
Panics with "capacity overflow" when `n > isize::MAX` (allocation failure is not modelled). (`src/image.rs:35`) -/
def vecZeroed (m : Mem) (addr n : Nat) : Exec (Slice × Mem) :=
  if n ≤ isizeMax then .ok (⟨addr, n⟩, m.store addr n (fun _ => 0)) else .error (.panic .capacity)

/-- `Image::blank`, `src/image.rs:32-41`; `addr` is where the allocator puts the vector. -/
def blank (m : Mem) (addr : Nat) (format : PixelFormat) (width height : Nat) (color : ColorInfo) :
    Exec (Image × Mem) := do
  let (buf, m) ← vecZeroed m addr (← format.bufferSize width height)
  let strides ← format.packedStrides width
  return (⟨format, .whole buf, strides, width, height, color⟩, m)

end Image

/-- `src/crop.rs:8-14`. -/
inductive CropError
  | windowSizeOutOfBounds
  | boundsCheck (e : BoundsCheckError)
  deriving DecidableEq, Repr

/-- `Cropped::new` = `ImageRefExt::crop`, `src/crop.rs:29-47`, `src/image_traits.rs:32-37`. -/
def Img.crop (t : Img) (window : Window) : Exec (Except CropError Img) := do
  match ← t.boundsCheck with
  | .error e => return .error (.boundsCheck e)
  | .ok () =>
    if ¬ window.x + window.width < usizeSize then
      return .error .windowSizeOutOfBounds
    if ¬ window.y + window.height < usizeSize then
      return .error .windowSizeOutOfBounds
    if window.x + window.width > t.width ∨ window.y + window.height > t.height then
      return .error .windowSizeOutOfBounds
    return .ok (.cropped t window)

end Ezk

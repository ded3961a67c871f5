import Verif.Model.Color

/-!
# Readers, colour stages and writers of every pixel format

`src/formats/**`.  A source (`I420Src`, `I422Src`, `I444Src`, `RgbaSrc`) is a `read` function that is polymorphic in
the vector backend and reads the *current* memory.  A writer is a `Visitor`: it reads one block from its source and
then performs a list of stores.
-/

namespace Ezk
open FOps

/-- `src/lib.rs:52-67`. -/
inductive ConvertError
  | oddImageDimensions
  | mismatchedImageSize
  | invalidColorInfo
  | boundsCheck (e : BoundsCheckError)
  | invalidNumberOfPlanes (e : InvalidNumberOfPlanes)
  deriving DecidableEq, Repr

section
variable {F : Type}

/-- `src/formats/rgba/mod.rs:10-15`. -/
structure RgbaPixel (V : Type) where
  r : V
  g : V
  b : V
  a : V

/-- `src/formats/rgba/mod.rs:28-33`. -/
structure RgbaBlock (V : Type) where
  px00 : RgbaPixel V
  px01 : RgbaPixel V
  px10 : RgbaPixel V
  px11 : RgbaPixel V

/-- `src/formats/i420/mod.rs:13-21`. -/
structure I420Block (V : Type) where
  y00 : V
  y01 : V
  y10 : V
  y11 : V
  u : V
  v : V

/-- `src/formats/i422/mod.rs:13-23`. -/
structure I422Block (V : Type) where
  y00 : V
  y01 : V
  y10 : V
  y11 : V
  u0 : V
  u1 : V
  v0 : V
  v1 : V

/-- `src/formats/i444/mod.rs:20-24`. -/
structure I444Pixel (V : Type) where
  y : V
  u : V
  v : V

/-- `src/formats/i444/mod.rs:13-18`. -/
structure I444Block (V : Type) where
  px00 : I444Pixel V
  px01 : I444Pixel V
  px10 : I444Pixel V
  px11 : I444Pixel V

/-- A block source: the traits `RgbaSrc`, `I420Src`, `I422Src`, `I444Src`
(`src/formats/rgba/mod.rs:35-37`, `src/formats/i420/mod.rs:23-25`, `src/formats/i422/mod.rs:25-27`, `src/formats/i444/mod.rs:26-28`). -/
structure Src (F : Type) (Blk : Type → Type) where
  read : (B : Backend F) → Mem → (x y : Nat) → Exec (Blk B.V)

/-- `trait RgbaSrc`. (`src/formats/rgba/mod.rs:35-37`) -/
abbrev RgbaSrc (F : Type) := Src F RgbaBlock
/-- `trait I420Src`. (`src/formats/i420/mod.rs:23-25`) -/
abbrev I420Src (F : Type) := Src F I420Block
/-- `trait I422Src`. (`src/formats/i422/mod.rs:25-27`) -/
abbrev I422Src (F : Type) := Src F I422Block
/-- `trait I444Src`. (`src/formats/i444/mod.rs:26-28`) -/
abbrev I444Src (F : Type) := Src F I444Block

/-- The offset expression `row * stride + col * size` that all readers and writers use (`size` is `P::SIZE`).
(e.g. `src/formats/i420/read.rs:44-48`, `src/formats/i420/write.rs:85-89`) -/
def offset (row stride col size : Nat) : Exec Nat := do
  addP (← mulP row stride) (← mulP col size)

/-- `src.bounds_check()?; let [..; N] = read_planes(src.planes())?` — the common beginning of every reader and
writer constructor, e.g. `src/formats/i420/read.rs:24-26`, `src/formats/i420/write.rs:35-41`. -/
def openPlanes (n : Nat) (img : Img) : Exec (Except ConvertError (List Plane)) := do
  match ← img.boundsCheck with
  | .error e => return .error (.boundsCheck e)
  | .ok () =>
    match readPlanes n (← img.planes) with
    | .error e => return .error (.invalidNumberOfPlanes e)
    | .ok ps => return .ok ps

section Readers
variable [FOps F]

/-! ## Readers -/

/-- `I420Reader`, `src/formats/i420/read.rs:8-20`. -/
structure I420Reader (F : Type) where
  P : Prim
  y : Plane
  u : Plane
  v : Plane
  maxValue : F

/-- `I420Reader::read`, `src/formats/i420/read.rs:43-77`. -/
def I420Reader.read (R : I420Reader F) (B : Backend F) (m : Mem) (x y : Nat) :
    Exec (I420Block B.V) := do
  let y00o ← offset y R.y.stride x R.P.SIZE
  let y10o ← offset (← addP y 1) R.y.stride x R.P.SIZE
  let uo ← offset (y / 2) R.u.stride (x / 2) R.P.SIZE
  let vo ← offset (y / 2) R.v.stride (x / 2) R.P.SIZE
  let y00 ← R.P.load B m (← R.y.slice.dropFrom y00o)
  let y01 ← R.P.load B m (← R.y.slice.dropFrom (← addP y00o (← mulP B.LEN R.P.SIZE)))
  let y10 ← R.P.load B m (← R.y.slice.dropFrom y10o)
  let y11 ← R.P.load B m (← R.y.slice.dropFrom (← addP y10o (← mulP B.LEN R.P.SIZE)))
  let u ← R.P.load B m (← R.u.slice.dropFrom uo)
  let v ← R.P.load B m (← R.v.slice.dropFrom vo)
  return { y00 := B.vdivf y00 R.maxValue, y01 := B.vdivf y01 R.maxValue,
           y10 := B.vdivf y10 R.maxValue, y11 := B.vdivf y11 R.maxValue,
           u := B.vdivf u R.maxValue, v := B.vdivf v R.maxValue }

/-- `I420Reader::new`, `src/formats/i420/read.rs:23-38`. -/
def I420Reader.new (P : Prim) (src : Img) : Exec (Except ConvertError (I420Src F)) := do
  match ← openPlanes 3 src with
  | .error e => return .error e
  | .ok [y, u, v] =>
    let R : I420Reader F := ⟨P, y, u, v, maxValueForBits src.format.bitsPerComponent⟩
    return .ok ⟨R.read⟩
  | .ok _ => .error (.panic .unwrap) -- unreachable: `read_planes::<3>` yields exactly 3

/-- `NV12Reader`, `src/formats/nv12/read.rs:8-18`. -/
structure NV12Reader (F : Type) where
  P : Prim
  y : Plane
  uv : Plane
  maxValue : F

/-- `NV12Reader::read`, `src/formats/nv12/read.rs:39-74`. -/
def NV12Reader.read (R : NV12Reader F) (B : Backend F) (m : Mem) (x y : Nat) :
    Exec (I420Block B.V) := do
  let y00o ← offset y R.y.stride x R.P.SIZE
  let y10o ← offset (← addP y 1) R.y.stride x R.P.SIZE
  let uvo ← offset (y / 2) R.uv.stride x R.P.SIZE
  let y00 ← R.P.load B m (← R.y.slice.dropFrom y00o)
  let y01 ← R.P.load B m (← R.y.slice.dropFrom (← addP y00o (← mulP B.LEN R.P.SIZE)))
  let y10 ← R.P.load B m (← R.y.slice.dropFrom y10o)
  let y11 ← R.P.load B m (← R.y.slice.dropFrom (← addP y10o (← mulP B.LEN R.P.SIZE)))
  let uv0 ← R.P.load B m (← R.uv.slice.dropFrom uvo)
  let uv1 ← R.P.load B m (← R.uv.slice.dropFrom (← addP uvo (← mulP B.LEN R.P.SIZE)))
  let (u, v) := B.unzip uv0 uv1
  return { y00 := B.vdivf y00 R.maxValue, y01 := B.vdivf y01 R.maxValue,
           y10 := B.vdivf y10 R.maxValue, y11 := B.vdivf y11 R.maxValue,
           u := B.vdivf u R.maxValue, v := B.vdivf v R.maxValue }

/-- `NV12Reader::new`, `src/formats/nv12/read.rs:21-34`. -/
def NV12Reader.new (P : Prim) (src : Img) : Exec (Except ConvertError (I420Src F)) := do
  match ← openPlanes 2 src with
  | .error e => return .error e
  | .ok [y, uv] =>
    let R : NV12Reader F := ⟨P, y, uv, maxValueForBits src.format.bitsPerComponent⟩
    return .ok ⟨R.read⟩
  | .ok _ => .error (.panic .unwrap) -- unreachable: `read_planes::<2>` yields exactly 2

/-- `I422Reader`, `src/formats/i422/read.rs:8-20`. -/
structure I422Reader (F : Type) where
  P : Prim
  y : Plane
  u : Plane
  v : Plane
  maxValue : F

/-- `I422Reader::read`, `src/formats/i422/read.rs:43-87`. -/
def I422Reader.read (R : I422Reader F) (B : Backend F) (m : Mem) (x y : Nat) :
    Exec (I422Block B.V) := do
  let y00o ← offset y R.y.stride x R.P.SIZE
  let y10o ← offset (← addP y 1) R.y.stride x R.P.SIZE
  let u0o ← offset y R.u.stride (x / 2) R.P.SIZE
  let u1o ← offset (← addP y 1) R.u.stride (x / 2) R.P.SIZE
  let v0o ← offset y R.v.stride (x / 2) R.P.SIZE
  let v1o ← offset (← addP y 1) R.v.stride (x / 2) R.P.SIZE
  let y00 ← R.P.load B m (← R.y.slice.dropFrom y00o)
  let y01 ← R.P.load B m (← R.y.slice.dropFrom (← addP y00o (← mulP B.LEN R.P.SIZE)))
  let y10 ← R.P.load B m (← R.y.slice.dropFrom y10o)
  let y11 ← R.P.load B m (← R.y.slice.dropFrom (← addP y10o (← mulP B.LEN R.P.SIZE)))
  let u0 ← R.P.load B m (← R.u.slice.dropFrom u0o)
  let u1 ← R.P.load B m (← R.u.slice.dropFrom u1o)
  let v0 ← R.P.load B m (← R.v.slice.dropFrom v0o)
  let v1 ← R.P.load B m (← R.v.slice.dropFrom v1o)
  return { y00 := B.vdivf y00 R.maxValue, y01 := B.vdivf y01 R.maxValue,
           y10 := B.vdivf y10 R.maxValue, y11 := B.vdivf y11 R.maxValue,
           u0 := B.vdivf u0 R.maxValue, u1 := B.vdivf u1 R.maxValue,
           v0 := B.vdivf v0 R.maxValue, v1 := B.vdivf v1 R.maxValue }

/-- `I422Reader::new`, `src/formats/i422/read.rs:23-38`. -/
def I422Reader.new (P : Prim) (src : Img) : Exec (Except ConvertError (I422Src F)) := do
  match ← openPlanes 3 src with
  | .error e => return .error e
  | .ok [y, u, v] =>
    let R : I422Reader F := ⟨P, y, u, v, maxValueForBits src.format.bitsPerComponent⟩
    return .ok ⟨R.read⟩
  | .ok _ => .error (.panic .unwrap) -- unreachable: `read_planes::<3>` yields exactly 3

/-- `YUYVReader`, `src/formats/yuyv/read.rs:7-15`. -/
structure YUYVReader (F : Type) where
  P : Prim
  yuyv : Plane
  maxValue : F

/-- `YUYVReader::read_yuyv`, `src/formats/yuyv/read.rs:31-36`. -/
def YUYVReader.readYuyv (R : YUYVReader F) (B : Backend F) (m : Mem) (off : Nat) :
    Exec (B.V × B.V) := do
  let yuyv00 ← R.P.load B m (← R.yuyv.slice.dropFrom off)
  let yuyv01 ← R.P.load B m (← R.yuyv.slice.dropFrom (← addP off (← mulP B.LEN R.P.SIZE)))
  return B.unzip yuyv00 yuyv01

/-- `YUYVReader::read`, `src/formats/yuyv/read.rs:41-75`. -/
def YUYVReader.read (R : YUYVReader F) (B : Backend F) (m : Mem) (x y : Nat) :
    Exec (I422Block B.V) := do
  let o0 ← offset y R.yuyv.stride (← mulP x 2) R.P.SIZE
  let o1 ← offset (← addP y 1) R.yuyv.stride (← mulP x 2) R.P.SIZE
  let (y00, uv00) ← R.readYuyv B m o0
  let (y01, uv01) ← R.readYuyv B m (← addP o0 (← mulP (← mulP B.LEN 2) R.P.SIZE))
  let (y10, uv10) ← R.readYuyv B m o1
  let (y11, uv11) ← R.readYuyv B m (← addP o1 (← mulP (← mulP B.LEN 2) R.P.SIZE))
  let (u0, v0) := B.unzip uv00 uv01
  let (u1, v1) := B.unzip uv10 uv11
  return { y00 := B.vdivf y00 R.maxValue, y01 := B.vdivf y01 R.maxValue,
           y10 := B.vdivf y10 R.maxValue, y11 := B.vdivf y11 R.maxValue,
           u0 := B.vdivf u0 R.maxValue, u1 := B.vdivf u1 R.maxValue,
           v0 := B.vdivf v0 R.maxValue, v1 := B.vdivf v1 R.maxValue }

/-- `YUYVReader::new`, `src/formats/yuyv/read.rs:18-29`. -/
def YUYVReader.new (P : Prim) (src : Img) : Exec (Except ConvertError (I422Src F)) := do
  match ← openPlanes 1 src with
  | .error e => return .error e
  | .ok [yuyv] =>
    let R : YUYVReader F := ⟨P, yuyv, maxValueForBits src.format.bitsPerComponent⟩
    return .ok ⟨R.read⟩
  | .ok _ => .error (.panic .unwrap) -- unreachable: `read_planes::<1>` yields exactly 1

/-- `I444Reader`, `src/formats/i444/read.rs:8-20`. -/
structure I444Reader (F : Type) where
  P : Prim
  y : Plane
  u : Plane
  v : Plane
  maxValue : F

/-- `I444Reader::read`, `src/formats/i444/read.rs:43-109`.  The second-row offsets of U and V use the stride of
the Y plane (lines 48 and 51), as in the code. -/
def I444Reader.read (R : I444Reader F) (B : Backend F) (m : Mem) (x y : Nat) :
    Exec (I444Block B.V) := do
  let y00o ← offset y R.y.stride x R.P.SIZE
  let y10o ← offset (← addP y 1) R.y.stride x R.P.SIZE
  let u00o ← offset y R.u.stride x R.P.SIZE
  let u10o ← offset (← addP y 1) R.y.stride x R.P.SIZE
  let v00o ← offset y R.v.stride x R.P.SIZE
  let v10o ← offset (← addP y 1) R.y.stride x R.P.SIZE
  let y00 ← R.P.load B m (← R.y.slice.dropFrom y00o)
  let y01 ← R.P.load B m (← R.y.slice.dropFrom (← addP y00o (← mulP B.LEN R.P.SIZE)))
  let y10 ← R.P.load B m (← R.y.slice.dropFrom y10o)
  let y11 ← R.P.load B m (← R.y.slice.dropFrom (← addP y10o (← mulP B.LEN R.P.SIZE)))
  let u00 ← R.P.load B m (← R.u.slice.dropFrom u00o)
  let u01 ← R.P.load B m (← R.u.slice.dropFrom (← addP u00o (← mulP B.LEN R.P.SIZE)))
  let u10 ← R.P.load B m (← R.u.slice.dropFrom u10o)
  let u11 ← R.P.load B m (← R.u.slice.dropFrom (← addP u10o (← mulP B.LEN R.P.SIZE)))
  let v00 ← R.P.load B m (← R.v.slice.dropFrom v00o)
  let v01 ← R.P.load B m (← R.v.slice.dropFrom (← addP v00o (← mulP B.LEN R.P.SIZE)))
  let v10 ← R.P.load B m (← R.v.slice.dropFrom v10o)
  let v11 ← R.P.load B m (← R.v.slice.dropFrom (← addP v10o (← mulP B.LEN R.P.SIZE)))
  return { px00 := ⟨B.vdivf y00 R.maxValue, B.vdivf u00 R.maxValue, B.vdivf v00 R.maxValue⟩,
           px01 := ⟨B.vdivf y01 R.maxValue, B.vdivf u01 R.maxValue, B.vdivf v01 R.maxValue⟩,
           px10 := ⟨B.vdivf y10 R.maxValue, B.vdivf u10 R.maxValue, B.vdivf v10 R.maxValue⟩,
           px11 := ⟨B.vdivf y11 R.maxValue, B.vdivf u11 R.maxValue, B.vdivf v11 R.maxValue⟩ }

/-- `I444Reader::new`, `src/formats/i444/read.rs:23-38`. -/
def I444Reader.new (P : Prim) (src : Img) : Exec (Except ConvertError (I444Src F)) := do
  match ← openPlanes 3 src with
  | .error e => return .error e
  | .ok [y, u, v] =>
    let R : I444Reader F := ⟨P, y, u, v, maxValueForBits src.format.bitsPerComponent⟩
    return .ok ⟨R.read⟩
  | .ok _ => .error (.panic .unwrap) -- unreachable: `read_planes::<3>` yields exactly 3

/-- `RgbaPixel::from_loaded::<REVERSE>`, `src/formats/rgba/mod.rs:18-24`. -/
def RgbaPixel.fromLoaded {V : Type} (reverse : Bool) (r g b a : V) : RgbaPixel V :=
  if reverse then ⟨b, g, r, a⟩ else ⟨r, g, b, a⟩

/-- `RgbReader<REVERSE, u8>`, `src/formats/rgb/read.rs:8-16`. Only instantiated with `u8`. -/
structure RgbReader (F : Type) where
  reverse : Bool
  rgb : Plane
  maxValue : F

/-- `RgbReader::read`, `src/formats/rgb/read.rs:35-71`, with `P = u8`. -/
def RgbReader.read (R : RgbReader F) (B : Backend F) (m : Mem) (x y : Nat) :
    Exec (RgbaBlock B.V) := do
  let o00 ← offset y R.rgb.stride (← mulP x 3) Prim.u8.SIZE
  let o10 ← offset (← addP y 1) R.rgb.stride (← mulP x 3) Prim.u8.SIZE
  let p0 ← B.loadU8x3 m (← R.rgb.slice.dropFrom o00)
  let p1 ← B.loadU8x3 m (← R.rgb.slice.dropFrom o10)
  let px (v : Fin 3 → B.V) : RgbaPixel B.V :=
    .fromLoaded R.reverse (B.vdivf (v 0) R.maxValue) (B.vdivf (v 1) R.maxValue) (B.vdivf (v 2) R.maxValue)
      (B.splat (lit 1.0))
  return ⟨px (p0 0), px (p0 1), px (p1 0), px (p1 1)⟩

/-- `RgbReader::new`, `src/formats/rgb/read.rs:19-30`. -/
def RgbReader.new (reverse : Bool) (src : Img) : Exec (Except ConvertError (RgbaSrc F)) := do
  match ← openPlanes 1 src with
  | .error e => return .error e
  | .ok [rgb] =>
    let R : RgbReader F := ⟨reverse, rgb, maxValueForBits src.format.bitsPerComponent⟩
    return .ok ⟨R.read⟩
  | .ok _ => .error (.panic .unwrap) -- unreachable: `read_planes::<1>` yields exactly 1

/-- `RgbaReader<REVERSE, u8>`, `src/formats/rgba/read.rs:8-16`. Only instantiated with `u8`. -/
structure RgbaReader (F : Type) where
  reverse : Bool
  rgba : Plane
  maxValue : F

/-- `RgbaReader::read`, `src/formats/rgba/read.rs:35-75`, with `P = u8`. -/
def RgbaReader.read (R : RgbaReader F) (B : Backend F) (m : Mem) (x y : Nat) :
    Exec (RgbaBlock B.V) := do
  let o00 ← offset y R.rgba.stride (← mulP x 4) Prim.u8.SIZE
  let o10 ← offset (← addP y 1) R.rgba.stride (← mulP x 4) Prim.u8.SIZE
  let p0 ← B.loadU8x4 m (← R.rgba.slice.dropFrom o00)
  let p1 ← B.loadU8x4 m (← R.rgba.slice.dropFrom o10)
  let px (v : Fin 4 → B.V) : RgbaPixel B.V :=
    .fromLoaded R.reverse (B.vdivf (v 0) R.maxValue) (B.vdivf (v 1) R.maxValue) (B.vdivf (v 2) R.maxValue)
      (B.vdivf (v 3) R.maxValue)
  return ⟨px (p0 0), px (p0 1), px (p1 0), px (p1 1)⟩

/-- `RgbaReader::new`, `src/formats/rgba/read.rs:19-30`. -/
def RgbaReader.new (reverse : Bool) (src : Img) : Exec (Except ConvertError (RgbaSrc F)) := do
  match ← openPlanes 1 src with
  | .error e => return .error e
  | .ok [rgba] =>
    let R : RgbaReader F := ⟨reverse, rgba, maxValueForBits src.format.bitsPerComponent⟩
    return .ok ⟨R.read⟩
  | .ok _ => .error (.panic .unwrap) -- unreachable: `read_planes::<1>` yields exactly 1

/-! ## YUV to RGB stages -/

/-- The limited-range expansion of luma, e.g. `src/formats/i420/to_rgb.rs:46-59`:
`(y - 16/255) * (255/219)`. -/
def expandY (B : Backend F) (fullRange : Bool) (y : B.V) : B.V :=
  if fullRange then y
  else
    let v16 := B.splat (div (lit 16.0) (lit 255.0))
    let yScale := B.splat (div (lit 255.0) (lit 219.0))
    B.vmul (B.vsub y v16) yScale

/-- The limited-range expansion of chroma followed by centring, e.g. `src/formats/i420/to_rgb.rs:61-69`:
`(u - 16/255) * (255/224) - 0.5`. -/
def expandUV (B : Backend F) (fullRange : Bool) (u : B.V) : B.V :=
  let u := if fullRange then u
    else
      let v16 := B.splat (div (lit 16.0) (lit 255.0))
      let uvScale := B.splat (div (lit 255.0) (lit 224.0))
      B.vmul (B.vsub u v16) uvScale
  B.vsubf u (lit 0.5)

/-- `I420ToRgb::read`, `src/formats/i420/to_rgb.rs:33-101`. -/
def i420ToRgb (c : YuvColorInfo) (src : I420Src F) : RgbaSrc F where
  read B m x y := do
    let blk ← src.read B m x y
    let y00 := expandY B c.fullRange blk.y00
    let y01 := expandY B c.fullRange blk.y01
    let y10 := expandY B c.fullRange blk.y10
    let y11 := expandY B c.fullRange blk.y11
    let u := expandUV B c.fullRange blk.u
    let v := expandUV B c.fullRange blk.v
    let rgb := c.space.yx4UvToRgb B c.transfer c.primaries.xyzToRgbMat y00 y01 y10 y11 u v
    let px (p : B.V × B.V × B.V) : RgbaPixel B.V := ⟨p.1, p.2.1, p.2.2, B.splat (lit 1.0)⟩
    return ⟨px rgb.p00, px rgb.p01, px rgb.p10, px rgb.p11⟩

/-- `I422ToRgb::read`, `src/formats/i422/to_rgb.rs:33-127`. -/
def i422ToRgb (c : YuvColorInfo) (src : I422Src F) : RgbaSrc F where
  read B m x y := do
    let blk ← src.read B m x y
    let y00 := expandY B c.fullRange blk.y00
    let y01 := expandY B c.fullRange blk.y01
    let y10 := expandY B c.fullRange blk.y10
    let y11 := expandY B c.fullRange blk.y11
    let u0 := expandUV B c.fullRange blk.u0
    let u1 := expandUV B c.fullRange blk.u1
    let v0 := expandUV B c.fullRange blk.v0
    let v1 := expandUV B c.fullRange blk.v1
    let (u0l, u0r) := B.zip u0 u0
    let (v0l, v0r) := B.zip v0 v0
    let mat := c.primaries.xyzToRgbMat
    let p00 := c.space.yuvToRgb B c.transfer mat y00 u0l v0l
    let p01 := c.space.yuvToRgb B c.transfer mat y01 u0r v0r
    let (u1l, u1r) := B.zip u1 u1
    let (v1l, v1r) := B.zip v1 v1
    let p10 := c.space.yuvToRgb B c.transfer mat y10 u1l v1l
    let p11 := c.space.yuvToRgb B c.transfer mat y11 u1r v1r
    let px (p : B.V × B.V × B.V) : RgbaPixel B.V := ⟨p.1, p.2.1, p.2.2, B.splat (lit 1.0)⟩
    return ⟨px p00, px p01, px p10, px p11⟩

/-- `I444ToRgb::convert_yuv_to_rgb`, `src/formats/i444/to_rgb.rs:32-70`. -/
def i444PixelToRgb (c : YuvColorInfo) (B : Backend F) (px : I444Pixel B.V) : RgbaPixel B.V :=
  let y := expandY B c.fullRange px.y
  let u := expandUV B c.fullRange px.u
  let v := expandUV B c.fullRange px.v
  let (r, g, b) := c.space.yuvToRgb B c.transfer c.primaries.xyzToRgbMat y u v
  ⟨r, g, b, B.splat (lit 1.0)⟩

/-- `I444ToRgb::read`, `src/formats/i444/to_rgb.rs:75-89`. -/
def i444ToRgb (c : YuvColorInfo) (src : I444Src F) : RgbaSrc F where
  read B m x y := do
    let blk ← src.read B m x y
    return ⟨i444PixelToRgb c B blk.px00, i444PixelToRgb c B blk.px01,
            i444PixelToRgb c B blk.px10, i444PixelToRgb c B blk.px11⟩

/-- `I420ToRgb::new`, `I422ToRgb::new`, `I444ToRgb::new`, `RgbToI420::new`, `RgbToI422::new`, `RgbToI444::new`
(`src/formats/i420/to_rgb.rs:16-28`, `src/formats/i422/to_rgb.rs:16-28`, `src/formats/i444/to_rgb.rs:17-29`, `src/formats/i420/from_rgb.rs:16-28`,
`src/formats/i422/from_rgb.rs:15-27`, `src/formats/i444/from_rgb.rs:17-29`): all reject an RGB colour info. -/
def yuvColor (c : ColorInfo) : Except ConvertError YuvColorInfo :=
  match c with
  | .YUV y => .ok y
  | .RGB _ => .error .invalidColorInfo

/-! ## Transfer and primaries conversion -/

/-- `need_transfer_and_primaries_convert`, `src/formats/transfer_and_primaries_convert.rs:17-22`. -/
def needTransferAndPrimariesConvert (src dst : ColorInfo) : Bool :=
  src.transfer ≠ dst.transfer || src.primaries ≠ dst.primaries

/-- The treatment of one pixel in `TransferAndPrimariesConvert::read`,
`src/formats/transfer_and_primaries_convert.rs:56-70`. -/
def transferPixel (sc dc : ColorInfo) (B : Backend F) (p : RgbaPixel B.V) : RgbaPixel B.V :=
  let r := sc.transfer.scaledToLinearV B p.r
  let g := sc.transfer.scaledToLinearV B p.g
  let b := sc.transfer.scaledToLinearV B p.b
  let (x, y, z) := rgbToXyz B sc.primaries.rgbToXyzMat r g b
  let (r, g, b) := xyzToRgb B dc.primaries.xyzToRgbMat x y z
  ⟨dc.transfer.linearToScaledV B r, dc.transfer.linearToScaledV B g, dc.transfer.linearToScaledV B b, p.a⟩

/-- `TransferAndPrimariesConvert::read`, `src/formats/transfer_and_primaries_convert.rs:38-73`. -/
def transferAndPrimariesConvert (sc dc : ColorInfo) (src : RgbaSrc F) : RgbaSrc F where
  read B m x y := do
    let blk ← src.read B m x y
    return ⟨transferPixel sc dc B blk.px00, transferPixel sc dc B blk.px01,
            transferPixel sc dc B blk.px10, transferPixel sc dc B blk.px11⟩

/-! ## RGB to YUV stages -/

/-- The limited-range compression of luma, e.g. `src/formats/i420/from_rgb.rs:53-64`: `16/255 + y * (219/255)`. -/
def compressY (B : Backend F) (fullRange : Bool) (y : B.V) : B.V :=
  if fullRange then y
  else
    let v16 := B.splat (div (lit 16.0) (lit 255.0))
    let yScale := B.splat (div (lit 219.0) (lit 255.0))
    B.vadd v16 (B.vmul y yScale)

/-- Off-centring and limited-range compression of chroma, e.g. `src/formats/i420/from_rgb.rs:50-51,66-67`:
`16/255 + (u + 0.5) * (224/255)`. -/
def compressUV (B : Backend F) (fullRange : Bool) (u : B.V) : B.V :=
  let u := B.vaddf u (lit 0.5)
  if fullRange then u
  else
    let v16 := B.splat (div (lit 16.0) (lit 255.0))
    let uvScale := B.splat (div (lit 224.0) (lit 255.0))
    B.vadd v16 (B.vmul u uvScale)

/-- `RgbToI420::read`, `src/formats/i420/from_rgb.rs:33-80`. -/
def rgbToI420 (c : YuvColorInfo) (src : RgbaSrc F) : I420Src F where
  read B m x y := do
    let blk ← src.read B m x y
    let (ys, u, v) := c.space.rgbx4ToYx4Uv B c.transfer c.primaries.rgbToXyzMat
      ⟨blk.px00.r, blk.px01.r, blk.px10.r, blk.px11.r⟩
      ⟨blk.px00.g, blk.px01.g, blk.px10.g, blk.px11.g⟩
      ⟨blk.px00.b, blk.px01.b, blk.px10.b, blk.px11.b⟩
    return { y00 := compressY B c.fullRange ys.a0, y01 := compressY B c.fullRange ys.a1,
             y10 := compressY B c.fullRange ys.a2, y11 := compressY B c.fullRange ys.a3,
             u := compressUV B c.fullRange u, v := compressUV B c.fullRange v }

/-- `RgbToI422::convert_rgb_to_yuv`, `src/formats/i422/from_rgb.rs:30-67`. -/
def rgbToI422Row (c : YuvColorInfo) (B : Backend F) (px0 px1 : RgbaPixel B.V) :
    (B.V × B.V) × B.V × B.V :=
  let mat := c.primaries.rgbToXyzMat
  let (y0, u0, v0) := c.space.rgbToYuv B c.transfer mat px0.r px0.g px0.b
  let (y1, u1, v1) := c.space.rgbToYuv B c.transfer mat px1.r px1.g px1.b
  let (u0, u1) := B.unzip u0 u1
  let (v0, v1) := B.unzip v0 v1
  let u := B.vdivf (B.vadd u0 u1) (lit 2.0)
  let v := B.vdivf (B.vadd v0 v1) (lit 2.0)
  ((compressY B c.fullRange y0, compressY B c.fullRange y1),
    compressUV B c.fullRange u, compressUV B c.fullRange v)

/-- `RgbToI422::read`, `src/formats/i422/from_rgb.rs:72-93`. -/
def rgbToI422 (c : YuvColorInfo) (src : RgbaSrc F) : I422Src F where
  read B m x y := do
    let blk ← src.read B m x y
    let ((y00, y01), u0, v0) := rgbToI422Row c B blk.px00 blk.px01
    let ((y10, y11), u1, v1) := rgbToI422Row c B blk.px10 blk.px11
    return ⟨y00, y01, y10, y11, u0, u1, v0, v1⟩

/-- `RgbToI444::convert_rgb_to_yuv`, `src/formats/i444/from_rgb.rs:32-54`. -/
def rgbToI444Pixel (c : YuvColorInfo) (B : Backend F) (px : RgbaPixel B.V) : I444Pixel B.V :=
  let (y, u, v) := c.space.rgbToYuv B c.transfer c.primaries.rgbToXyzMat px.r px.g px.b
  ⟨compressY B c.fullRange y, compressUV B c.fullRange u, compressUV B c.fullRange v⟩

/-- `RgbToI444::read`, `src/formats/i444/from_rgb.rs:59-68`. -/
def rgbToI444 (c : YuvColorInfo) (src : RgbaSrc F) : I444Src F where
  read B m x y := do
    let blk ← src.read B m x y
    return ⟨rgbToI444Pixel c B blk.px00, rgbToI444Pixel c B blk.px01,
            rgbToI444Pixel c B blk.px10, rgbToI444Pixel c B blk.px11⟩

end Readers

/-! ## Writers -/

/-- `Image2x2Visitor`, `src/formats/visit_2x2.rs:4-6`. `visit::<V>(x, y)` of every writer first reads a block from its
source, then performs stores; the two phases are separate here so that concurrent executions can be interleaved between
any two of them. -/
structure Visitor (F : Type) where
  /-- read phase: yields the stores to perform -/
  prepare : (B : Backend F) → (x y : Nat) → Mem → Exec (List (Mem → Exec Mem))

/-- Perform stores one after the other. (the writes of one `visit`, e.g. `src/formats/i420/write.rs:91-95`) -/
def runStores : List (Mem → Exec Mem) → Mem → Exec Mem
  | [], m => .ok m
  | st :: sts, m => do
    let m ← st m
    runStores sts m

/-- `Image2x2Visitor::visit::<V>(x, y)`. (`src/formats/visit_2x2.rs:4-6`) -/
def Visitor.visit (w : Visitor F) (B : Backend F) (x y : Nat) (m : Mem) : Exec Mem := do
  let sts ← w.prepare B x y m
  runStores sts m

section Writers
variable [FOps F]

/-- `P::write(&mut plane[row * stride + col * P::SIZE ..], v)`. (e.g. `src/formats/i420/write.rs:94`)
Simplification: the writers compute most offsets before their first store, the model computes each next to its store. Only a panic of the
arithmetic could tell the difference, by what has been written before it. -/
def storeAt (P : Prim) (B : Backend F) (p : Plane) (row col : Nat) (v : B.V) (m : Mem) : Exec Mem := do
  P.write B (← p.slice.dropFrom (← offset row p.stride col P.SIZE)) v m

/-- `P::write_2x(&mut plane[row * stride + col * P::SIZE ..], v0, v1)`. (e.g. `src/formats/i420/write.rs:91`) -/
def store2At (P : Prim) (B : Backend F) (p : Plane) (row col : Nat) (v0 v1 : B.V) (m : Mem) : Exec Mem := do
  P.write2x B (← p.slice.dropFrom (← offset row p.stride col P.SIZE)) v0 v1 m

/-- `I420Writer`, `src/formats/i420/write.rs:9-27`, as an `Image2x2Visitor` (`src/formats/i420/write.rs:66-96`). -/
def i420Visitor (P : Prim) (py pu pv : Plane) (maxValue : F) (src : I420Src F) : Visitor F where
  prepare B x y m := do
    let blk ← src.read B m x y
    let y00 := B.vmulf blk.y00 maxValue
    let y01 := B.vmulf blk.y01 maxValue
    let y10 := B.vmulf blk.y10 maxValue
    let y11 := B.vmulf blk.y11 maxValue
    let u := B.vmulf blk.u maxValue
    let v := B.vmulf blk.v maxValue
    return [
      fun m => store2At P B py y x y00 y01 m,
      fun m => do store2At P B py (← addP y 1) x y10 y11 m,
      fun m => storeAt P B pu (y / 2) (x / 2) u m,
      fun m => storeAt P B pv (y / 2) (x / 2) v m ]

/-- `NV12Writer::visit`, `src/formats/nv12/write.rs:63-91`. -/
def nv12Visitor (P : Prim) (py puv : Plane) (maxValue : F) (src : I420Src F) : Visitor F where
  prepare B x y m := do
    let blk ← src.read B m x y
    let y00 := B.vmulf blk.y00 maxValue
    let y01 := B.vmulf blk.y01 maxValue
    let y10 := B.vmulf blk.y10 maxValue
    let y11 := B.vmulf blk.y11 maxValue
    let u := B.vmulf blk.u maxValue
    let v := B.vmulf blk.v maxValue
    let (uv0, uv1) := B.zip u v
    return [
      fun m => store2At P B py y x y00 y01 m,
      fun m => do store2At P B py (← addP y 1) x y10 y11 m,
      fun m => store2At P B puv (y / 2) x uv0 uv1 m ]

/-- `I422Writer::visit`, `src/formats/i422/write.rs:67-105`. -/
def i422Visitor (P : Prim) (py pu pv : Plane) (maxValue : F) (src : I422Src F) : Visitor F where
  prepare B x y m := do
    let blk ← src.read B m x y
    let y00 := B.vmulf blk.y00 maxValue
    let y01 := B.vmulf blk.y01 maxValue
    let y10 := B.vmulf blk.y10 maxValue
    let y11 := B.vmulf blk.y11 maxValue
    let u0 := B.vmulf blk.u0 maxValue
    let u1 := B.vmulf blk.u1 maxValue
    let v0 := B.vmulf blk.v0 maxValue
    let v1 := B.vmulf blk.v1 maxValue
    return [
      fun m => store2At P B py y x y00 y01 m,
      fun m => do store2At P B py (← addP y 1) x y10 y11 m,
      fun m => storeAt P B pu y (x / 2) u0 m,
      fun m => do storeAt P B pu (← addP y 1) (x / 2) u1 m,
      fun m => storeAt P B pv y (x / 2) v0 m,
      fun m => do storeAt P B pv (← addP y 1) (x / 2) v1 m ]

/-- `YUYVWriter::write_yuyv`, `src/formats/yuyv/write.rs:51-58`. -/
def writeYuyv (P : Prim) (B : Backend F) (p : Plane) (y uv : B.V) (off : Nat) (m : Mem) : Exec Mem := do
  let (yuyv00, yuyv01) := B.zip y uv
  P.write2x B (← p.slice.dropFrom off) yuyv00 yuyv01 m

/-- `YUYVWriter::visit`, `src/formats/yuyv/write.rs:67-98`. -/
def yuyvVisitor (P : Prim) (p : Plane) (maxValue : F) (src : I422Src F) : Visitor F where
  prepare B x y m := do
    let blk ← src.read B m x y
    let y00 := B.vmulf blk.y00 maxValue
    let y01 := B.vmulf blk.y01 maxValue
    let y10 := B.vmulf blk.y10 maxValue
    let y11 := B.vmulf blk.y11 maxValue
    let u0 := B.vmulf blk.u0 maxValue
    let u1 := B.vmulf blk.u1 maxValue
    let v0 := B.vmulf blk.v0 maxValue
    let v1 := B.vmulf blk.v1 maxValue
    let off0 := do offset y p.stride (← mulP x 2) P.SIZE
    let off1 := do offset (← addP y 1) p.stride (← mulP x 2) P.SIZE
    let half := do mulP (← mulP B.LEN 2) P.SIZE
    let (uv00, uv01) := B.zip u0 v0
    let (uv10, uv11) := B.zip u1 v1
    return [
      fun m => do writeYuyv P B p y00 uv00 (← off0) m,
      fun m => do writeYuyv P B p y01 uv01 (← addP (← off0) (← half)) m,
      fun m => do writeYuyv P B p y10 uv10 (← off1) m,
      fun m => do writeYuyv P B p y11 uv11 (← addP (← off1) (← half)) m ]

/-- `I444Writer::visit`, `src/formats/i444/write.rs:67-109`. -/
def i444Visitor (P : Prim) (py pu pv : Plane) (maxValue : F) (src : I444Src F) : Visitor F where
  prepare B x y m := do
    let blk ← src.read B m x y
    let s (v : B.V) : B.V := B.vmulf v maxValue
    return [
      fun m => store2At P B py y x (s blk.px00.y) (s blk.px01.y) m,
      fun m => do store2At P B py (← addP y 1) x (s blk.px10.y) (s blk.px11.y) m,
      fun m => store2At P B pu y x (s blk.px00.u) (s blk.px01.u) m,
      fun m => do store2At P B pu (← addP y 1) x (s blk.px10.u) (s blk.px11.u) m,
      fun m => store2At P B pv y x (s blk.px00.v) (s blk.px01.v) m,
      fun m => do store2At P B pv (← addP y 1) x (s blk.px10.v) (s blk.px11.v) m ]

/-- `multiply_and_reverse` of the RGB writer, `src/formats/rgb/write.rs:83-96`. -/
def multiplyAndReverse3 (B : Backend F) (reverse : Bool) (maxValue : F) (px : RgbaPixel B.V) : Fin 3 → B.V :=
  let r := B.vmulf px.r maxValue
  let g := B.vmulf px.g maxValue
  let b := B.vmulf px.b maxValue
  if reverse then fun | 0 => b | 1 => g | 2 => r else fun | 0 => r | 1 => g | 2 => b

/-- `multiply_and_reverse` of the RGBA writer, `src/formats/rgba/write.rs:84-98`. -/
def multiplyAndReverse4 (B : Backend F) (reverse : Bool) (maxValue : F) (px : RgbaPixel B.V) : Fin 4 → B.V :=
  let r := B.vmulf px.r maxValue
  let g := B.vmulf px.g maxValue
  let b := B.vmulf px.b maxValue
  let a := B.vmulf px.a maxValue
  if reverse then fun | 0 => b | 1 => g | 2 => r | 3 => a else fun | 0 => r | 1 => g | 2 => b | 3 => a

/-- `[a, b]`. (e.g. `src/formats/rgb/write.rs:58-79`) -/
def pair {α : Type} (a b : α) : Fin 2 → α := fun | 0 => a | 1 => b

/-- `RgbWriter::visit`, `src/formats/rgb/write.rs:58-79`, with `P = u8`. -/
def rgbVisitor (reverse : Bool) (p : Plane) (maxValue : F) (src : RgbaSrc F) : Visitor F where
  prepare B x y m := do
    let blk ← src.read B m x y
    let px := multiplyAndReverse3 B reverse maxValue
    return [
      fun m => do
        let off ← offset y p.stride (← mulP x 3) Prim.u8.SIZE
        B.writeU8x3 (pair (px blk.px00) (px blk.px01)) m (← p.slice.dropFrom off),
      fun m => do
        let off ← offset (← addP y 1) p.stride (← mulP x 3) Prim.u8.SIZE
        B.writeU8x3 (pair (px blk.px10) (px blk.px11)) m (← p.slice.dropFrom off) ]

/-- `RgbaWriter::visit`, `src/formats/rgba/write.rs:59-80`, with `P = u8`. -/
def rgbaVisitor (reverse : Bool) (p : Plane) (maxValue : F) (src : RgbaSrc F) : Visitor F where
  prepare B x y m := do
    let blk ← src.read B m x y
    let px := multiplyAndReverse4 B reverse maxValue
    return [
      fun m => do
        let off ← offset y p.stride (← mulP x 4) Prim.u8.SIZE
        B.writeU8x4 (pair (px blk.px00) (px blk.px01)) m (← p.slice.dropFrom off),
      fun m => do
        let off ← offset (← addP y 1) p.stride (← mulP x 4) Prim.u8.SIZE
        B.writeU8x4 (pair (px blk.px10) (px blk.px11)) m (← p.slice.dropFrom off) ]

/-- A call `visit(dst_width, dst_height, visitor)`, prepared by a writer's `write`.
(e.g. `src/formats/i420/write.rs:43-57`) -/
structure Job (F : Type) where
  width : Nat
  height : Nat
  visitor : Visitor F

/-- `I420Writer::write`, `src/formats/i420/write.rs:34-58`, up to the call of `visit`. -/
def i420Write (P : Prim) (dst : Img) (src : I420Src F) : Exec (Except ConvertError (Job F)) := do
  match ← openPlanes 3 dst with
  | .error e => return .error e
  | .ok [y, u, v] =>
    return .ok ⟨dst.width, dst.height, i420Visitor P y u v (maxValueForBits dst.format.bitsPerComponent) src⟩
  | .ok _ => .error (.panic .unwrap) -- unreachable

/-- `NV12Writer::write`, `src/formats/nv12/write.rs:32-54`. -/
def nv12Write (P : Prim) (dst : Img) (src : I420Src F) : Exec (Except ConvertError (Job F)) := do
  match ← openPlanes 2 dst with
  | .error e => return .error e
  | .ok [y, uv] =>
    return .ok ⟨dst.width, dst.height, nv12Visitor P y uv (maxValueForBits dst.format.bitsPerComponent) src⟩
  | .ok _ => .error (.panic .unwrap) -- unreachable

/-- `I422Writer::write`, `src/formats/i422/write.rs:34-58`. -/
def i422Write (P : Prim) (dst : Img) (src : I422Src F) : Exec (Except ConvertError (Job F)) := do
  match ← openPlanes 3 dst with
  | .error e => return .error e
  | .ok [y, u, v] =>
    return .ok ⟨dst.width, dst.height, i422Visitor P y u v (maxValueForBits dst.format.bitsPerComponent) src⟩
  | .ok _ => .error (.panic .unwrap) -- unreachable

/-- `YUYVWriter::write`, `src/formats/yuyv/write.rs:29-49`. -/
def yuyvWrite (P : Prim) (dst : Img) (src : I422Src F) : Exec (Except ConvertError (Job F)) := do
  match ← openPlanes 1 dst with
  | .error e => return .error e
  | .ok [p] =>
    return .ok ⟨dst.width, dst.height, yuyvVisitor P p (maxValueForBits dst.format.bitsPerComponent) src⟩
  | .ok _ => .error (.panic .unwrap) -- unreachable

/-- `I444Writer::write`, `src/formats/i444/write.rs:34-58`. -/
def i444Write (P : Prim) (dst : Img) (src : I444Src F) : Exec (Except ConvertError (Job F)) := do
  match ← openPlanes 3 dst with
  | .error e => return .error e
  | .ok [y, u, v] =>
    return .ok ⟨dst.width, dst.height, i444Visitor P y u v (maxValueForBits dst.format.bitsPerComponent) src⟩
  | .ok _ => .error (.panic .unwrap) -- unreachable

/-- `RgbWriter::write`, `src/formats/rgb/write.rs:29-49`. -/
def rgbWrite (reverse : Bool) (dst : Img) (src : RgbaSrc F) : Exec (Except ConvertError (Job F)) := do
  match ← openPlanes 1 dst with
  | .error e => return .error e
  | .ok [p] =>
    return .ok ⟨dst.width, dst.height, rgbVisitor reverse p (maxValueForBits dst.format.bitsPerComponent) src⟩
  | .ok _ => .error (.panic .unwrap) -- unreachable

/-- `RgbaWriter::write`, `src/formats/rgba/write.rs:30-50`. -/
def rgbaWrite (reverse : Bool) (dst : Img) (src : RgbaSrc F) : Exec (Except ConvertError (Job F)) := do
  match ← openPlanes 1 dst with
  | .error e => return .error e
  | .ok [p] =>
    return .ok ⟨dst.width, dst.height, rgbaVisitor reverse p (maxValueForBits dst.format.bitsPerComponent) src⟩
  | .ok _ => .error (.panic .unwrap) -- unreachable

end Writers

/-! ## Traversal -/

/-- One call of `visitor.visit::<V>(x, y)` or `visitor.visit::<f32>(x, y)`. (`src/formats/visit_2x2.rs:81-91`) -/
structure VisitCall where
  /-- `true` for the vector type `V`, `false` for `f32` -/
  vectored : Bool
  x : Nat
  y : Nat
  deriving DecidableEq, Repr

/-- The calls made by `visit_impl::<V, _>`, in order, `src/formats/visit_2x2.rs:75-94`. -/
def visitCalls (LEN width height : Nat) : List VisitCall :=
  let nonVectored := width % (LEN * 2)
  let vectored := width - nonVectored
  (stepBy height 2).flatMap fun y =>
    ((stepBy vectored (LEN * 2)).map fun x => ⟨true, x, y⟩) ++
    ((stepBy nonVectored 2).map fun x => ⟨false, x + vectored, y⟩)

/-- The CPU: the SIMD backend selected by feature detection in `visit`, and the lane arithmetic of the scalar `f32`
code used for the remaining columns.  (`src/formats/visit_2x2.rs:16-69`; without SIMD support `vec` is the scalar
backend too, line 71.) -/
structure Cpu (F : Type) where
  vec : Backend F
  sar : Arith F

/-- The backend a call uses: `V` or `f32`. (`src/formats/visit_2x2.rs:81-91`) -/
def Cpu.backend [FOps F] (c : Cpu F) (vectored : Bool) : Backend F :=
  if vectored then c.vec else scalarBackend c.sar

/-- Perform visits one after the other. (`src/formats/visit_2x2.rs:75-94`) -/
def runVisits [FOps F] (c : Cpu F) (w : Visitor F) : List VisitCall → Mem → Exec Mem
  | [], m => .ok m
  | k :: ks, m => do
    let m ← w.visit (c.backend k.vectored) k.x k.y m
    runVisits c w ks m

/-- `visit`, `src/formats/visit_2x2.rs:9-72`, with `visit_impl` (75-94). Always returns `Ok(())`. -/
def visit [FOps F] (c : Cpu F) (j : Job F) (m : Mem) : Exec Mem := do
  if j.width % 2 ≠ 0 then .error (.panic .assertion)
  else if j.height % 2 ≠ 0 then .error (.panic .assertion)
  else runVisits c j.visitor (visitCalls c.vec.LEN j.width j.height) m

end
end Ezk

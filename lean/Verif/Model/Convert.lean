import Verif.Model.Formats

/-!
# `convert`, `copy`, `convert_multi_thread`
-/

namespace Ezk

section
variable {F : Type} [FOps F]

/-- `verify_input_windows`, `src/lib.rs:198-210`. -/
def verifyInputWindows (src dst : Img) : Except ConvertError Unit :=
  if src.width ≠ dst.width ∨ src.height ≠ dst.height then .error .mismatchedImageSize
  else if src.width % 2 = 1 ∨ src.height % 2 = 1 then .error .oddImageDimensions
  else .ok ()

/-- Sequencing of a fallible step (`?` on an `Exec (Except ..)`). (e.g. `src/lib.rs:73-93`) -/
def bindE {ε α β : Type} (r : Exec (Except ε α)) (k : α → Exec (Except ε β)) : Exec (Except ε β) := do
  match ← r with
  | .error e => return .error e
  | .ok a => k a

/-- `convert_same_color_and_pixel_format`, `src/lib.rs:96-120`, up to the call of `visit`. (Only called with equal
formats, so the `assert_eq!` on line 101 is `src.format = dst.format`.) -/
def convertSameJob (src dst : Img) : Exec (Except ConvertError (Job F)) :=
  if src.format ≠ dst.format then .error (.panic .assertion) else
  match src.format with
  | .I420 => bindE (I420Reader.new .u8 src) (i420Write .u8 dst)
  | .I422 => bindE (I422Reader.new .u8 src) (i422Write .u8 dst)
  | .I444 => bindE (I444Reader.new .u8 src) (i444Write .u8 dst)
  | .I010 | .I012 => bindE (I420Reader.new .u16 src) (i420Write .u16 dst)
  | .I210 | .I212 => bindE (I422Reader.new .u16 src) (i422Write .u16 dst)
  | .I410 | .I412 => bindE (I444Reader.new .u16 src) (i444Write .u16 dst)
  | .NV12 => bindE (NV12Reader.new .u8 src) (nv12Write .u8 dst)
  | .YUYV => bindE (YUYVReader.new .u8 src) (yuyvWrite .u8 dst)
  | .RGBA => bindE (RgbaReader.new false src) (rgbaWrite false dst)
  | .BGRA => bindE (RgbaReader.new true src) (rgbaWrite true dst)
  | .RGB => bindE (RgbReader.new false src) (rgbWrite false dst)
  | .BGR => bindE (RgbReader.new true src) (rgbWrite true dst)

/-- `read_any_to_rgba`, `src/lib.rs:123-169`.  The argument `Reader::new(src)?` is evaluated before the colour check in
`XToRgb::new`. -/
def readAnyToRgba (src : Img) : Exec (Except ConvertError (RgbaSrc F)) :=
  let to420 (r : I420Src F) : Exec (Except ConvertError (RgbaSrc F)) :=
    .ok (do return i420ToRgb (← yuvColor src.color) r)
  let to422 (r : I422Src F) : Exec (Except ConvertError (RgbaSrc F)) :=
    .ok (do return i422ToRgb (← yuvColor src.color) r)
  let to444 (r : I444Src F) : Exec (Except ConvertError (RgbaSrc F)) :=
    .ok (do return i444ToRgb (← yuvColor src.color) r)
  match src.format with
  | .I420 => bindE (I420Reader.new .u8 src) to420
  | .I422 => bindE (I422Reader.new .u8 src) to422
  | .I444 => bindE (I444Reader.new .u8 src) to444
  | .I010 | .I012 => bindE (I420Reader.new .u16 src) to420
  | .I210 | .I212 => bindE (I422Reader.new .u16 src) to422
  | .I410 | .I412 => bindE (I444Reader.new .u16 src) to444
  | .NV12 => bindE (NV12Reader.new .u8 src) to420
  | .YUYV => bindE (YUYVReader.new .u8 src) to422
  | .RGBA => RgbaReader.new false src
  | .BGRA => RgbaReader.new true src
  | .RGB => RgbReader.new false src
  | .BGR => RgbReader.new true src

/-- `rgba_to_any`, `src/lib.rs:172-194`, up to the call of `visit`. -/
def rgbaToAny (dst : Img) (reader : RgbaSrc F) : Exec (Except ConvertError (Job F)) :=
  let to420 (P : Prim) := bindE (.ok (yuvColor dst.color)) fun c => i420Write P dst (rgbToI420 c reader)
  let to422 (P : Prim) := bindE (.ok (yuvColor dst.color)) fun c => i422Write P dst (rgbToI422 c reader)
  let to444 (P : Prim) := bindE (.ok (yuvColor dst.color)) fun c => i444Write P dst (rgbToI444 c reader)
  match dst.format with
  | .I420 => to420 .u8
  | .I422 => to422 .u8
  | .I444 => to444 .u8
  | .I010 | .I012 => to420 .u16
  | .I210 | .I212 => to422 .u16
  | .I410 | .I412 => to444 .u16
  | .NV12 => bindE (.ok (yuvColor dst.color)) fun c => nv12Write .u8 dst (rgbToI420 c reader)
  | .YUYV => bindE (.ok (yuvColor dst.color)) fun c => yuyvWrite .u8 dst (rgbToI422 c reader)
  | .RGBA => rgbaWrite false dst reader
  | .BGRA => rgbaWrite true dst reader
  | .RGB => rgbWrite false dst reader
  | .BGR => rgbWrite true dst reader

/-- `convert`, `src/lib.rs:73-93`, up to the call of `visit` inside of the writer. -/
def convertJob (src dst : Img) : Exec (Except ConvertError (Job F)) :=
  bindE (.ok (verifyInputWindows src dst)) fun () =>
  if src.format = dst.format ∧ src.color = dst.color then convertSameJob src dst
  else
    bindE (readAnyToRgba src) fun reader =>
    if needTransferAndPrimariesConvert src.color dst.color then
      rgbaToAny dst (transferAndPrimariesConvert src.color dst.color reader)
    else
      rgbaToAny dst reader

/-- Run a prepared job: `visit(..)` returns `Ok(())`.
(e.g. `src/formats/i420/write.rs:43-57`, `src/formats/visit_2x2.rs:9-72`) -/
def runJob (c : Cpu F) (j : Exec (Except ConvertError (Job F))) (m : Mem) :
    Exec (Except ConvertError Unit × Mem) := do
  match ← j with
  | .error e => return (.error e, m)
  | .ok j => return (.ok (), ← visit c j m)

/-- `convert`, `src/lib.rs:73-93`. The memory after the call is part of the result. -/
def convert (c : Cpu F) (src dst : Img) (m : Mem) : Exec (Except ConvertError Unit × Mem) :=
  runJob c (convertJob src dst) m

end

/-! ## `copy` -/

/-- `dst_row[..n].copy_from_slice(&src_row[..n])`, `src/copy.rs:25`. -/
def copyRow (n : Nat) (m : Mem) (rows : Slice × Slice) : Exec Mem := do
  let d ← rows.2.takeTo n
  let s ← rows.1.takeTo n
  let bytes ← rawRead m s n
  rawWrite m d n bytes

/-- The loop over rows of one plane, `src/copy.rs:24-26`. -/
def copyRows (n : Nat) : List (Slice × Slice) → Mem → Exec Mem
  | [], m => .ok m
  | r :: rs, m => do copyRows n rs (← copyRow n m r)

/-- The loop over planes, `src/copy.rs:16-27`. -/
def copyPlanes (width : Nat) : List (PlaneDesc × Plane × Plane) → Mem → Exec Mem
  | [], m => .ok m
  | (desc, s, d) :: rest, m => do
    let n ← mulP (← desc.widthOp.op width) desc.bytesPerPrimitive
    let srcRows ← s.slice.chunksExact s.stride
    let dstRows ← d.slice.chunksExact d.stride
    let m ← copyRows n (srcRows.zip dstRows) m
    copyPlanes width rest m

/-- `copy` / `copy_impl`, `src/copy.rs:4-30` (the SIMD variants in `copy`, `src/copy.rs:34-75`, call the same code). -/
def copyImpl (src dst : Img) (m : Mem) : Exec (Except ConvertError Unit × Mem) := do
  match verifyInputWindows src dst with
  | .error e => return (.error e, m)
  | .ok () =>
    if src.format ≠ dst.format then .error (.panic .assertion)
    else
      match ← src.boundsCheck with
      | .error e => return (.error (.boundsCheck e), m)
      | .ok () =>
        match ← dst.boundsCheck with
        | .error e => return (.error (.boundsCheck e), m)
        | .ok () =>
          let m ← copyPlanes src.width (src.format.planeDesc.zip ((← src.planes).zip (← dst.planes))) m
          return (.ok (), m)

/-! ## `convert_multi_thread` -/

/-- The inner loop of `split_planes`, `src/multi_thread.rs:108-115`: cut `h` rows off the front of every plane.
Returns the cut strips and the remaining planes.  `planes` beyond the descriptions stay as they are (`zip`). -/
def splitStrip (h : Nat) : List PlaneDesc → List Plane → Exec (List Plane × List Plane)
  | [], ps => .ok ([], ps)
  | _ :: _, [] => .ok ([], [])
  | d :: ds, p :: ps => do
    let splitAt ← mulU p.stride (← d.heightOp.op h)
    let (prev, rem) ← p.slice.splitAt splitAt
    let (out, rest) ← splitStrip h ds ps
    return (⟨prev, p.stride⟩ :: out, ⟨rem, p.stride⟩ :: rest)

/-- The outer loop of `split_planes`, `src/multi_thread.rs:96-118`, with `n` iterations to go. -/
def splitLoop (descs : List PlaneDesc) (partsPerSection : Nat) :
    (n remainder : Nat) → List Plane → Exec (List (Nat × List Plane))
  | 0, _, _ => .ok []
  | n + 1, remainder, planes => do
    let extra := if remainder > 0 then 1 else 0
    let remainder := if remainder > 0 then remainder - 1 else remainder
    let h ← mulU (← addP partsPerSection extra) 2
    let (out, planes) ← splitStrip h descs planes
    let ret ← splitLoop descs partsPerSection n remainder planes
    return (h, out) :: ret

/-- `split_planes`, `src/multi_thread.rs:82-121`. -/
def splitPlanes (descs : List PlaneDesc) (planes : List Plane) (height threads : Nat) :
    Exec (List (Nat × List Plane)) := do
  let sections := height / 2
  let threads := min threads sections
  let partsPerSection ← divU sections threads
  let remainder ← modU sections threads
  splitLoop descs partsPerSection threads remainder planes

section
variable {F : Type} [FOps F]

/-- `Image::from_planes(..).unwrap()`, `src/multi_thread.rs:51-62` and `64-75`. -/
def stripImage (format : PixelFormat) (planes : List Plane) (width height : Nat) (color : ColorInfo) :
    Exec Image := do
  match ← Image.fromPlanes format (planes.map (·.slice)) (some (planes.map (·.stride))) width height color with
  | .ok i => return i
  | .error _ => .error (.panic .unwrap)

/-- The closure run for one strip, `src/multi_thread.rs:50-78`, up to `visit` inside of `convert`. -/
def stripJob (src dst : Img) (s d : Nat × List Plane) : Exec (Except ConvertError (Job F)) := do
  let si ← stripImage src.format s.2 src.width s.1 src.color
  let di ← stripImage dst.format d.2 src.width s.1 dst.color
  convertJob (.image si) (.image di)

/-- What `convert_multi_thread` does once its arguments are looked at, `src/multi_thread.rs:11-80`. -/
inductive MtPlan (F : Type)
  /-- an early `Err` -/
  | fail (e : ConvertError)
  /-- a single job run by the calling thread (lines 17-19 and 23-25) -/
  | single (j : Exec (Except ConvertError (Job F)))
  /-- the closure of the parallel iterator for every strip (lines 49-79) -/
  | parallel (tasks : List (Exec (Except ConvertError (Job F))))

/-- `convert_multi_thread`, `src/multi_thread.rs:11-49`; `threads` is `num_cpus::get()` (at least 1). -/
def mtPlan (threads : Nat) (src dst : Img) : Exec (MtPlan F) := do
  match verifyInputWindows src dst with
  | .error e => return .fail e
  | .ok () =>
    if src.format = dst.format ∧ src.color = dst.color then return .single (convertSameJob src dst)
    else if threads = 1 then return .single (convertJob src dst)
    else
      let ss ← splitPlanes src.format.planeDesc (← src.planes) src.height threads
      let ds ← splitPlanes dst.format.planeDesc (← dst.planes) src.height threads
      return .parallel ((ss.zip ds).map fun (s, d) => stripJob src dst s d)

end
end Ezk

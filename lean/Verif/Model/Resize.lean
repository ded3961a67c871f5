import Verif.Model.Threads

/-!
# `Resizer::resize`

The scaling itself is done by the crate `fast_image_resize` ("fir"), which is not part of the repository.  Here it is a
parameter: some function of the pixels it is shown.  What is modelled is everything the repository decides: which bytes
fir is shown as which pixels, and where its results go.
-/

namespace Ezk

/-- What fir computes: from the pixel type, width and height of the source, the bytes (row, byte in the row) of the
source, and width and height of the destination, the bytes of the destination.  The algorithm (`self.alg`) and the fixed
options in `src/resize.rs:104-108` are part of the function.  (Assumed: fir is deterministic; what a `fir::Resizer` was
used for before makes no difference.) -/
abbrev Fir := PixelType → (srcWidth srcHeight : Nat) → (src : Nat → Nat → UInt8) → (dstWidth dstHeight : Nat) →
  (row byte : Nat) → UInt8

/-- Alignment of the Rust type of a pixel: `fir::pixels::U16` wraps a `u16`, the others arrays of bytes.
(matters at `src/resize.rs:217`) -/
def PixelType.align : PixelType → Nat
  | .U16 => 2
  | .U8 | .U8x2 | .U8x3 | .U8x4 => 1

/-- `FirAdapterIntoImageView` and `FirAdapterImageView`, `src/resize.rs:136-142`, `188-194`. -/
structure FirView where
  pixelType : PixelType
  width : Nat
  height : Nat
  stride : Nat
  plane : Slice

/-- `self.width as u32`, `src/resize.rs:149-155`, `201-207`. -/
def asU32 (n : Nat) : Nat := n % 2 ^ 32

/-- The closure in `iter_rows` / `iter_rows_mut`, `src/resize.rs:214-224`, `236-246`.  `align_to` yields a non-empty
prefix exactly if the row is not empty and not aligned; its length is a multiple of the pixel size. -/
def FirView.row (v : FirView) (row : Slice) : Exec Slice := do
  let row ← row.takeTo (← mulP v.width v.pixelType.size)
  if 0 < row.len ∧ row.addr % v.pixelType.align ≠ 0 then .error (.panic .assertion)
  else return row

/-- `iter_rows(0)` / `iter_rows_mut(0)`, `src/resize.rs:209-225`, `231-247`. -/
def FirView.rows (v : FirView) : Exec (List Slice) := do
  (← v.plane.chunksExact v.stride).mapM v.row

/-- The bytes fir can see: `h` rows of `n` bytes. (`src/resize.rs:209-225`) -/
def shownBytes (m : Mem) (rows : List Slice) (h n : Nat) : Nat → Nat → UInt8 := fun r c =>
  match rows[r]? with
  | some s => if r < h ∧ c < n then m (s.addr + c) else 0
  | none => 0

/-- fir stores its results row by row, through the slices it got from `iter_rows_mut`. (`src/resize.rs:231-247`) -/
def rowStores (out : Nat → Nat → UInt8) (n : Nat) (rows : List Slice) : List (Mem → Exec Mem) :=
  rows.mapIdx fun r s m => rawWrite m s n fun i => out r i

/-- `fir::Resizer::resize` (external), as called in `src/resize.rs:100-112`: different pixel types are an error (which
`expect` turns into a panic), an empty source or destination is left alone, otherwise the rows of the source are read
and those of the destination written.  The result is the list of the stores to perform.  (Assumed: fir asks for the rows
of both views from the first on, and stores every pixel of the destination once.) -/
def firResize (fir : Fir) (src dst : FirView) (m : Mem) : Exec (List (Mem → Exec Mem)) :=
  if src.pixelType ≠ dst.pixelType then .error (.panic .unwrap)
  else if asU32 src.width = 0 ∨ asU32 src.height = 0 ∨ asU32 dst.width = 0 ∨ asU32 dst.height = 0 then .ok []
  else do
    let srcRows ← src.rows
    let dstRows ← dst.rows
    let shown := shownBytes m srcRows (asU32 src.height) (asU32 src.width * src.pixelType.size)
    return rowStores (fir src.pixelType (asU32 src.width) (asU32 src.height) shown (asU32 dst.width) (asU32 dst.height))
      (asU32 dst.width * dst.pixelType.size) (dstRows.take (asU32 dst.height))

/-- The closure for one plane, `src/resize.rs:75-113`. -/
def resizePlane (fir : Fir) (srcWidth dstWidth : Nat) (t : PlaneDesc × Plane × Plane) (m : Mem) :
    Exec (List (Mem → Exec Mem)) := do
  let srcFirWidth ← divU (← t.1.widthOp.op srcWidth) (← divU t.1.pixelType.size t.1.bytesPerPrimitive)
  let dstFirWidth ← divU (← t.1.widthOp.op dstWidth) (← divU t.1.pixelType.size t.1.bytesPerPrimitive)
  let srcHeight ← divU t.2.1.slice.len t.2.1.stride
  let dstHeight ← divU t.2.2.slice.len t.2.2.stride
  firResize fir ⟨t.1.pixelType, srcFirWidth, srcHeight, t.2.1.stride, t.2.1.slice⟩
    ⟨t.1.pixelType, dstFirWidth, dstHeight, t.2.2.stride, t.2.2.slice⟩ m

section
variable {F : Type} [FOps F]

/-- The task for one plane as a worker of the machine in `Verif.Model.Threads`: it makes a single call, whose read phase
looks at the source plane and whose stores are the rows of the destination plane. (`src/resize.rs:75-113`) -/
def resizeWorker (fir : Fir) (srcWidth dstWidth : Nat) (t : PlaneDesc × Plane × Plane) : Worker F :=
  ⟨⟨fun _ _ _ m => resizePlane fir srcWidth dstWidth t m⟩, [⟨false, 0, 0⟩], []⟩

/-- The tasks spawned by the loop in `src/resize.rs:64-115`, given the number of `fir::Resizer`s there are. -/
def resizeStart (fir : Fir) (src dst : Img) (sps dps : List Plane) (resizers : Nat) (m : Mem) : Threads F :=
  ⟨m, fun a b => b = m a,
    ((src.format.planeDesc.zip (sps.zip dps)).take resizers).map (resizeWorker fir src.width dst.width)⟩

/-- `ResizeError::DifferentFormats`, `src/resize.rs:12-15`. -/
structure DifferentFormats where
  src : PixelFormat
  dst : PixelFormat
  deriving DecidableEq, Repr

/-- The possible outcomes of `Resizer::resize`, `src/resize.rs:45-118`.  `n` is the length of `self.fir`, which is kept
between calls.  A normal outcome is the result, the new length of `self.fir` and the memory.

The tasks are spawned in a rayon scope, or called one after the other without the feature `multi-thread`: here they take
their steps in any order, on the shared memory of `Verif.Model.Threads`.  (`c` has no influence, that machine only happens
to have it as a parameter.  Threads inside of fir are not modelled.) -/
inductive ResizeRuns (c : Cpu F) (fir : Fir) (n : Nat) (src dst : Img) (m : Mem) :
    Exec (Except DifferentFormats Unit × Nat × Mem) → Prop
  /-- lines 50-52 -/
  | differ (h : src.format ≠ dst.format) : ResizeRuns c fir n src dst m (.ok (.error ⟨src.format, dst.format⟩, n, m))
  /-- `src.planes()` or `dst.planes_mut()` panics, lines 61-62 -/
  | srcPlanes {f : Fault} (h : src.format = dst.format) (hs : src.planes = .error f) :
      ResizeRuns c fir n src dst m (.error f)
  | dstPlanes {f : Fault} {sps : List Plane} (h : src.format = dst.format) (hs : src.planes = .ok sps)
      (hd : dst.planes = .error f) : ResizeRuns c fir n src dst m (.error f)
  /-- a task panics, lines 64-115; the scope propagates the panic -/
  | fault {f : Fault} {sps dps : List Plane} {s : Threads F} (h : src.format = dst.format)
      (hs : src.planes = .ok sps) (hd : dst.planes = .ok dps)
      (hr : Reach c (resizeStart fir src dst sps dps (max n sps.length) m) s) (hf : Faulty c s f) :
      ResizeRuns c fir n src dst m (.error f)
  /-- all tasks are done, line 117 -/
  | done {sps dps : List Plane} {s : Threads F} (h : src.format = dst.format)
      (hs : src.planes = .ok sps) (hd : dst.planes = .ok dps)
      (hr : Reach c (resizeStart fir src dst sps dps (max n sps.length) m) s) (hf : s.Finished) :
      ResizeRuns c fir n src dst m (.ok (.ok (), max n sps.length, s.mem))

end
end Ezk

import Verif.Model.Resize

/-!
# Programs using the library

A program constructs images, drops them, writes into their buffers, and passes them, or crops of them, to the operations
of the library, in any order and any number of times.  Operations may panic half-way, and the program may catch the panic
and go on.  What the borrow checker enforces is part of the rules: an image that can be written to shares no byte with
any other image the program holds, and source and destination of an operation are different images.

Undefined behaviour ends a history (no rule applies; see C10 for when that can happen).
-/

namespace Ezk

/-- The memory an image refers to (`S: AsRef<[u8]>` or `Vec<S>`, `src/image.rs:16-19`). -/
def Image.slices (i : Image) : List Slice :=
  match i.buffer with
  | .whole s => [s]
  | .split ps => ps

/-- An image the program holds. (a value of `src/image.rs:5-13`) -/
structure Held where
  image : Image
  /-- `S: AsMut<[u8]>`: the buffer is owned or exclusively borrowed, so that the image implements `ImageMut`
  (`src/image.rs:135`) -/
  writable : Bool

/-- The state of the program: memory, and its variables of type `Image`.
(a program using `src/lib.rs:73`, `src/image.rs:48-68`) -/
structure World where
  mem : Mem
  held : Nat → Option Held

/-- Assign to variable `i`. (a move into a variable of type `src/image.rs:5-13`) -/
def World.set (w : World) (i : Nat) (h : Option Held) : World :=
  { w with held := fun j => if j = i then h else w.held j }

/-- What can be passed to an operation: variable `i` or a crop of it (`&T`, `&mut T`, `Cropped`; `src/image_traits.rs:32-90`,
`src/crop.rs:29-47`). -/
inductive View (w : World) (i : Nat) : Img → Prop
  | whole {h : Held} (e : w.held i = some h) : View w i (.image h.image)
  | crop {t t' : Img} {win : Window} (v : View w i t) (e : t.crop win = .ok (.ok t')) : View w i t'

/-- No byte in common. (what `&mut` promises about `src/image_traits.rs:3-21`) -/
def Apart (l l' : List Slice) : Prop := ∀ s ∈ l, ∀ t ∈ l', ∀ a, s.Has a → ¬ t.Has a

section
variable {F : Type} [FOps F]

/-- How an operation from `src` to `dst` may leave the memory `m`, whether it returns or panics.
(`src/lib.rs:73-93`, `src/multi_thread.rs:11-80`, `src/copy.rs:34-75`, `src/resize.rs:45-118`) -/
inductive Effect (c : Cpu F) (fir : Fir) (src dst : Img) (m : Mem) : Mem → Prop
  /-- `convert` returns -/
  | convert {r : Except ConvertError Unit} {m' : Mem} (h : convert c src dst m = .ok (r, m')) : Effect c fir src dst m m'
  /-- `convert` panics, after any part of its work -/
  | convertPanic {k : PanicKind} {s : Threads F} (h : Ezk.convert c src dst m = .error (.panic k))
      (hr : Reach c (Threads.start c [convertJob src dst] m) s) : Effect c fir src dst m s.mem
  /-- `convert_multi_thread` returns -/
  | multi {threads : Nat} {r : Except ConvertError Unit} {m' : Mem}
      (h : MtRuns c threads src dst m (.ok (r, m'))) : Effect c fir src dst m m'
  /-- `convert_multi_thread` panics before anything is stored -/
  | multiEarly {threads : Nat} {k : PanicKind} (h : MtRuns c threads src dst m (.error (.panic k))) :
      Effect c fir src dst m m
  /-- ... or on the calling thread ... -/
  | multiSingle {threads : Nat} {k : PanicKind} {j : Exec (Except ConvertError (Job F))} {s : Threads F}
      (h : MtRuns c threads src dst m (.error (.panic k))) (hp : mtPlan threads src dst = .ok (.single j))
      (hr : Reach c (Threads.start c [j] m) s) : Effect c fir src dst m s.mem
  /-- ... or on some worker -/
  | multiPanic {threads : Nat} {k : PanicKind} {tasks : List (Exec (Except ConvertError (Job F)))} {s : Threads F}
      (h : MtRuns c threads src dst m (.error (.panic k))) (hp : mtPlan threads src dst = .ok (.parallel tasks))
      (hr : Reach c (Threads.start c tasks m) s) : Effect c fir src dst m s.mem
  /-- `copy` returns -/
  | copy {r : Except ConvertError Unit} {m' : Mem} (h : copyImpl src dst m = .ok (r, m')) : Effect c fir src dst m m'
  /-- `copy` panics before anything is stored -/
  | copyEarly {k : PanicKind} (h : copyImpl src dst m = .error (.panic k)) : Effect c fir src dst m m
  /-- ... or after some planes and some rows of the next one -/
  | copyPanic {k : PanicKind} {sps dps : List Plane} {l₁ l₂ : List (PlaneDesc × Plane × Plane)}
      {d : PlaneDesc} {p q : Plane} {n : Nat} {srows drows : List Slice} {rows rows' : List (Slice × Slice)} {m₁ m' : Mem}
      (h : copyImpl src dst m = .error (.panic k)) (hs : src.planes = .ok sps) (hd : dst.planes = .ok dps)
      (hl : src.format.planeDesc.zip (sps.zip dps) = l₁ ++ (d, p, q) :: l₂) (h₁ : copyPlanes src.width l₁ m = .ok m₁)
      (hsr : p.slice.chunksExact p.stride = .ok srows) (hdr : q.slice.chunksExact q.stride = .ok drows)
      (hrows : srows.zip drows = rows ++ rows') (h₂ : copyRows n rows m₁ = .ok m') : Effect c fir src dst m m'
  /-- `Resizer::resize` returns -/
  | resize {n k : Nat} {x : Except DifferentFormats Unit} {m' : Mem}
      (h : ResizeRuns c fir n src dst m (.ok (x, k, m'))) : Effect c fir src dst m m'
  /-- `Resizer::resize` panics before anything is stored -/
  | resizeEarly {n : Nat} {k : PanicKind} (h : ResizeRuns c fir n src dst m (.error (.panic k))) :
      Effect c fir src dst m m
  /-- ... or on some worker -/
  | resizePanic {n : Nat} {k : PanicKind} {sps dps : List Plane} {s : Threads F}
      (h : ResizeRuns c fir n src dst m (.error (.panic k))) (hs : src.planes = .ok sps) (hd : dst.planes = .ok dps)
      (hr : Reach c (resizeStart fir src dst sps dps (max n sps.length) m) s) : Effect c fir src dst m s.mem

/-- What a step of the program does to its images. (`src/image.rs:32-68`, `src/crop.rs:29-47`) -/
inductive Act
  /-- write to variable `j` -/
  | use (j : Nat)
  /-- drop variable `i` -/
  | drop (i : Nat)
  /-- anything else -/
  | other
  deriving DecidableEq

/-- One step of the program. (a caller of `src/image.rs:32-68`, `src/lib.rs:73`, `src/copy.rs:34`, `src/resize.rs:45`) -/
inductive Step (c : Cpu F) (fir : Fir) (w : World) : Act → World → Prop
  /-- `Image::from_buffer`, `Image::from_planes` (`src/image.rs:48-68`).  The last two conditions are the borrow checker's:
  whoever can write to a byte has it exclusively. -/
  | make {i : Nat} {f : PixelFormat} {buf : Buffer} {ss : Option (List Nat)} {width height : Nat} {col : ColorInfo}
      {img : Image} {b : Bool} (free : w.held i = none) (h : Image.new f buf ss width height col = .ok (.ok img))
      (others : ∀ j h', w.held j = some h' → b = true ∨ h'.writable = true → Apart img.slices h'.image.slices)
      (own : b = true → img.slices.Pairwise fun s t => ∀ a, s.Has a → ¬ t.Has a) :
      Step c fir w .other (w.set i (some ⟨img, b⟩))
  /-- `Image::blank` (`src/image.rs:32-41`); the allocator returns unused memory -/
  | blank {i addr : Nat} {f : PixelFormat} {width height : Nat} {col : ColorInfo} {img : Image} {m' : Mem}
      (free : w.held i = none) (h : Image.blank w.mem addr f width height col = .ok (img, m'))
      (others : ∀ j h', w.held j = some h' → Apart img.slices h'.image.slices) :
      Step c fir w .other ({ w with mem := m' }.set i (some ⟨img, true⟩))
  /-- the image goes out of scope -/
  | drop {i : Nat} : Step c fir w (.drop i) (w.set i none)
  /-- an operation of the library -/
  | run {i j : Nat} {src dst : Img} {h : Held} {m' : Mem} (vs : View w i src) (vd : View w j dst) (ne : i ≠ j)
      (hj : w.held j = some h) (hw : h.writable = true) (e : Effect c fir src dst w.mem m') :
      Step c fir w (.use j) { w with mem := m' }
  /-- the program writes into one of its images -/
  | write {j : Nat} {h : Held} {m' : Mem} (hj : w.held j = some h) (hw : h.writable = true)
      (e : ∀ a, (∀ s ∈ h.image.slices, ¬ s.Has a) → m' a = w.mem a) : Step c fir w (.use j) { w with mem := m' }
  /-- memory that belongs to no image changes -/
  | elsewhere {m' : Mem} (e : ∀ j h, w.held j = some h → ∀ s ∈ h.image.slices, ∀ a, s.Has a → m' a = w.mem a) :
      Step c fir w .other { w with mem := m' }

/-- A history: the steps taken, in order.
(a caller of `src/image.rs:32-68`, `src/lib.rs:73`, `src/copy.rs:34`, `src/resize.rs:45`) -/
inductive History (c : Cpu F) (fir : Fir) (w : World) : List Act → World → Prop
  | nil : History c fir w [] w
  | snoc {acts : List Act} {w₁ w₂ : World} {a : Act} : History c fir w acts w₁ → Step c fir w₁ a w₂ →
      History c fir w (acts ++ [a]) w₂

/-- A program that holds no image yet. (before the first call of `src/image.rs:32-68`) -/
def World.init (m : Mem) : World := ⟨m, fun _ => none⟩

end
end Ezk

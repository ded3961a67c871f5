/-!
# Execution model: faults, `usize`, byte memory, slices

Shared vocabulary of the whole model.  Nothing here is taken from a single Rust file; it models
the language features the crate relies on.
-/

namespace Ezk

/-- Reasons for a Rust panic that the crate can run into.
(no definition of the crate; the panics are those of its indexing, arithmetic, `expect`, `unwrap` and `assert`, e.g. `src/lib.rs:219-227`, `src/formats/visit_2x2.rs:13-14`, `src/multi_thread.rs:62`) -/
inductive PanicKind
  /-- `strict_add_`/`strict_mul_` (`src/lib.rs:212-228`) overflows. -/
  | overflow
  /-- A plain `+`/`*` on `usize` overflows: a panic in debug builds, while release builds wrap around and go on. -/
  | wrap
  /-- `&s[off..]` / `&s[..n]` out of range. -/
  | index
  /-- `split_at` past the end (`src/planes.rs:229-247`). -/
  | splitAt
  /-- `Result::unwrap`/`expect` on an error. -/
  | unwrap
  /-- `assert!`/`assert_eq!` fails. -/
  | assertion
  /-- integer division by zero. -/
  | divZero
  /-- `chunks_exact(0)`. -/
  | chunkZero
  /-- `vec![0; n]` with `n > isize::MAX`. -/
  | capacity
  deriving DecidableEq, Repr

/-- How an execution can go wrong other than by returning `Err`.
(undefined behaviour is a raw access of `src/primitive.rs:17-101`, `src/vector/avx2.rs:89-224` outside of the memory it may touch) -/
inductive Fault
  | panic (k : PanicKind)
  /-- out-of-bounds raw pointer access: undefined behaviour in a release build. (With debug
  assertions `src/primitive.rs:22` etc. would panic instead.) -/
  | ub
  deriving DecidableEq, Repr

deriving instance DecidableEq for Except

/-- Executions: a value, a panic or undefined behaviour.  API errors (`Result::Err`) are ordinary
values and appear in the value type. (the bodies of all functions, e.g. `src/lib.rs:73-93`) -/
abbrev Exec (α : Type _) := Except Fault α

/-- `usize::MAX + 1` on a 64-bit target. (the arithmetic of `src/lib.rs:212-228`) -/
abbrev usizeSize : Nat := 2 ^ 64

/-- `isize::MAX`, the largest length of a slice or `Vec<u8>`. (the buffers of `src/image.rs:16-19`) -/
abbrev isizeMax : Nat := 2 ^ 63 - 1

/-- `strict_add_` on `usize`, `src/lib.rs:219-221`. -/
def addU (a b : Nat) : Exec Nat :=
  if a + b < usizeSize then .ok (a + b) else .error (.panic .overflow)

/-- `strict_mul_` on `usize`, `src/lib.rs:224-227`. -/
def mulU (a b : Nat) : Exec Nat :=
  if a * b < usizeSize then .ok (a * b) else .error (.panic .overflow)

/-- `a + b` on `usize`. (e.g. `src/formats/i444/read.rs:44-51`)  Debug builds panic on overflow.  Release builds go on with the
wrapped sum: they agree with this model as long as it does not say `wrap`. -/
def addP (a b : Nat) : Exec Nat :=
  if a + b < usizeSize then .ok (a + b) else .error (.panic .wrap)

/-- `a * b` on `usize`, as `addP`. (e.g. `src/formats/i444/read.rs:44-51`, `src/crop.rs:95`, `99`) -/
def mulP (a b : Nat) : Exec Nat :=
  if a * b < usizeSize then .ok (a * b) else .error (.panic .wrap)

/-- `a / b` on `usize`. (e.g. `src/multi_thread.rs:91`, `src/resize.rs:81`) -/
def divU (a b : Nat) : Exec Nat :=
  if b = 0 then .error (.panic .divZero) else .ok (a / b)

/-- `a % b` on `usize`. (e.g. `src/multi_thread.rs:92`, `src/formats/visit_2x2.rs:77`) -/
def modU (a b : Nat) : Exec Nat :=
  if b = 0 then .error (.panic .divZero) else .ok (a % b)

/-- `(lo..hi).step_by(step)` started at `lo = 0`: `0, step, 2*step, ...` below `hi`
(used in `src/formats/visit_2x2.rs:81-88`; `step` is never zero there). -/
def stepBy (hi step : Nat) : List Nat :=
  (List.range ((hi + step - 1) / step)).map (· * step)

/-- Flat byte-addressed memory. (what `src/image.rs:16-19` borrows or owns) -/
abbrev Mem := Nat → UInt8

/-- A Rust `&[u8]` / `&mut [u8]`: start address and length. (the `S` of `src/image.rs:5-19`, `src/planes.rs:215-247`) -/
structure Slice where
  addr : Nat
  len : Nat
  deriving DecidableEq, Repr

namespace Slice

/-- The addresses a slice covers. (`src/planes.rs:215-247`) -/
def Has (s : Slice) (a : Nat) : Prop := s.addr ≤ a ∧ a < s.addr + s.len

/-- `slice_split_at`, i.e. `split_at`/`split_at_mut`: `src/planes.rs:234-246`. -/
def splitAt (s : Slice) (at_ : Nat) : Exec (Slice × Slice) :=
  if at_ ≤ s.len then .ok (⟨s.addr, at_⟩, ⟨s.addr + at_, s.len - at_⟩)
  else .error (.panic .splitAt)

/-- `&s[off..]`. (e.g. `src/formats/i420/read.rs:51-58`) -/
def dropFrom (s : Slice) (off : Nat) : Exec Slice :=
  if off ≤ s.len then .ok ⟨s.addr + off, s.len - off⟩ else .error (.panic .index)

/-- `&s[..n]`. (e.g. `src/copy.rs:25`) -/
def takeTo (s : Slice) (n : Nat) : Exec Slice :=
  if n ≤ s.len then .ok ⟨s.addr, n⟩ else .error (.panic .index)

/-- `s.chunks_exact(n)`: the consecutive `n`-byte chunks, the remainder is dropped.
(e.g. `src/resize.rs:212`, `src/copy.rs:21-22`) -/
def chunksExact (s : Slice) (n : Nat) : Exec (List Slice) :=
  if n = 0 then .error (.panic .chunkZero)
  else .ok ((List.range (s.len / n)).map fun i => ⟨s.addr + i * n, n⟩)

end Slice

/-- Read `n` bytes through a raw pointer derived from `s.as_ptr()`: undefined behaviour when the slice
is shorter than `n`. (e.g. `src/vector/avx2.rs:89-93`, `src/vector/mod.rs:205-211`) -/
def rawRead (m : Mem) (s : Slice) (n : Nat) : Exec (Fin n → UInt8) :=
  if n ≤ s.len then .ok (fun i => m (s.addr + i)) else .error .ub

/-- Memory after `n` bytes have been stored at address `a`. (e.g. `src/vector/avx2.rs:172-192`) -/
def Mem.store (m : Mem) (a n : Nat) (v : Fin n → UInt8) : Mem := fun p =>
  if h : a ≤ p ∧ p < a + n then v ⟨p - a, by omega⟩ else m p

/-- Write `n` bytes through a raw pointer derived from `s.as_mut_ptr()`.
(e.g. `src/vector/avx2.rs:172-192`, `src/vector/mod.rs:238-253`) -/
def rawWrite (m : Mem) (s : Slice) (n : Nat) (v : Fin n → UInt8) : Exec Mem :=
  if n ≤ s.len then .ok (m.store s.addr n v) else .error .ub

/-- `u16::from_le_bytes` (the crate reads `u16` in native order; both supported SIMD targets are
little-endian). (`src/vector/mod.rs:209-211`) -/
def u16le (lo hi : UInt8) : Nat := lo.toNat + 256 * hi.toNat

/-- Byte `k` (0 or 1) of a `u16` in little-endian order. (`src/vector/mod.rs:246-253`) -/
def u16byte (v : UInt16) (k : Nat) : UInt8 :=
  if k = 0 then UInt8.ofNat (v.toNat % 256) else UInt8.ofNat (v.toNat / 256)

/-- The `?` operator inside a function returning `Result`. (e.g. `src/lib.rs:74`) -/
def tryE {α β ε : Type _} (r : Except ε α) (k : α → Exec (Except ε β)) : Exec (Except ε β) :=
  match r with
  | .error e => .ok (.error e)
  | .ok a => k a

end Ezk

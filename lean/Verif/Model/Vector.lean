import Verif.Model.Basic

/-!
# The `Vector` abstraction

`src/vector/mod.rs:22-128`.  Floats are abstract: `F` is any type with the operations of `FOps`
(constants and scalar `f32` arithmetic evaluated by the compiler) and, per backend, the lane operations
of `Arith`.  No law is assumed of them.
-/

namespace Ezk

/-- Scalar `f32` operations that occur in constant expressions, and conversions to `f32`. (`src/vector/mod.rs:130-287`) -/
class FOps (F : Type) where
  /-- A decimal literal. -/
  lit : Rat → F
  /-- `u8`/`u16`/`i32 as f32`. -/
  ofNat : Nat → F
  add : F → F → F
  sub : F → F → F
  mul : F → F → F
  div : F → F → F
  neg : F → F
  /-- `std::f32::consts::E`. -/
  e : F

/-- What one lane of a SIMD backend computes, including the conversion to integers done by its stores.
`q8` is used by the planar stores, `q8i` by the interleaved 3x/4x stores (they differ on AVX-512).
(`src/vector/mod.rs:22-121`) -/
structure Arith (F : Type) where
  add : F → F → F
  sub : F → F → F
  mul : F → F → F
  div : F → F → F
  max : F → F → F
  pow : F → F → F
  sqrt : F → F
  ln : F → F
  lt : F → F → Bool
  le : F → F → Bool
  q8 : F → UInt8
  q8i : F → UInt8
  q16 : F → UInt16

/-- A vector of `n` floats. (`src/vector/mod.rs:22-25`) -/
abbrev Vec (n : Nat) (F : Type) := Fin n → F

/-- An implementation of `trait Vector`, `src/vector/mod.rs:22-128`.

Arithmetic is lane-wise (`ar`); the lane-crossing operations and the memory operations are fields and
are modelled per backend from the intrinsics.  `load_u16_3x/4x_interleaved_2x` and
`write_interleaved_3x/4x_2x_u16` are in `Model/Wide.lean`: no pixel format instantiates the RGB(A) readers or writers with
`u16`, so they are dead code; `dyn_rgba_read` is plain forwarding (`src/formats/dyn_rgba_src.rs`). -/
structure Backend (F : Type) where
  /-- `Vector::LEN` -/
  LEN : Nat
  pos : 0 < LEN
  ar : Arith F
  /-- `Vector::zip` -/
  zip : Vec LEN F → Vec LEN F → Vec LEN F × Vec LEN F
  /-- `Vector::unzip` -/
  unzip : Vec LEN F → Vec LEN F → Vec LEN F × Vec LEN F
  /-- `Vector::load_u8(ptr)` with `ptr = slice.as_ptr()` -/
  loadU8 : Mem → Slice → Exec (Vec LEN F)
  /-- `Vector::load_u16(ptr)` -/
  loadU16 : Mem → Slice → Exec (Vec LEN F)
  /-- `Vector::load_u8_3x_interleaved_2x(ptr)` -/
  loadU8x3 : Mem → Slice → Exec (Fin 2 → Fin 3 → Vec LEN F)
  /-- `Vector::load_u8_4x_interleaved_2x(ptr)` -/
  loadU8x4 : Mem → Slice → Exec (Fin 2 → Fin 4 → Vec LEN F)
  /-- `Vector::write_u8(self, ptr)` -/
  writeU8 : Vec LEN F → Mem → Slice → Exec Mem
  /-- `Vector::write_u8_2x(v0, v1, ptr)` -/
  writeU8_2x : Vec LEN F → Vec LEN F → Mem → Slice → Exec Mem
  /-- `Vector::write_u16(self, ptr)` -/
  writeU16 : Vec LEN F → Mem → Slice → Exec Mem
  /-- `Vector::write_u16_2x(v0, v1, ptr)` -/
  writeU16_2x : Vec LEN F → Vec LEN F → Mem → Slice → Exec Mem
  /-- `Vector::write_interleaved_3x_2x_u8(this, ptr)` -/
  writeU8x3 : (Fin 2 → Fin 3 → Vec LEN F) → Mem → Slice → Exec Mem
  /-- `Vector::write_interleaved_4x_2x_u8(this, ptr)` -/
  writeU8x4 : (Fin 2 → Fin 4 → Vec LEN F) → Mem → Slice → Exec Mem

namespace Backend
variable {F : Type} (B : Backend F)

/-- The vector type. (`src/vector/mod.rs:22`) -/
abbrev V := Vec B.LEN F

/-- `Vector::splat`. (`src/vector/mod.rs:28`) -/
def splat (x : F) : B.V := fun _ => x
/-- `Vector::vadd` (`self + other`, `_mm256_add_ps`, ...). (`src/vector/mod.rs:30`) -/
def vadd (a b : B.V) : B.V := fun i => B.ar.add (a i) (b i)
/-- `Vector::vsub`. (`src/vector/mod.rs:35`) -/
def vsub (a b : B.V) : B.V := fun i => B.ar.sub (a i) (b i)
/-- `Vector::vmul`. (`src/vector/mod.rs:40`) -/
def vmul (a b : B.V) : B.V := fun i => B.ar.mul (a i) (b i)
/-- `Vector::vdiv`. (`src/vector/mod.rs:45`) -/
def vdiv (a b : B.V) : B.V := fun i => B.ar.div (a i) (b i)
/-- `Vector::vmax`. (`src/vector/mod.rs:50`) -/
def vmax (a b : B.V) : B.V := fun i => B.ar.max (a i) (b i)
/-- `Vector::vpow`. (`src/vector/mod.rs:73`) -/
def vpow (a b : B.V) : B.V := fun i => B.ar.pow (a i) (b i)
/-- `Vector::vsqrt`. (`src/vector/mod.rs:71`) -/
def vsqrt (a : B.V) : B.V := fun i => B.ar.sqrt (a i)
/-- `Vector::vln`. (`src/vector/mod.rs:79`) -/
def vln (a : B.V) : B.V := fun i => B.ar.ln (a i)
/-- `Vector::Mask`. (`src/vector/mod.rs:25`) -/
abbrev M := Fin B.LEN → Bool
/-- `Vector::lt`. (`src/vector/mod.rs:56`) -/
def lt (a b : B.V) : B.M := fun i => B.ar.lt (a i) (b i)
/-- `Vector::le`. (`src/vector/mod.rs:62`) -/
def le (a b : B.V) : B.M := fun i => B.ar.le (a i) (b i)
/-- `Vector::select`. (`src/vector/mod.rs:68`) -/
def select (a b : B.V) (m : B.M) : B.V := fun i => if m i then a i else b i

/-! The provided methods `vaddf` ... `lef`, `src/vector/mod.rs:31-76`. -/
/-- `Vector::vaddf`, `src/vector/mod.rs:31-33`. -/
def vaddf (a : B.V) (x : F) : B.V := B.vadd a (B.splat x)
/-- `Vector::vsubf`, `src/vector/mod.rs:36-38`. -/
def vsubf (a : B.V) (x : F) : B.V := B.vsub a (B.splat x)
/-- `Vector::vmulf`, `src/vector/mod.rs:41-43`. -/
def vmulf (a : B.V) (x : F) : B.V := B.vmul a (B.splat x)
/-- `Vector::vdivf`, `src/vector/mod.rs:46-48`. -/
def vdivf (a : B.V) (x : F) : B.V := B.vdiv a (B.splat x)
/-- `Vector::vmaxf`, `src/vector/mod.rs:51-53`. -/
def vmaxf (a : B.V) (x : F) : B.V := B.vmax a (B.splat x)
/-- `Vector::ltf`, `src/vector/mod.rs:57-59`. -/
def ltf (a : B.V) (x : F) : B.M := B.lt a (B.splat x)
/-- `Vector::lef`, `src/vector/mod.rs:63-65`. -/
def lef (a : B.V) (x : F) : B.M := B.le a (B.splat x)
/-- `Vector::vpowf`, `src/vector/mod.rs:74-76`. -/
def vpowf (a : B.V) (x : F) : B.V := B.vpow a (B.splat x)

end Backend

/-- `trait Primitive`, `src/primitive.rs:3-15`, implemented for `u8` (17-58) and `u16` (60-101). -/
inductive Prim
  | u8
  | u16
  deriving DecidableEq, Repr

namespace Prim
variable {F : Type}

/-- `Primitive::SIZE`, `src/primitive.rs:18,61`. -/
def SIZE : Prim → Nat
  | u8 => 1
  | u16 => 2

/-- `Primitive::load`, `src/primitive.rs:21-24,64-67`. (The `debug_assert` is absent in release builds; the
violation shows as `Fault.ub` in the raw access.) -/
def load (P : Prim) (B : Backend F) (m : Mem) (s : Slice) : Exec B.V :=
  match P with
  | u8 => B.loadU8 m s
  | u16 => B.loadU16 m s

/-- `Primitive::write`, `src/primitive.rs:38-41,81-84`. -/
def write (P : Prim) (B : Backend F) (s : Slice) (v : B.V) (m : Mem) : Exec Mem :=
  match P with
  | u8 => B.writeU8 v m s
  | u16 => B.writeU16 v m s

/-- `Primitive::write_2x`, `src/primitive.rs:43-46,86-89`. -/
def write2x (P : Prim) (B : Backend F) (s : Slice) (v0 v1 : B.V) (m : Mem) : Exec Mem :=
  match P with
  | u8 => B.writeU8_2x v0 v1 m s
  | u16 => B.writeU16_2x v0 v1 m s

end Prim

section Scalar
variable {F : Type} [FOps F]

/-- `impl Vector for f32`, `src/vector/mod.rs:130-287`.  `zip`/`unzip` return their arguments; loads and stores
access exactly the elements; `as u8`/`as u16` are the abstract `ar.q8`, `ar.q16` (both 8-bit store paths use the
same cast, so `q8i` is required to be `q8`). -/
def scalarBackend (ar : Arith F) : Backend F where
  LEN := 1
  pos := by decide
  ar := { ar with q8i := ar.q8 }
  zip a b := (a, b)
  unzip a b := (a, b)
  loadU8 m s := do
    let b ← rawRead m s 1
    return fun _ => FOps.ofNat (b 0).toNat
  loadU16 m s := do
    let b ← rawRead m s 2
    return fun _ => FOps.ofNat (u16le (b 0) (b 1))
  loadU8x3 m s := do
    let b ← rawRead m s 6
    return fun p c _ => FOps.ofNat (b ⟨3 * p + c, by omega⟩).toNat
  loadU8x4 m s := do
    let b ← rawRead m s 8
    return fun p c _ => FOps.ofNat (b ⟨4 * p + c, by omega⟩).toNat
  writeU8 v m s := rawWrite m s 1 (fun _ => ar.q8 (v 0))
  writeU8_2x v0 v1 m s := rawWrite m s 2 (fun i => if i = 0 then ar.q8 (v0 0) else ar.q8 (v1 0))
  writeU16 v m s := rawWrite m s 2 (fun i => u16byte (ar.q16 (v 0)) i)
  writeU16_2x v0 v1 m s := rawWrite m s 4
    (fun i => if i.val < 2 then u16byte (ar.q16 (v0 0)) i else u16byte (ar.q16 (v1 0)) (i - 2))
  writeU8x3 v m s := rawWrite m s 6
    (fun i => ar.q8 (v ⟨i / 3, by omega⟩ ⟨i % 3, by omega⟩ 0))
  writeU8x4 v m s := rawWrite m s 8
    (fun i => ar.q8 (v ⟨i / 4, by omega⟩ ⟨i % 4, by omega⟩ 0))

end Scalar
end Ezk

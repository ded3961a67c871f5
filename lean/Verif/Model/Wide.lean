import Verif.Model.Backends

/-!
# The interleaved operations on 16-bit pixels

`Vector::load_u16_3x_interleaved_2x`, `load_u16_4x_interleaved_2x`, `write_interleaved_3x_2x_u16` and
`write_interleaved_4x_2x_u16` (`src/vector/mod.rs:106, 109, 118, 121`) of all four vector types, reached through
`impl Primitive for u16` (`src/primitive.rs:70-78, 92-100`).  No pixel format has packed 16-bit pixels, so that `convert`
never calls them; they are modelled apart from `Backend`.
-/

namespace Ezk
open FOps

variable {F : Type} [FOps F]

/-- The four operations of one vector type. (`src/vector/mod.rs:106-121`) -/
structure Wide (F : Type) where
  /-- `Vector::LEN` -/
  LEN : Nat
  /-- `Vector::load_u16_3x_interleaved_2x(ptr)` -/
  load3 : Mem → Slice → Exec (Fin 2 → Fin 3 → Vec LEN F)
  /-- `Vector::load_u16_4x_interleaved_2x(ptr)` -/
  load4 : Mem → Slice → Exec (Fin 2 → Fin 4 → Vec LEN F)
  /-- `Vector::write_interleaved_3x_2x_u16(this, ptr)` -/
  write3 : (Fin 2 → Fin 3 → Vec LEN F) → Mem → Slice → Exec Mem
  /-- `Vector::write_interleaved_4x_2x_u16(this, ptr)` -/
  write4 : (Fin 2 → Fin 4 → Vec LEN F) → Mem → Slice → Exec Mem

/-- `impl Vector for f32`: arrays of `u16` read and written as they are. (`src/vector/mod.rs:220-223, 232-235, 262-265, 274-277`) -/
def scalarWide (ar : Arith F) : Wide F where
  LEN := 1
  load3 m s := do
    let b ← rawRead m s 12
    return fun p c _ => ofNat (u16le (b ⟨2 * (3 * p + c), by omega⟩) (b ⟨2 * (3 * p + c) + 1, by omega⟩))
  load4 m s := do
    let b ← rawRead m s 16
    return fun p c _ => ofNat (u16le (b ⟨2 * (4 * p + c), by omega⟩) (b ⟨2 * (4 * p + c) + 1, by omega⟩))
  write3 v m s := rawWriteU16 m s fun j : Fin 6 => ar.q16 (v ⟨j / 3, by omega⟩ ⟨j % 3, by omega⟩ 0)
  write4 v m s := rawWriteU16 m s fun j : Fin 8 => ar.q16 (v ⟨j / 4, by omega⟩ ⟨j % 4, by omega⟩ 0)

namespace Avx2
variable (a : SimdArith F)

/-- `__m256::load_u16` at `ptr.add(off)`: `off` counts bytes, `ptr` being a `*const u8`. (`src/vector/avx2.rs:96-100`) -/
def loadU16At (m : Mem) (s : Slice) (off : Nat) : Exec (Fin 8 → F) := do
  let b ← rawReadAt m s off 16
  return fun i => ofNat (u16le (b ⟨2 * i, by omega⟩) (b ⟨2 * i + 1, by omega⟩))

/-- `load_u16_3x_interleaved_2x`, `inner`, `src/vector/avx2.rs:122-128`. -/
def load3xInner16 (m : Mem) (s : Slice) (off : Nat) : Exec ((Fin 8 → F) × (Fin 8 → F) × (Fin 8 → F)) := do
  let m1 ← loadU16At m s off
  let m2 ← loadU16At m s (off + 8)
  let m3 ← loadU16At m s (off + 8 * 2)
  return deinterleave3x m1 m2 m3

/-- `load_u16_3x_interleaved_2x`, `src/vector/avx2.rs:120-134`. -/
def loadU16x3 (m : Mem) (s : Slice) : Exec (Fin 2 → Fin 3 → Fin 8 → F) := do
  let l ← load3xInner16 m s 0
  let h ← load3xInner16 m s (8 * 3)
  return fun k c => match k with | 0 => pick3 l c | 1 => pick3 h c

/-- `load_u16_4x_interleaved_2x`, `inner`, `src/vector/avx2.rs:157-164`. -/
def load4xInner16 (m : Mem) (s : Slice) (off : Nat) :
    Exec ((Fin 8 → F) × (Fin 8 → F) × (Fin 8 → F) × (Fin 8 → F)) := do
  let m1 ← loadU16At m s off
  let m2 ← loadU16At m s (off + 8)
  let m3 ← loadU16At m s (off + 8 * 2)
  let m4 ← loadU16At m s (off + 8 * 3)
  return deinterleave4x m1 m2 m3 m4

/-- `load_u16_4x_interleaved_2x`, `src/vector/avx2.rs:155-170`. -/
def loadU16x4 (m : Mem) (s : Slice) : Exec (Fin 2 → Fin 4 → Fin 8 → F) := do
  let l ← load4xInner16 m s 0
  let h ← load4xInner16 m s (8 * 4)
  return fun k c => match k with | 0 => pick4 l c | 1 => pick4 h c

/-- The bytes of a register of 16-bit elements. (the argument of `_mm256_shuffle_epi8`, `src/vector/avx2.rs:399-400`) -/
def bytes {n : Nat} (v : Fin n → UInt16) : Fin (2 * n) → UInt8 := fun i => u16byte (v ⟨i / 2, by omega⟩) (i % 2)

/-- The index of `_mm256_shuffle_epi8` in `interleave_f32x8x3_to_u16x24`, `src/vector/avx2.rs:391-397`: the instruction
uses the low four bits of each. -/
def idx3w : Fin 32 → Option (Fin 16) := fun i =>
  match i with
  | 0 => some 0 | 1 => some 1 | 2 => some 2 | 3 => some 3 | 4 => some 4 | 5 => some 5
  | 6 => some 8 | 7 => some 9 | 8 => some 10 | 9 => some 11 | 10 => some 12 | 11 => some 13
  -- 16, 17, 18, 19, 20, 21
  | 12 => some 0 | 13 => some 1 | 14 => some 2 | 15 => some 3 | 16 => some 4 | 17 => some 5
  -- 24, 25, 26, 27, 28, 29
  | 18 => some 8 | 19 => some 9 | 20 => some 10 | 21 => some 11 | 22 => some 12 | 23 => some 13
  | _ => none

/-- `interleave_f32x8x3_to_u16x24`, `src/vector/avx2.rs:387-407`, as the 48 bytes of its result: the first six 32-bit
elements of each register. -/
def interleave3_u16 (r g b : Fin 8 → F) : Fin (2 * 24) → UInt8 :=
  let p := interleave4_u16 a r g b (fun _ => lit 0)
  let lo := mm256_shuffle_epi8 (bytes p.1) idx3w
  let hi := mm256_shuffle_epi8 (bytes p.2) idx3w
  arr2 (n := 24) (fun i => lo ⟨i, by omega⟩) (fun i => hi ⟨i, by omega⟩)

/-- `write_interleaved_4x_2x_u16`: the two registers of each half one after the other. (`src/vector/avx2.rs:219-224`) -/
def both (p : (Fin 16 → UInt16) × (Fin 16 → UInt16)) : Fin 32 → UInt16 := arr2 p.1 p.2

/-- The 16-bit interleaved operations of `__m256`. (`src/vector/avx2.rs:120-134, 155-170, 203-208, 219-224`) -/
def wide : Wide F where
  LEN := 8
  load3 := loadU16x3
  load4 := loadU16x4
  write3 v m s :=
    rawWrite m s 96 (arr2 (interleave3_u16 a (v 0 0) (v 0 1) (v 0 2)) (interleave3_u16 a (v 1 0) (v 1 1) (v 1 2)))
  write4 v m s :=
    rawWriteU16 m s
      (arr2 (both (interleave4_u16 a (v 0 0) (v 0 1) (v 0 2) (v 0 3)))
        (both (interleave4_u16 a (v 1 0) (v 1 1) (v 1 2) (v 1 3))))

end Avx2

namespace Avx512
variable (a : SimdArith F)

/-- `__m512::load_u16` at `ptr.add(off)`: `off` counts bytes. (`src/vector/avx512.rs:96-100`) -/
def loadU16At (m : Mem) (s : Slice) (off : Nat) : Exec (Fin 16 → F) := do
  let b ← rawReadAt m s off 32
  return fun i => ofNat (u16le (b ⟨2 * i, by omega⟩) (b ⟨2 * i + 1, by omega⟩))

/-- `load_u16_3x_interleaved_2x`, `inner`, `src/vector/avx512.rs:122-128`. -/
def load3xInner16 (m : Mem) (s : Slice) (off : Nat) : Exec ((Fin 16 → F) × (Fin 16 → F) × (Fin 16 → F)) := do
  let m1 ← loadU16At m s off
  let m2 ← loadU16At m s (off + 16)
  let m3 ← loadU16At m s (off + 16 * 2)
  return deinterleave3x m1 m2 m3

/-- `load_u16_3x_interleaved_2x`, `src/vector/avx512.rs:120-134`. -/
def loadU16x3 (m : Mem) (s : Slice) : Exec (Fin 2 → Fin 3 → Fin 16 → F) := do
  let l ← load3xInner16 m s 0
  let h ← load3xInner16 m s (16 * 3)
  return fun k c => match k with | 0 => Avx2.pick3 l c | 1 => Avx2.pick3 h c

/-- `load_u16_4x_interleaved_2x`, `inner`, `src/vector/avx512.rs:157-164`. -/
def load4xInner16 (m : Mem) (s : Slice) (off : Nat) :
    Exec ((Fin 16 → F) × (Fin 16 → F) × (Fin 16 → F) × (Fin 16 → F)) := do
  let m1 ← loadU16At m s off
  let m2 ← loadU16At m s (off + 16)
  let m3 ← loadU16At m s (off + 16 * 2)
  let m4 ← loadU16At m s (off + 16 * 3)
  return deinterleave4x m1 m2 m3 m4

/-- `load_u16_4x_interleaved_2x`, `src/vector/avx512.rs:155-170`. -/
def loadU16x4 (m : Mem) (s : Slice) : Exec (Fin 2 → Fin 4 → Fin 16 → F) := do
  let l ← load4xInner16 m s 0
  let h ← load4xInner16 m s (16 * 4)
  return fun k c => match k with | 0 => Avx2.pick4 l c | 1 => Avx2.pick4 h c

/-- The index of `_mm512_shuffle_epi8` in `interleave_f32x16x3_to_u16x48`, `src/vector/avx512.rs:407-414`: the AVX2 index
twice. (`_mm512_set_epi8` lists the last element first.) -/
def idx3w : Fin 64 → Option (Fin 16) := fun i => Avx2.idx3w ⟨i % 32, by omega⟩

/-- `interleave_f32x16x3_to_u16x48`, `src/vector/avx512.rs:403-426`, as the 96 bytes of its result: the 32-bit elements
0–5 and 8–13 of each register. -/
def interleave3_u16 (r g b : Fin 16 → F) : Fin (2 * 48) → UInt8 :=
  let p := interleave4_u16 a r g b (fun _ => lit 0)
  let lo := mm512_shuffle_epi8 (Avx2.bytes p.1) idx3w
  let hi := mm512_shuffle_epi8 (Avx2.bytes p.2) idx3w
  arr2 (n := 48) (fun i => lo ⟨i / 24 * 32 + i % 24, by omega⟩) (fun i => hi ⟨i / 24 * 32 + i % 24, by omega⟩)

/-- `write_interleaved_4x_2x_u16`: the two registers of each half one after the other. (`src/vector/avx512.rs:221-226`) -/
def both (p : (Fin 32 → UInt16) × (Fin 32 → UInt16)) : Fin 64 → UInt16 := arr2 p.1 p.2

/-- The 16-bit interleaved operations of `__m512`. (`src/vector/avx512.rs:120-134, 155-170, 205-210, 221-226`) -/
def wide : Wide F where
  LEN := 16
  load3 := loadU16x3
  load4 := loadU16x4
  write3 v m s :=
    rawWrite m s 192 (arr2 (interleave3_u16 a (v 0 0) (v 0 1) (v 0 2)) (interleave3_u16 a (v 1 0) (v 1 1) (v 1 2)))
  write4 v m s :=
    rawWriteU16 m s
      (arr2 (both (interleave4_u16 a (v 0 0) (v 0 1) (v 0 2) (v 0 3)))
        (both (interleave4_u16 a (v 1 0) (v 1 1) (v 1 2) (v 1 3))))

end Avx512

namespace Neon
variable (a : SimdArith F)

/-- `vld3q_u16` on the 48 bytes at the pointer, `vld4q_u16` on 64: element `i` of register `c` is the 16-bit value
`n·i + c`. (used at `src/vector/neon.rs:119, 162`) -/
def vldq_u16 (n : Nat) (p : Fin (16 * n) → UInt8) : Fin n → Fin 8 → UInt16 := fun c i =>
  have h : n * i + c < 8 * n := by
    have := c.2
    have : n * i.val ≤ n * 7 := Nat.mul_le_mul_left _ (by omega)
    omega
  UInt16.ofNat (u16le (p ⟨2 * (n * i + c), by omega⟩) (p ⟨2 * (n * i + c) + 1, by omega⟩))

/-- One lane register to its low and high half as floats, `src/vector/neon.rs:123-124`. -/
def widen16 (r : Fin 8 → UInt16) (k : Fin 2) : Fin 4 → F :=
  match k with
  | 0 => vcvtq_f32_u32 (vmovl_u16 (vget_low_u16 r))
  | 1 => vcvtq_f32_u32 (vmovl_u16 (vget_high_u16 r))

/-- The 16-bit values stored by `vst3q_u16` and `vst4q_u16`. (used at `src/vector/neon.rs:224, 248`) -/
def vst3q_u16 (v : Fin 3 → Fin 8 → UInt16) : Fin 24 → UInt16 := fun j => v ⟨j % 3, by omega⟩ ⟨j / 3, by omega⟩
/-- `vst4q_u16`. (used at `src/vector/neon.rs:248`) -/
def vst4q_u16 (v : Fin 4 → Fin 8 → UInt16) : Fin 32 → UInt16 := fun j => v ⟨j % 4, by omega⟩ ⟨j / 4, by omega⟩

/-- The 16-bit interleaved operations of `float32x4_t`. (`src/vector/neon.rs:118-133, 161-179, 217-225, 240-249`) -/
def wide : Wide F where
  LEN := 4
  load3 m s := do
    let b ← rawReadAt m s 0 48
    return fun k c => widen16 (vldq_u16 3 b c) k
  load4 m s := do
    let b ← rawReadAt m s 0 64
    return fun k c => widen16 (vldq_u16 4 b c) k
  write3 v m s := rawWriteU16 m s (vst3q_u16 fun c => f32x4x2_to_u16x8 a (v 0 c) (v 1 c))
  write4 v m s := rawWriteU16 m s (vst4q_u16 fun c => f32x4x2_to_u16x8 a (v 0 c) (v 1 c))

end Neon

/-- The operations of the vector type selected by `visit`. (`src/formats/visit_2x2.rs:16-69`) -/
def Platform.wide (p : Platform) (simd : SimdArith F) (sar : Arith F) : Wide F :=
  match p with
  | .scalar => scalarWide sar
  | .avx2 => Avx2.wide simd
  | .avx512 => Avx512.wide simd
  | .neon => Neon.wide simd

/-- The conversion of a lane to 16 bits by these stores: saturating on x86 (`packus_epi32`), also on AVX-512 whose planar
stores truncate. (`src/vector/avx2.rs:346-347`, `src/vector/avx512.rs:353-354`, `src/vector/neon.rs:277-287`,
`src/vector/mod.rs:262-277`) -/
def Platform.q16i (p : Platform) (simd : SimdArith F) (sar : Arith F) : F → UInt16 :=
  match p with
  | .scalar => sar.q16
  | .avx2 => Avx2.q16 simd
  | .avx512 => Avx2.q16 simd
  | .neon => Neon.q16 simd

end Ezk

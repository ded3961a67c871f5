import Verif.Model.Intrinsics
import Verif.Model.Formats

/-!
# The SIMD backends

`src/vector/avx2.rs`, `src/vector/avx512.rs`, `src/vector/neon.rs`: the lane-crossing and memory operations, instruction
by instruction.  The arithmetic of a lane stays abstract; `cvt` is the float to integer conversion instruction.
The unused 16-bit interleaved operations are in `Model/Wide.lean`.
-/

namespace Ezk
open FOps

variable {F : Type} [FOps F]

/-- Read `n` bytes at `ptr.add(off)` where `ptr = s.as_ptr()`. (`src/vector/avx2.rs:105-111`) -/
def rawReadAt (m : Mem) (s : Slice) (off n : Nat) : Exec (Fin n → UInt8) :=
  if off + n ≤ s.len then .ok (fun i => m (s.addr + off + i)) else .error .ub

/-- Write a `[u16; n]` through a raw pointer (little-endian).
(`src/vector/avx2.rs:184-192`, `src/vector/avx512.rs:185-193`) -/
def rawWriteU16 {n : Nat} (m : Mem) (s : Slice) (v : Fin n → UInt16) : Exec Mem :=
  rawWrite m s (2 * n) fun i => u16byte (v ⟨i / 2, by omega⟩) (i % 2)

/-- The arithmetic of a SIMD lane apart from the stores, and the conversion used by the stores.
(`src/vector/mod.rs:22-79`) -/
structure SimdArith (F : Type) where
  add : F → F → F
  sub : F → F → F
  mul : F → F → F
  div : F → F → F
  max : F → F → F
  pow : F → F → F
  sqrt : F → F
  ln : F → F
  lt : F → F → Bool
  le : F → F → Bool
  /-- x86: `_mm256_cvtps_epi32`/`_mm512_cvtps_epi32`, round to nearest even; out of range gives −2³¹. -/
  cvt : F → Int
  /-- NEON: `vcvtq_u32_f32`, truncation with saturation. -/
  cvtU : F → UInt32

/-- The arithmetic of a lane, including its stores. (`src/vector/mod.rs:22-121`) -/
def SimdArith.toArith (a : SimdArith F) (q8 q8i : F → UInt8) (q16 : F → UInt16) : Arith F :=
  ⟨a.add, a.sub, a.mul, a.div, a.max, a.pow, a.sqrt, a.ln, a.lt, a.le, q8, q8i, q16⟩

namespace Avx2
variable (a : SimdArith F)

/-- The 8-bit stores: `cvtps_epi32`, `packus_epi32`, `packus_epi16`.
(`src/vector/avx2.rs:284-294`, `src/vector/avx2.rs:308-317`) -/
def q8 (x : F) : UInt8 := packus16 (packus32 (a.cvt x))
/-- The 16-bit stores: `cvtps_epi32`, `packus_epi32`. (`src/vector/avx2.rs:297-305`, `src/vector/avx2.rs:320-330`) -/
def q16 (x : F) : UInt16 := packus32 (a.cvt x)

/-- `zip`, `src/vector/avx2.rs:67-75`. -/
def zip (x y : Fin 8 → F) : (Fin 8 → F) × (Fin 8 → F) :=
  let lo := mm256_unpacklo_ps x y
  let hi := mm256_unpackhi_ps x y
  (mm256_permute2f128_ps lo hi 0b100000, mm256_permute2f128_ps lo hi 0b110001)

/-- `unzip`, `src/vector/avx2.rs:78-86`. -/
def unzip (x y : Fin 8 → F) : (Fin 8 → F) × (Fin 8 → F) :=
  let lo := mm256_shuffle_ps x y 0b10001000
  let lo := mm256_permute4x64 lo 0b11011000
  let hi := mm256_shuffle_ps x y 0b11011101
  let hi := mm256_permute4x64 hi 0b11011000
  (lo, hi)

/-- `load_u8` at `ptr.add(off)`, `src/vector/avx2.rs:89-93`: reads an `i64`, i.e. 8 bytes; `_mm256_cvtepu8_epi32` takes
the low 8 bytes of the broadcast. -/
def loadU8At (m : Mem) (s : Slice) (off : Nat) : Exec (Fin 8 → F) := do
  let b ← rawReadAt m s off 8
  return fun i => ofNat (b i).toNat

/-- `load_u16`, `src/vector/avx2.rs:96-100`: reads 16 bytes. -/
def loadU16 (m : Mem) (s : Slice) : Exec (Fin 8 → F) := do
  let b ← rawReadAt m s 0 16
  return fun i => ofNat (u16le (b ⟨2 * i, by omega⟩) (b ⟨2 * i + 1, by omega⟩))

/-- `deinterleave_3x`, `src/vector/avx2.rs:237-250`. -/
def deinterleave3x (m1 m2 m3 : Fin 8 → F) : (Fin 8 → F) × (Fin 8 → F) × (Fin 8 → F) :=
  (setr8 (m1 0) (m1 3) (m1 6) (m2 1) (m2 4) (m2 7) (m3 2) (m3 5),
   setr8 (m1 1) (m1 4) (m1 7) (m2 2) (m2 5) (m3 0) (m3 3) (m3 6),
   setr8 (m1 2) (m1 5) (m2 0) (m2 3) (m2 6) (m3 1) (m3 4) (m3 7))

/-- `load_u8_3x_interleaved_2x`, `inner`, `src/vector/avx2.rs:105-111`. -/
def load3xInner (m : Mem) (s : Slice) (off : Nat) : Exec ((Fin 8 → F) × (Fin 8 → F) × (Fin 8 → F)) := do
  let m1 ← loadU8At m s off
  let m2 ← loadU8At m s (off + 8)
  let m3 ← loadU8At m s (off + 8 * 2)
  return deinterleave3x m1 m2 m3

/-- The three components as a function. (the tuples of `src/vector/avx2.rs:237-250`) -/
def pick3 {α : Type} (t : α × α × α) : Fin 3 → α := fun c => match c with | 0 => t.1 | 1 => t.2.1 | 2 => t.2.2

/-- The four components as a function. (the tuples of `src/vector/avx2.rs:253-281`) -/
def pick4 {α : Type} (t : α × α × α × α) : Fin 4 → α := fun c =>
  match c with | 0 => t.1 | 1 => t.2.1 | 2 => t.2.2.1 | 3 => t.2.2.2

/-- `load_u8_3x_interleaved_2x`, `src/vector/avx2.rs:103-117`. -/
def loadU8x3 (m : Mem) (s : Slice) : Exec (Fin 2 → Fin 3 → Fin 8 → F) := do
  let l ← load3xInner m s 0
  let h ← load3xInner m s (8 * 3)
  return fun k c => match k with | 0 => pick3 l c | 1 => pick3 h c

/-- `deinterleave_4x`, `src/vector/avx2.rs:253-281`. (`_mm256_set_epi32` lists the last element first.) -/
def deinterleave4x (m1 m2 m3 m4 : Fin 8 → F) : (Fin 8 → F) × (Fin 8 → F) × (Fin 8 → F) × (Fin 8 → F) :=
  let v1 := mm256_unpacklo_ps m1 m2
  let v2 := mm256_unpacklo_ps m3 m4
  let v3 := mm256_unpackhi_ps m1 m2
  let v4 := mm256_unpackhi_ps m3 m4
  let a := mm256_unpacklo_ps v1 v2
  let b := mm256_unpackhi_ps v1 v2
  let c := mm256_unpacklo_ps v3 v4
  let d := mm256_unpackhi_ps v3 v4
  let idx := setr8 0 4 2 6 1 5 3 7
  (mm256_permutevar8x32_ps a idx, mm256_permutevar8x32_ps b idx, mm256_permutevar8x32_ps c idx,
   mm256_permutevar8x32_ps d idx)

/-- `load_u8_4x_interleaved_2x`, `inner`, `src/vector/avx2.rs:139-146`. -/
def load4xInner (m : Mem) (s : Slice) (off : Nat) : Exec ((Fin 8 → F) × (Fin 8 → F) × (Fin 8 → F) × (Fin 8 → F)) := do
  let m1 ← loadU8At m s off
  let m2 ← loadU8At m s (off + 8)
  let m3 ← loadU8At m s (off + 8 * 2)
  let m4 ← loadU8At m s (off + 8 * 3)
  return deinterleave4x m1 m2 m3 m4

/-- `load_u8_4x_interleaved_2x`, `src/vector/avx2.rs:137-152`. -/
def loadU8x4 (m : Mem) (s : Slice) : Exec (Fin 2 → Fin 4 → Fin 8 → F) := do
  let l ← load4xInner m s 0
  let h ← load4xInner m s (8 * 4)
  return fun k c => match k with | 0 => pick4 l c | 1 => pick4 h c

/-- `_mm256_cvtps_epi32`. (used at `src/vector/avx2.rs:285, 286`) -/
def cvtps (v : Fin 8 → F) : Fin 8 → Int := fun i => a.cvt (v i)

/-- `f32x8x2_to_u8x16`, `src/vector/avx2.rs:284-294`. -/
def f32x8x2_to_u8x16 (l h : Fin 8 → F) : Fin 16 → UInt8 :=
  let v := mm256_packus_epi32 (cvtps a l) (cvtps a h)
  let v := mm256_packus_epi16 v v
  let v := mm256_permutevar8x32_u8 v (setr8 0 4 3 5 0 4 3 5)
  -- `_mm256_castsi256_si128`
  fun i => v ⟨i, by omega⟩

/-- `f32x8x2_to_u16x16`, `src/vector/avx2.rs:297-305`. -/
def f32x8x2_to_u16x16 (l h : Fin 8 → F) : Fin 16 → UInt16 :=
  let v := mm256_packus_epi32 (cvtps a l) (cvtps a h)
  mm256_permutevar8x32_u16 v (setr8 0 1 4 5 2 3 6 7)

/-- `f32x8_to_u8x8`, `src/vector/avx2.rs:308-317`: `_mm256_extract_epi32` of elements 0 and 4. -/
def f32x8_to_u8x8 (v : Fin 8 → F) : Fin 8 → UInt8 :=
  let v := mm256_packus_epi32 (cvtps a v) (cvtps a v)
  let v := mm256_packus_epi16 v v
  fun i => if i.val < 4 then v ⟨i, by omega⟩ else v ⟨16 + i % 4, by omega⟩

/-- `f32x8_to_u16x8`, `src/vector/avx2.rs:320-330`: `_mm256_extract_epi64` of elements 0 and 2. -/
def f32x8_to_u16x8 (v : Fin 8 → F) : Fin 8 → UInt16 :=
  let v := mm256_packus_epi32 (cvtps a v) (cvtps a v)
  fun i => if i.val < 4 then v ⟨i, by omega⟩ else v ⟨8 + i % 4, by omega⟩

/-- `interleave_f32x8x4_to_u16x32`, `src/vector/avx2.rs:340-358`. -/
def interleave4_u16 (r g b al : Fin 8 → F) : (Fin 16 → UInt16) × (Fin 16 → UInt16) :=
  let rb := mm256_packus_epi32 (cvtps a r) (cvtps a b)
  let ga := mm256_packus_epi32 (cvtps a g) (cvtps a al)
  let lo := mm256_unpacklo_epi16 rb ga
  let hi := mm256_unpackhi_epi16 rb ga
  (mm256_unpacklo_epi32 lo hi, mm256_unpackhi_epi32 lo hi)

/-- `interleave_f32x8x4_to_u8x32`, `src/vector/avx2.rs:333-337`. -/
def interleave4_u8 (r g b al : Fin 8 → F) : Fin 32 → UInt8 :=
  let p := interleave4_u16 a r g b al
  mm256_packus_epi16 p.1 p.2

/-- The index of `_mm256_shuffle_epi8` in `interleave_f32x8x3_to_u8x24`, `src/vector/avx2.rs:365-376`. -/
def idx3 : Fin 32 → Option (Fin 16) := fun i =>
  match (⟨i % 16, by omega⟩ : Fin 16) with
  | 0 => some 0 | 1 => some 1 | 2 => some 2
  | 3 => some 4 | 4 => some 5 | 5 => some 6
  | 6 => some 8 | 7 => some 9 | 8 => some 10
  | 9 => some 12 | 10 => some 13 | 11 => some 14
  | _ => none

/-- `interleave_f32x8x3_to_u8x24`, `src/vector/avx2.rs:361-384`: drops the fourth 32-bit element of each half. -/
def interleave3_u8 (r g b : Fin 8 → F) : Fin 24 → UInt8 :=
  let rgb := interleave4_u8 a r g b (fun _ => lit 0)
  let rgb := mm256_shuffle_epi8 rgb idx3
  fun i => if h : i.val < 12 then rgb ⟨i, by omega⟩ else rgb ⟨16 + (i - 12), by omega⟩

/-- `impl Vector for __m256`, `src/vector/avx2.rs:5-234`. -/
def backend : Backend F where
  LEN := 8
  pos := by decide
  ar := a.toArith (q8 a) (q8 a) (q16 a)
  zip := zip
  unzip := unzip
  loadU8 m s := loadU8At m s 0
  loadU16 := loadU16
  loadU8x3 := loadU8x3
  loadU8x4 := loadU8x4
  writeU8 v m s := rawWrite m s 8 (f32x8_to_u8x8 a v)
  writeU8_2x v0 v1 m s := rawWrite m s 16 (f32x8x2_to_u8x16 a v0 v1)
  writeU16 v m s := rawWriteU16 m s (f32x8_to_u16x8 a v)
  writeU16_2x v0 v1 m s := rawWriteU16 m s (f32x8x2_to_u16x16 a v0 v1)
  writeU8x3 v m s :=
    rawWrite m s 48 (arr2 (interleave3_u8 a (v 0 0) (v 0 1) (v 0 2)) (interleave3_u8 a (v 1 0) (v 1 1) (v 1 2)))
  writeU8x4 v m s :=
    rawWrite m s 64
      (arr2 (interleave4_u8 a (v 0 0) (v 0 1) (v 0 2) (v 0 3)) (interleave4_u8 a (v 1 0) (v 1 1) (v 1 2) (v 1 3)))

end Avx2

namespace Avx512
variable (a : SimdArith F)

/-- The planar 8-bit stores: `cvtps_epi32`, `cvtepi32_epi8` (truncating).
(`src/vector/avx512.rs:298-306`, `src/vector/avx512.rs:320-322`) -/
def q8 (x : F) : UInt8 := truncate8 (a.cvt x)
/-- The interleaved 8-bit stores: `cvtps_epi32`, `packus_epi32`, `packus_epi16`. (`src/vector/avx512.rs:330-365`) -/
def q8i (x : F) : UInt8 := packus16 (packus32 (a.cvt x))
/-- The 16-bit stores: `cvtps_epi32`, `cvtepi32_epi16` (truncating).
(`src/vector/avx512.rs:309-317`, `src/vector/avx512.rs:325-327`) -/
def q16 (x : F) : UInt16 := truncate16 (a.cvt x)

/-- `zip`, `src/vector/avx512.rs:67-75`. -/
def zip (x y : Fin 16 → F) : (Fin 16 → F) × (Fin 16 → F) :=
  (mm512_permutex2var_ps x (setr16 0 16 1 17 2 18 3 19 4 20 5 21 6 22 7 23) y,
   mm512_permutex2var_ps x (setr16 8 24 9 25 10 26 11 27 12 28 13 29 14 30 15 31) y)

/-- `unzip`, `src/vector/avx512.rs:78-86`. -/
def unzip (x y : Fin 16 → F) : (Fin 16 → F) × (Fin 16 → F) :=
  (mm512_permutex2var_ps x (setr16 0 2 4 6 8 10 12 14 16 18 20 22 24 26 28 30) y,
   mm512_permutex2var_ps x (setr16 1 3 5 7 9 11 13 15 17 19 21 23 25 27 29 31) y)

/-- `load_u8` at `ptr.add(off)`, `src/vector/avx512.rs:89-93`. -/
def loadU8At (m : Mem) (s : Slice) (off : Nat) : Exec (Fin 16 → F) := do
  let b ← rawReadAt m s off 16
  return fun i => ofNat (b i).toNat

/-- `load_u16`, `src/vector/avx512.rs:96-100`. -/
def loadU16 (m : Mem) (s : Slice) : Exec (Fin 16 → F) := do
  let b ← rawReadAt m s 0 32
  return fun i => ofNat (u16le (b ⟨2 * i, by omega⟩) (b ⟨2 * i + 1, by omega⟩))

/-- `deinterleave_3x`, `src/vector/avx512.rs:239-268`. -/
def deinterleave3x (m1 m2 m3 : Fin 16 → F) : (Fin 16 → F) × (Fin 16 → F) × (Fin 16 → F) :=
  let r := mm512_permutex2var_ps m1 (setr16 0 3 6 9 12 15 18 21 24 27 30 0 0 0 0 0) m2
  let r := mm512_permutex2var_ps r (setr16 0 1 2 3 4 5 6 7 8 9 10 17 20 23 26 29) m3
  let g := mm512_permutex2var_ps m1 (setr16 1 4 7 10 13 16 19 22 25 28 31 0 0 0 0 0) m2
  let g := mm512_permutex2var_ps g (setr16 0 1 2 3 4 5 6 7 8 9 10 18 21 24 27 30) m3
  let b := mm512_permutex2var_ps m1 (setr16 2 5 8 11 14 17 20 23 26 29 0 0 0 0 0 0) m2
  let b := mm512_permutex2var_ps b (setr16 0 1 2 3 4 5 6 7 8 9 16 19 22 25 28 31) m3
  (r, g, b)

/-- `load_u8_3x_interleaved_2x`, `inner`, `src/vector/avx512.rs:105-111`. -/
def load3xInner (m : Mem) (s : Slice) (off : Nat) : Exec ((Fin 16 → F) × (Fin 16 → F) × (Fin 16 → F)) := do
  let m1 ← loadU8At m s off
  let m2 ← loadU8At m s (off + 16)
  let m3 ← loadU8At m s (off + 16 * 2)
  return deinterleave3x m1 m2 m3

/-- `load_u8_3x_interleaved_2x`, `src/vector/avx512.rs:103-117`. -/
def loadU8x3 (m : Mem) (s : Slice) : Exec (Fin 2 → Fin 3 → Fin 16 → F) := do
  let l ← load3xInner m s 0
  let h ← load3xInner m s (16 * 3)
  return fun k c => match k with | 0 => Avx2.pick3 l c | 1 => Avx2.pick3 h c

/-- `deinterleave_4x`, `src/vector/avx512.rs:271-295`. -/
def deinterleave4x (m1 m2 m3 m4 : Fin 16 → F) : (Fin 16 → F) × (Fin 16 → F) × (Fin 16 → F) × (Fin 16 → F) :=
  let v1 := mm512_unpacklo_ps m1 m2
  let v2 := mm512_unpacklo_ps m3 m4
  let v3 := mm512_unpackhi_ps m1 m2
  let v4 := mm512_unpackhi_ps m3 m4
  let r := mm512_unpacklo_ps v1 v2
  let g := mm512_unpackhi_ps v1 v2
  let b := mm512_unpacklo_ps v3 v4
  let al := mm512_unpackhi_ps v3 v4
  let idx := setr16 0 4 8 12 2 6 10 14 1 5 9 13 3 7 11 15
  (mm512_permutexvar_ps idx r, mm512_permutexvar_ps idx g, mm512_permutexvar_ps idx b, mm512_permutexvar_ps idx al)

/-- `load_u8_4x_interleaved_2x`, `inner`, `src/vector/avx512.rs:139-146`. -/
def load4xInner (m : Mem) (s : Slice) (off : Nat) :
    Exec ((Fin 16 → F) × (Fin 16 → F) × (Fin 16 → F) × (Fin 16 → F)) := do
  let m1 ← loadU8At m s off
  let m2 ← loadU8At m s (off + 16)
  let m3 ← loadU8At m s (off + 16 * 2)
  let m4 ← loadU8At m s (off + 16 * 3)
  return deinterleave4x m1 m2 m3 m4

/-- `load_u8_4x_interleaved_2x`, `src/vector/avx512.rs:137-152`. -/
def loadU8x4 (m : Mem) (s : Slice) : Exec (Fin 2 → Fin 4 → Fin 16 → F) := do
  let l ← load4xInner m s 0
  let h ← load4xInner m s (16 * 4)
  return fun k c => match k with | 0 => Avx2.pick4 l c | 1 => Avx2.pick4 h c

/-- `_mm512_cvtps_epi32`. (used at `src/vector/avx512.rs:299, 300`) -/
def cvtps (v : Fin 16 → F) : Fin 16 → Int := fun i => a.cvt (v i)

/-- `f32x16_to_u8x16`, `src/vector/avx512.rs:320-322`: `_mm512_cvtepi32_epi8` narrows each element. -/
def f32x16_to_u8x16 (v : Fin 16 → F) : Fin 16 → UInt8 := fun i => truncate8 (cvtps a v i)

/-- `f32x16_to_u16x16`, `src/vector/avx512.rs:325-327`. -/
def f32x16_to_u16x16 (v : Fin 16 → F) : Fin 16 → UInt16 := fun i => truncate16 (cvtps a v i)

/-- `f32x16x2_to_u8x32`, `src/vector/avx512.rs:298-306`. -/
def f32x16x2_to_u8x32 (l h : Fin 16 → F) : Fin 32 → UInt8 := arr2 (f32x16_to_u8x16 a l) (f32x16_to_u8x16 a h)

/-- `f32x16x2_to_u16x32`, `src/vector/avx512.rs:309-317`. -/
def f32x16x2_to_u16x32 (l h : Fin 16 → F) : Fin 32 → UInt16 := arr2 (f32x16_to_u16x16 a l) (f32x16_to_u16x16 a h)

/-- `interleave_f32x16x4_to_u16x64`, `src/vector/avx512.rs:342-365`. -/
def interleave4_u16 (r g b al : Fin 16 → F) : (Fin 32 → UInt16) × (Fin 32 → UInt16) :=
  let rb := mm512_packus_epi32 (cvtps a r) (cvtps a b)
  let ga := mm512_packus_epi32 (cvtps a g) (cvtps a al)
  let lo := mm512_unpacklo_epi16 rb ga
  let hi := mm512_unpackhi_epi16 rb ga
  (mm512_unpacklo_epi32 lo hi, mm512_unpackhi_epi32 lo hi)

/-- `interleave_f32x16x4_to_u8x64`, `src/vector/avx512.rs:330-339`. -/
def interleave4_u8 (r g b al : Fin 16 → F) : Fin 64 → UInt8 :=
  let p := interleave4_u16 a r g b al
  mm512_packus_epi16 p.1 p.2

/-- The index of `_mm512_shuffle_epi8` in `interleave_f32x16x3_to_u8x48`, `src/vector/avx512.rs:372-393`. (`_mm512_set_epi8`
lists the last element first.) -/
def idx3 : Fin 64 → Option (Fin 16) := fun i =>
  match (⟨i % 16, by omega⟩ : Fin 16) with
  | 0 => some 0 | 1 => some 1 | 2 => some 2
  | 3 => some 4 | 4 => some 5 | 5 => some 6
  | 6 => some 8 | 7 => some 9 | 8 => some 10
  | 9 => some 12 | 10 => some 13 | 11 => some 14
  | _ => none

/-- `interleave_f32x16x3_to_u8x48`, `src/vector/avx512.rs:368-400`: drops the fourth 32-bit element of each quarter. -/
def interleave3_u8 (r g b : Fin 16 → F) : Fin 48 → UInt8 :=
  let rgb := interleave4_u8 a r g b (fun _ => lit 0)
  let rgb := mm512_shuffle_epi8 rgb idx3
  fun i => rgb ⟨i / 12 * 16 + i % 12, by omega⟩

/-- `impl Vector for __m512`, `src/vector/avx512.rs:5-236`. -/
def backend : Backend F where
  LEN := 16
  pos := by decide
  ar := a.toArith (q8 a) (q8i a) (q16 a)
  zip := zip
  unzip := unzip
  loadU8 m s := loadU8At m s 0
  loadU16 := loadU16
  loadU8x3 := loadU8x3
  loadU8x4 := loadU8x4
  writeU8 v m s := rawWrite m s 16 (f32x16_to_u8x16 a v)
  writeU8_2x v0 v1 m s := rawWrite m s 32 (f32x16x2_to_u8x32 a v0 v1)
  writeU16 v m s := rawWriteU16 m s (f32x16_to_u16x16 a v)
  writeU16_2x v0 v1 m s := rawWriteU16 m s (f32x16x2_to_u16x32 a v0 v1)
  writeU8x3 v m s :=
    rawWrite m s 96 (arr2 (interleave3_u8 a (v 0 0) (v 0 1) (v 0 2)) (interleave3_u8 a (v 1 0) (v 1 1) (v 1 2)))
  writeU8x4 v m s :=
    rawWrite m s 128
      (arr2 (interleave4_u8 a (v 0 0) (v 0 1) (v 0 2) (v 0 3)) (interleave4_u8 a (v 1 0) (v 1 1) (v 1 2) (v 1 3)))

end Avx512

namespace Neon
variable (a : SimdArith F)

/-- The 8-bit stores: `vcvtq_u32_f32`, `vminq_u32` with 255, `vmovn_u32`, `vmovn_u16`.
(`src/vector/neon.rs:262-274`, `src/vector/neon.rs:290-300`) -/
def q8 (x : F) : UInt8 := (if a.cvtU x ≤ 255 then a.cvtU x else 255).toUInt16.toUInt8
/-- The 16-bit stores: `vcvtq_u32_f32`, `vminq_u32` with 65535, `vmovn_u32`.
(`src/vector/neon.rs:277-287`, `src/vector/neon.rs:303-309`) -/
def q16 (x : F) : UInt16 := (if a.cvtU x ≤ 65535 then a.cvtU x else 65535).toUInt16

/-- `vcvtq_f32_u32`. (used at `src/vector/neon.rs:85, 93`) -/
def vcvtq_f32_u32 (v : Fin 4 → UInt32) : Fin 4 → F := fun i => ofNat (v i).toNat
/-- `vcvtq_u32_f32`. (used at `src/vector/neon.rs:263, 267`) -/
def vcvtq_u32_f32 (v : Fin 4 → F) : Fin 4 → UInt32 := fun i => a.cvtU (v i)

/-- `load_u8`, `src/vector/neon.rs:80-86`. -/
def loadU8 (m : Mem) (s : Slice) : Exec (Fin 4 → F) := do
  let v ← rawReadAt m s 0 4
  let v := vmovl_u8 (arr2 v v)
  let v := vmovl_high_u16 v
  return vcvtq_f32_u32 v

/-- `load_u16`, `src/vector/neon.rs:89-94`. -/
def loadU16 (m : Mem) (s : Slice) : Exec (Fin 4 → F) := do
  let b ← rawReadAt m s 0 8
  let v : Fin 4 → UInt16 := fun i => UInt16.ofNat (u16le (b ⟨2 * i, by omega⟩) (b ⟨2 * i + 1, by omega⟩))
  return vcvtq_f32_u32 (vmovl_u16 v)

/-- One lane register to its low and high half as floats, `src/vector/neon.rs:102-104`. -/
def widen (r : Fin 8 → UInt8) (k : Fin 2) : Fin 4 → F :=
  let r := vmovl_u8 r
  match k with
  | 0 => vcvtq_f32_u32 (vmovl_u16 (vget_low_u16 r))
  | 1 => vcvtq_f32_u32 (vmovl_u16 (vget_high_u16 r))

/-- `load_u8_3x_interleaved_2x`, `src/vector/neon.rs:97-115`. -/
def loadU8x3 (m : Mem) (s : Slice) : Exec (Fin 2 → Fin 3 → Fin 4 → F) := do
  let b ← rawReadAt m s 0 24
  return fun k c => widen (vld3_u8 b c) k

/-- `load_u8_4x_interleaved_2x`, `src/vector/neon.rs:136-158`. -/
def loadU8x4 (m : Mem) (s : Slice) : Exec (Fin 2 → Fin 4 → Fin 4 → F) := do
  let b ← rawReadAt m s 0 32
  return fun k c => widen (vld4_u8 b c) k

/-- `vcvtq_u32_f32`, `vminq_u32`, `vmovn_u32`. (`src/vector/neon.rs:263-265`) -/
def narrow (v : Fin 4 → F) (max : UInt32) : Fin 4 → UInt16 := vmovn_u32 (vminq_u32 (vcvtq_u32_f32 a v) (fun _ => max))

/-- `float32x4x2_to_u8x8`, `src/vector/neon.rs:262-274`. -/
def f32x4x2_to_u8x8 (l h : Fin 4 → F) : Fin 8 → UInt8 := vmovn_u16 (arr2 (narrow a l 255) (narrow a h 255))

/-- `float32x4x2_to_u16x8`, `src/vector/neon.rs:277-287`. -/
def f32x4x2_to_u16x8 (l h : Fin 4 → F) : Fin 8 → UInt16 := arr2 (narrow a l 65535) (narrow a h 65535)

/-- `float32x4_to_u8x4`, `src/vector/neon.rs:290-300`. -/
def f32x4_to_u8x4 (v : Fin 4 → F) : Fin 4 → UInt8 :=
  let i := narrow a v 255
  let v := vmovn_u16 (arr2 i i)
  fun i => v ⟨i, by omega⟩

/-- `float32x4_to_u16x4`, `src/vector/neon.rs:303-309`. -/
def f32x4_to_u16x4 (v : Fin 4 → F) : Fin 4 → UInt16 := narrow a v 65535

/-- `impl Vector for float32x4_t`, `src/vector/neon.rs:6-259`. -/
def backend : Backend F where
  LEN := 4
  pos := by decide
  ar := a.toArith (q8 a) (q8 a) (q16 a)
  zip x y := (vzip1q_f32 x y, vzip2q_f32 x y)
  unzip x y := (vuzp1q_f32 x y, vuzp2q_f32 x y)
  loadU8 := loadU8
  loadU16 := loadU16
  loadU8x3 := loadU8x3
  loadU8x4 := loadU8x4
  writeU8 v m s := rawWrite m s 4 (f32x4_to_u8x4 a v)
  writeU8_2x v0 v1 m s := rawWrite m s 8 (f32x4x2_to_u8x8 a v0 v1)
  writeU16 v m s := rawWriteU16 m s (f32x4_to_u16x4 a v)
  writeU16_2x v0 v1 m s := rawWriteU16 m s (f32x4x2_to_u16x8 a v0 v1)
  writeU8x3 v m s := rawWrite m s 24 (vst3_u8 fun c => f32x4x2_to_u8x8 a (v 0 c) (v 1 c))
  writeU8x4 v m s := rawWrite m s 32 (vst4_u8 fun c => f32x4x2_to_u8x8 a (v 0 c) (v 1 c))

end Neon

/-- The CPU as found by feature detection, `src/formats/visit_2x2.rs:16-69`: AVX-512 (with the crate's `unstable`
feature), AVX2 with FMA, NEON, or none. -/
inductive Platform
  | scalar
  | avx2
  | avx512
  | neon

/-- The vector type selected by `visit`, `src/formats/visit_2x2.rs:16-69`, with the arithmetic of its lanes (`simd`) and of
scalar `f32` code (`sar`). -/
def Platform.cpu (p : Platform) (simd : SimdArith F) (sar : Arith F) : Cpu F :=
  match p with
  | .scalar => ⟨scalarBackend sar, sar⟩
  | .avx2 => ⟨Avx2.backend simd, sar⟩
  | .avx512 => ⟨Avx512.backend simd, sar⟩
  | .neon => ⟨Neon.backend simd, sar⟩

end Ezk

import Verif.Model.Vector

/-!
# The SIMD intrinsics used by the vector backends

A register is a function from element index to element, element 0 being the least significant.  The element type is
the one the code computes with at that point; an intrinsic with wider elements than that (e.g. a 32-bit permutation of
a register holding bytes) is described by its action on the groups of smaller elements, so that no reinterpretation is
needed.  Semantics follow the Intel Intrinsics Guide and the Arm ACLE.  These definitions are part of the trusted base:
they describe hardware, not the crate.
-/

namespace Ezk

variable {α F : Type}

/-! ## Shared by AVX2 and AVX-512 -/

/-- `PACKUSDW` on one element: signed 32-bit to unsigned 16-bit with saturation. (used at `src/vector/avx2.rs:288, 301`) -/
def packus32 (i : Int) : UInt16 := if i < 0 then 0 else if 65535 < i then 65535 else UInt16.ofNat i.toNat

/-- `PACKUSWB` on one element: *signed* 16-bit to unsigned 8-bit with saturation. (used at `src/vector/avx2.rs:289, 311`) -/
def packus16 (v : UInt16) : UInt8 := if 32768 ≤ v.toNat then 0 else if 255 < v.toNat then 255 else UInt8.ofNat v.toNat

/-- `VPMOVDB` on one element: the low byte. (used at `src/vector/avx512.rs:302, 303`) -/
def truncate8 (i : Int) : UInt8 := UInt8.ofNat (i % 256).toNat

/-- `VPMOVDW` on one element: the low 16 bits. (used at `src/vector/avx512.rs:313, 314`) -/
def truncate16 (i : Int) : UInt16 := UInt16.ofNat (i % 65536).toNat

/-- The 2-bit field `k` of an immediate. (used at `src/vector/avx2.rs:79, 80`) -/
def imm2 (imm k : Nat) : Nat := imm / 4 ^ k % 4

theorem imm2_lt (imm k : Nat) : imm2 imm k < 4 := Nat.mod_lt _ (by decide)

/-! ## AVX2: 8 × 32 bit, 16 × 16 bit or 32 × 8 bit -/

/-- `_mm256_unpacklo_ps`: in each 128-bit lane `a₀ b₀ a₁ b₁`. (used at `src/vector/avx2.rs:68, 259`) -/
def mm256_unpacklo_ps (a b : Fin 8 → F) : Fin 8 → F := fun i =>
  let j : Fin 8 := ⟨i / 4 * 4 + i % 4 / 2, by omega⟩
  if i.val % 2 = 0 then a j else b j

/-- `_mm256_unpackhi_ps`: in each 128-bit lane `a₂ b₂ a₃ b₃`. (used at `src/vector/avx2.rs:69, 261`) -/
def mm256_unpackhi_ps (a b : Fin 8 → F) : Fin 8 → F := fun i =>
  let j : Fin 8 := ⟨i / 4 * 4 + 2 + i % 4 / 2, by omega⟩
  if i.val % 2 = 0 then a j else b j

/-- `_mm256_permute2f128_ps` without zeroing: each result lane is one of `a.lo`, `a.hi`, `b.lo`, `b.hi`, selected by bits
0–1 (low lane) and 4–5 (high lane) of the immediate. (used at `src/vector/avx2.rs:72, 73`) -/
def mm256_permute2f128_ps (a b : Fin 8 → F) (imm : Nat) : Fin 8 → F := fun i =>
  let sel := if i.val < 4 then imm2 imm 0 else imm2 imm 2
  let j : Fin 8 := ⟨sel % 2 * 4 + i % 4, by omega⟩
  if sel < 2 then a j else b j

/-- `_mm256_shuffle_ps`: in each 128-bit lane two elements of `a` followed by two elements of `b`.
(used at `src/vector/avx2.rs:79, 82`) -/
def mm256_shuffle_ps (a b : Fin 8 → F) (imm : Nat) : Fin 8 → F := fun i =>
  let j : Fin 8 := ⟨i / 4 * 4 + imm2 imm (i % 4), by have := imm2_lt imm (i % 4); omega⟩
  if i.val % 4 < 2 then a j else b j

/-- `_mm256_permute4x64_epi64` on a register of 32-bit elements: the 64-bit pairs are permuted.
(used at `src/vector/avx2.rs:80, 83`) -/
def mm256_permute4x64 (a : Fin 8 → F) (imm : Nat) : Fin 8 → F := fun i =>
  a ⟨imm2 imm (i / 2) * 2 + i % 2, by have := imm2_lt imm (i / 2); omega⟩

/-- `_mm256_permutevar8x32_ps(a, idx)`. (used at `src/vector/avx2.rs:275, 276`) -/
def mm256_permutevar8x32_ps (a : Fin 8 → F) (idx : Fin 8 → Fin 8) : Fin 8 → F := fun i => a (idx i)

/-- `_mm256_permutevar8x32_epi32(a, idx)` on a register of bytes. (used at `src/vector/avx2.rs:291, 302`) -/
def mm256_permutevar8x32_u8 (a : Fin 32 → α) (idx : Fin 8 → Fin 8) : Fin 32 → α := fun i =>
  a ⟨idx ⟨i / 4, by omega⟩ * 4 + i % 4, by omega⟩

/-- `_mm256_permutevar8x32_epi32(a, idx)` on a register of 16-bit elements. (used at `src/vector/avx2.rs:291, 302`) -/
def mm256_permutevar8x32_u16 (a : Fin 16 → α) (idx : Fin 8 → Fin 8) : Fin 16 → α := fun i =>
  a ⟨idx ⟨i / 2, by omega⟩ * 2 + i % 2, by omega⟩

/-- `_mm256_setr_epi32`: element 0 first. (used at `src/vector/avx2.rs:291, 302`) -/
def setr8 (a b c d e f g h : α) : Fin 8 → α := fun i =>
  match i with
  | 0 => a | 1 => b | 2 => c | 3 => d | 4 => e | 5 => f | 6 => g | 7 => h

/-- `_mm256_packus_epi32`: in each 128-bit lane the four elements of `a`, then the four of `b`.
(used at `src/vector/avx2.rs:288, 301`) -/
def mm256_packus_epi32 (a b : Fin 8 → Int) : Fin 16 → UInt16 := fun i =>
  let j : Fin 8 := ⟨i / 8 * 4 + i % 4, by omega⟩
  packus32 (if i.val % 8 < 4 then a j else b j)

/-- `_mm256_packus_epi16`: in each 128-bit lane the eight elements of `a`, then the eight of `b`.
(used at `src/vector/avx2.rs:289, 311`) -/
def mm256_packus_epi16 (a b : Fin 16 → UInt16) : Fin 32 → UInt8 := fun i =>
  let j : Fin 16 := ⟨i / 16 * 8 + i % 8, by omega⟩
  packus16 (if i.val % 16 < 8 then a j else b j)

/-- `_mm256_unpacklo_epi16`. (used at `src/vector/avx2.rs:349`) -/
def mm256_unpacklo_epi16 (a b : Fin 16 → α) : Fin 16 → α := fun i =>
  let j : Fin 16 := ⟨i / 8 * 8 + i % 8 / 2, by omega⟩
  if i.val % 2 = 0 then a j else b j

/-- `_mm256_unpackhi_epi16`. (used at `src/vector/avx2.rs:350`) -/
def mm256_unpackhi_epi16 (a b : Fin 16 → α) : Fin 16 → α := fun i =>
  let j : Fin 16 := ⟨i / 8 * 8 + 4 + i % 8 / 2, by omega⟩
  if i.val % 2 = 0 then a j else b j

/-- `_mm256_unpacklo_epi32` on registers of 16-bit elements: pairs are interleaved. (used at `src/vector/avx2.rs:353`) -/
def mm256_unpacklo_epi32 (a b : Fin 16 → α) : Fin 16 → α := fun i =>
  let j : Fin 16 := ⟨i / 8 * 8 + i % 8 / 4 * 2 + i % 2, by omega⟩
  if i.val % 4 < 2 then a j else b j

/-- `_mm256_unpackhi_epi32` on registers of 16-bit elements. (used at `src/vector/avx2.rs:354`) -/
def mm256_unpackhi_epi32 (a b : Fin 16 → α) : Fin 16 → α := fun i =>
  let j : Fin 16 := ⟨i / 8 * 8 + 4 + i % 8 / 4 * 2 + i % 2, by omega⟩
  if i.val % 4 < 2 then a j else b j

/-- `_mm256_shuffle_epi8`: in each 128-bit lane byte `idx & 15` of that lane, or 0 where the index is negative
(`none`; the code only uses −128). (used at `src/vector/avx2.rs:378, 399`) -/
def mm256_shuffle_epi8 (a : Fin 32 → UInt8) (idx : Fin 32 → Option (Fin 16)) : Fin 32 → UInt8 := fun i =>
  match idx i with
  | none => 0
  | some k => a ⟨i / 16 * 16 + k, by omega⟩

/-! ## AVX-512: 16 × 32 bit, 32 × 16 bit or 64 × 8 bit -/

/-- `_mm512_permutex2var_ps(a, idx, b)`: element `idx & 15` of `a`, or of `b` where bit 4 is set.
(used at `src/vector/avx512.rs:69, 72`) -/
def mm512_permutex2var_ps (a : Fin 16 → F) (idx : Fin 16 → Fin 32) (b : Fin 16 → F) : Fin 16 → F := fun i =>
  let j : Fin 16 := ⟨idx i % 16, by omega⟩
  if (idx i).val < 16 then a j else b j

/-- `_mm512_permutexvar_ps(idx, a)`. (used at `src/vector/avx512.rs:289, 290`) -/
def mm512_permutexvar_ps (idx : Fin 16 → Fin 16) (a : Fin 16 → F) : Fin 16 → F := fun i => a (idx i)

/-- `_mm512_setr_epi32`: element 0 first. (used at `src/vector/avx512.rs:68, 71`) -/
def setr16 (a b c d e f g h i' j k l m n o p : α) : Fin 16 → α := fun i =>
  match i with
  | 0 => a | 1 => b | 2 => c | 3 => d | 4 => e | 5 => f | 6 => g | 7 => h
  | 8 => i' | 9 => j | 10 => k | 11 => l | 12 => m | 13 => n | 14 => o | _ => p

/-- `_mm512_unpacklo_ps`. (used at `src/vector/avx512.rs:277, 278`) -/
def mm512_unpacklo_ps (a b : Fin 16 → F) : Fin 16 → F := fun i =>
  let j : Fin 16 := ⟨i / 4 * 4 + i % 4 / 2, by omega⟩
  if i.val % 2 = 0 then a j else b j

/-- `_mm512_unpackhi_ps`. (used at `src/vector/avx512.rs:279, 280`) -/
def mm512_unpackhi_ps (a b : Fin 16 → F) : Fin 16 → F := fun i =>
  let j : Fin 16 := ⟨i / 4 * 4 + 2 + i % 4 / 2, by omega⟩
  if i.val % 2 = 0 then a j else b j

/-- `_mm512_packus_epi32`. (used at `src/vector/avx512.rs:353, 354`) -/
def mm512_packus_epi32 (a b : Fin 16 → Int) : Fin 32 → UInt16 := fun i =>
  let j : Fin 16 := ⟨i / 8 * 4 + i % 4, by omega⟩
  packus32 (if i.val % 8 < 4 then a j else b j)

/-- `_mm512_packus_epi16`. (used at `src/vector/avx512.rs:338`) -/
def mm512_packus_epi16 (a b : Fin 32 → UInt16) : Fin 64 → UInt8 := fun i =>
  let j : Fin 32 := ⟨i / 16 * 8 + i % 8, by omega⟩
  packus16 (if i.val % 16 < 8 then a j else b j)

/-- `_mm512_unpacklo_epi16`. (used at `src/vector/avx512.rs:356`) -/
def mm512_unpacklo_epi16 (a b : Fin 32 → α) : Fin 32 → α := fun i =>
  let j : Fin 32 := ⟨i / 8 * 8 + i % 8 / 2, by omega⟩
  if i.val % 2 = 0 then a j else b j

/-- `_mm512_unpackhi_epi16`. (used at `src/vector/avx512.rs:357`) -/
def mm512_unpackhi_epi16 (a b : Fin 32 → α) : Fin 32 → α := fun i =>
  let j : Fin 32 := ⟨i / 8 * 8 + 4 + i % 8 / 2, by omega⟩
  if i.val % 2 = 0 then a j else b j

/-- `_mm512_unpacklo_epi32` on registers of 16-bit elements. (used at `src/vector/avx512.rs:360`) -/
def mm512_unpacklo_epi32 (a b : Fin 32 → α) : Fin 32 → α := fun i =>
  let j : Fin 32 := ⟨i / 8 * 8 + i % 8 / 4 * 2 + i % 2, by omega⟩
  if i.val % 4 < 2 then a j else b j

/-- `_mm512_unpackhi_epi32` on registers of 16-bit elements. (used at `src/vector/avx512.rs:361`) -/
def mm512_unpackhi_epi32 (a b : Fin 32 → α) : Fin 32 → α := fun i =>
  let j : Fin 32 := ⟨i / 8 * 8 + 4 + i % 8 / 4 * 2 + i % 2, by omega⟩
  if i.val % 4 < 2 then a j else b j

/-- `_mm512_shuffle_epi8`, like `mm256_shuffle_epi8`. (used at `src/vector/avx512.rs:395, 416`) -/
def mm512_shuffle_epi8 (a : Fin 64 → UInt8) (idx : Fin 64 → Option (Fin 16)) : Fin 64 → UInt8 := fun i =>
  match idx i with
  | none => 0
  | some k => a ⟨i / 16 * 16 + k, by omega⟩

/-! ## NEON: 4 × 32 bit, 8 × 16 bit, 8 × 8 bit -/

/-- `vzip1q_f32`. (used at `src/vector/neon.rs:65`) -/
def vzip1q_f32 (a b : Fin 4 → F) : Fin 4 → F := fun i => if i.val % 2 = 0 then a ⟨i / 2, by omega⟩ else b ⟨i / 2, by omega⟩
/-- `vzip2q_f32`. (used at `src/vector/neon.rs:66`) -/
def vzip2q_f32 (a b : Fin 4 → F) : Fin 4 → F := fun i =>
  if i.val % 2 = 0 then a ⟨2 + i / 2, by omega⟩ else b ⟨2 + i / 2, by omega⟩
/-- `vuzp1q_f32`. (used at `src/vector/neon.rs:73`) -/
def vuzp1q_f32 (a b : Fin 4 → F) : Fin 4 → F := fun i =>
  if h : i.val < 2 then a ⟨2 * i, by omega⟩ else b ⟨2 * (i - 2), by omega⟩
/-- `vuzp2q_f32`. (used at `src/vector/neon.rs:74`) -/
def vuzp2q_f32 (a b : Fin 4 → F) : Fin 4 → F := fun i =>
  if h : i.val < 2 then a ⟨2 * i + 1, by omega⟩ else b ⟨2 * (i - 2) + 1, by omega⟩
/-- `vmovl_u8`: zero extension to 16 bits. (used at `src/vector/neon.rs:82, 102`) -/
def vmovl_u8 (a : Fin 8 → UInt8) : Fin 8 → UInt16 := fun i => (a i).toUInt16
/-- `vget_low_u16`. (used at `src/vector/neon.rs:103, 107`) -/
def vget_low_u16 (a : Fin 8 → UInt16) : Fin 4 → UInt16 := fun i => a ⟨i, by omega⟩
/-- `vget_high_u16`. (used at `src/vector/neon.rs:104, 108`) -/
def vget_high_u16 (a : Fin 8 → UInt16) : Fin 4 → UInt16 := fun i => a ⟨4 + i, by omega⟩
/-- `vmovl_u16`: zero extension to 32 bits. (used at `src/vector/neon.rs:91, 103`) -/
def vmovl_u16 (a : Fin 4 → UInt16) : Fin 4 → UInt32 := fun i => (a i).toUInt32
/-- `vmovl_high_u16`. (used at `src/vector/neon.rs:83`) -/
def vmovl_high_u16 (a : Fin 8 → UInt16) : Fin 4 → UInt32 := vmovl_u16 (vget_high_u16 a)
/-- `vminq_u32`. (used at `src/vector/neon.rs:264, 268`) -/
def vminq_u32 (a b : Fin 4 → UInt32) : Fin 4 → UInt32 := fun i => if a i ≤ b i then a i else b i
/-- `vmovn_u32`: the low half of each element. (used at `src/vector/neon.rs:265, 269`) -/
def vmovn_u32 (a : Fin 4 → UInt32) : Fin 4 → UInt16 := fun i => (a i).toUInt16
/-- `vmovn_u16`. (used at `src/vector/neon.rs:273, 297`) -/
def vmovn_u16 (a : Fin 8 → UInt16) : Fin 8 → UInt8 := fun i => (a i).toUInt8
/-- `vld3_u8` on the 24 bytes at the pointer: element `i` of register `c` is byte `3i + c`.
(used at `src/vector/neon.rs:98`) -/
def vld3_u8 (p : Fin 24 → UInt8) : Fin 3 → Fin 8 → UInt8 := fun c i => p ⟨3 * i + c, by omega⟩
/-- `vld4_u8`. (used at `src/vector/neon.rs:137`) -/
def vld4_u8 (p : Fin 32 → UInt8) : Fin 4 → Fin 8 → UInt8 := fun c i => p ⟨4 * i + c, by omega⟩
/-- The 24 bytes stored by `vst3_u8`. (used at `src/vector/neon.rs:213`) -/
def vst3_u8 (v : Fin 3 → Fin 8 → UInt8) : Fin 24 → UInt8 := fun j => v ⟨j % 3, by omega⟩ ⟨j / 3, by omega⟩
/-- The 32 bytes stored by `vst4_u8`. (used at `src/vector/neon.rs:236`) -/
def vst4_u8 (v : Fin 4 → Fin 8 → UInt8) : Fin 32 → UInt8 := fun j => v ⟨j % 4, by omega⟩ ⟨j / 4, by omega⟩

/-- Two registers (or arrays) one after the other, as `transmute` of an array of two.
(used at `src/vector/avx2.rs:3, 241`) -/
def arr2 {n : Nat} (a b : Fin n → α) : Fin (2 * n) → α := fun i => if h : i.val < n then a ⟨i, h⟩ else b ⟨i - n, by omega⟩

end Ezk

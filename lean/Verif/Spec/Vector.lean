import Verif.Model.Vector

/-!
# What a vector backend has to do

The contract of `trait Vector` (`src/vector/mod.rs:22-128`) for the operations that move data between lanes or between
lanes and memory.  Arithmetic is lane-wise by construction of the model.
-/

namespace Ezk
open FOps

variable {F : Type} [FOps F]

/-- The sequence `a₀ b₀ a₁ b₁ …`. -/
def interleave {n : Nat} (a b : Vec n F) (j : Nat) (h : j < 2 * n) : F :=
  if j % 2 = 0 then a ⟨j / 2, by omega⟩ else b ⟨j / 2, by omega⟩

/-- The sequence `a₀ … aₙ₋₁ b₀ … bₙ₋₁`. -/
def concat {α : Type} {n : Nat} (a b : Fin n → α) (j : Nat) (h : j < 2 * n) : α :=
  if hj : j < n then a ⟨j, hj⟩ else b ⟨j - n, by omega⟩

/-- The contract of a vector implementation. -/
structure Backend.Lawful (B : Backend F) : Prop where
  /-- `zip` interleaves; the first result holds the first half of the sequence. -/
  zip_fst : ∀ a b (i : Fin B.LEN), (B.zip a b).1 i = interleave a b i (by omega)
  zip_snd : ∀ a b (i : Fin B.LEN), (B.zip a b).2 i = interleave a b (B.LEN + i) (by omega)
  /-- `unzip` separates even from odd positions of the concatenation. -/
  unzip_fst : ∀ a b (i : Fin B.LEN), (B.unzip a b).1 i = concat a b (2 * i) (by omega)
  unzip_snd : ∀ a b (i : Fin B.LEN), (B.unzip a b).2 i = concat a b (2 * i + 1) (by omega)
  /-- `load_u8` reads exactly `LEN` bytes, byte `i` into lane `i`. -/
  loadU8 : ∀ m (s : Slice), B.loadU8 m s =
    if B.LEN ≤ s.len then .ok (fun i => ofNat (m (s.addr + i)).toNat) else .error .ub
  /-- `load_u16` reads exactly `LEN` little-endian 16-bit values. -/
  loadU16 : ∀ m (s : Slice), B.loadU16 m s =
    if 2 * B.LEN ≤ s.len then
      .ok (fun i => ofNat ((m (s.addr + 2 * i)).toNat + 256 * (m (s.addr + 2 * i + 1)).toNat))
    else .error .ub
  /-- The interleaved loads read `2·LEN` pixels of 3 (4) bytes: pixel `k·LEN + i`, channel `c`. -/
  loadU8x3 : ∀ m (s : Slice), B.loadU8x3 m s =
    if 6 * B.LEN ≤ s.len then
      .ok (fun k c i => ofNat (m (s.addr + (3 * (k * B.LEN + i) + c))).toNat)
    else .error .ub
  loadU8x4 : ∀ m (s : Slice), B.loadU8x4 m s =
    if 8 * B.LEN ≤ s.len then
      .ok (fun k c i => ofNat (m (s.addr + (4 * (k * B.LEN + i) + c))).toNat)
    else .error .ub
  /-- `write_u8` writes exactly `LEN` bytes, lane `i` to byte `i`. -/
  writeU8 : ∀ v m (s : Slice), B.writeU8 v m s =
    if B.LEN ≤ s.len then .ok (m.store s.addr B.LEN fun i => B.ar.q8 (v i)) else .error .ub
  writeU8_2x : ∀ v0 v1 m (s : Slice), B.writeU8_2x v0 v1 m s =
    if 2 * B.LEN ≤ s.len then .ok (m.store s.addr (2 * B.LEN) fun i => B.ar.q8 (concat v0 v1 i i.2))
    else .error .ub
  /-- `write_u16` writes exactly `LEN` little-endian 16-bit values. -/
  writeU16 : ∀ v m (s : Slice), B.writeU16 v m s =
    if 2 * B.LEN ≤ s.len then
      .ok (m.store s.addr (2 * B.LEN) fun i => u16byte (B.ar.q16 (v ⟨i / 2, by omega⟩)) (i % 2))
    else .error .ub
  writeU16_2x : ∀ v0 v1 m (s : Slice), B.writeU16_2x v0 v1 m s =
    if 4 * B.LEN ≤ s.len then
      .ok (m.store s.addr (4 * B.LEN) fun i => u16byte (B.ar.q16 (concat v0 v1 (i / 2) (by omega))) (i % 2))
    else .error .ub
  /-- The interleaved stores write `2·LEN` pixels of 3 (4) bytes. -/
  writeU8x3 : ∀ v m (s : Slice), B.writeU8x3 v m s =
    if 6 * B.LEN ≤ s.len then
      .ok (m.store s.addr (6 * B.LEN) fun j =>
        B.ar.q8i (concat (v 0 ⟨j % 3, by omega⟩) (v 1 ⟨j % 3, by omega⟩) (j / 3) (by omega)))
    else .error .ub
  writeU8x4 : ∀ v m (s : Slice), B.writeU8x4 v m s =
    if 8 * B.LEN ≤ s.len then
      .ok (m.store s.addr (8 * B.LEN) fun j =>
        B.ar.q8i (concat (v 0 ⟨j % 4, by omega⟩) (v 1 ⟨j % 4, by omega⟩) (j / 4) (by omega)))
    else .error .ub

end Ezk

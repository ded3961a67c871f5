import Verif.Model.Wide
import Verif.Spec.Vector

/-!
# What the interleaved operations on 16-bit pixels have to do

The same as those on 8-bit pixels (`Backend.Lawful`), with little-endian 16-bit values for bytes.
-/

namespace Ezk
open FOps

variable {F : Type} [FOps F]

/-- The 16-bit value number `j` at address `a`. -/
def wordAt (m : Mem) (a j : Nat) : Nat := (m (a + 2 * j)).toNat + 256 * (m (a + 2 * j + 1)).toNat

namespace Wide

/-- `2·LEN` pixels of three 16-bit values are loaded: pixel `k·LEN + i`, channel `c`. -/
def Load3 (W : Wide F) : Prop := ∀ m (s : Slice), W.load3 m s =
  if 12 * W.LEN ≤ s.len then .ok (fun k c i => ofNat (wordAt m s.addr (3 * (k * W.LEN + i) + c))) else .error .ub

/-- `2·LEN` pixels of four 16-bit values are loaded. -/
def Load4 (W : Wide F) : Prop := ∀ m (s : Slice), W.load4 m s =
  if 16 * W.LEN ≤ s.len then .ok (fun k c i => ofNat (wordAt m s.addr (4 * (k * W.LEN + i) + c))) else .error .ub

/-- `2·LEN` pixels of three 16-bit values are stored; `q` is the conversion. -/
def Write3 (W : Wide F) (q : F → UInt16) : Prop := ∀ v m (s : Slice), W.write3 v m s =
  if 12 * W.LEN ≤ s.len then
    .ok (m.store s.addr (12 * W.LEN) fun j =>
      u16byte (q (concat (v 0 ⟨j / 2 % 3, by omega⟩) (v 1 ⟨j / 2 % 3, by omega⟩) (j / 6) (by omega))) (j % 2))
  else .error .ub

/-- `2·LEN` pixels of four 16-bit values are stored. -/
def Write4 (W : Wide F) (q : F → UInt16) : Prop := ∀ v m (s : Slice), W.write4 v m s =
  if 16 * W.LEN ≤ s.len then
    .ok (m.store s.addr (16 * W.LEN) fun j =>
      u16byte (q (concat (v 0 ⟨j / 2 % 4, by omega⟩) (v 1 ⟨j / 2 % 4, by omega⟩) (j / 8) (by omega))) (j % 2))
  else .error .ub

/-- The contract of the interleaved operations on 16-bit pixels. -/
structure Lawful (W : Wide F) (q : F → UInt16) : Prop where
  load3 : W.Load3
  load4 : W.Load4
  write3 : W.Write3 q
  write4 : W.Write4 q

end Wide
end Ezk

import Verif.Model.Backends
import Verif.Spec.Vector
import Verif.Proofs.Scalar
import Mathlib.Data.Fintype.Basic
import Mathlib.Tactic.FinCases

namespace Ezk
open FOps
variable {F : Type} [FOps F]

theorem rawReadAt_zero (m : Mem) (s : Slice) (n : Nat) :
    rawReadAt m s 0 n = if n ≤ s.len then .ok (fun i => m (s.addr + i)) else .error .ub := by
  simp [rawReadAt]

theorem arr2_eq {α : Type} {n : Nat} (a b : Fin n → α) (i : Fin (2 * n)) : arr2 a b i = concat a b i i.2 := rfl

theorem rawWrite_eq (m : Mem) (s : Slice) (n : Nat) (v w : Fin n → UInt8) (h : ∀ i, v i = w i) :
    rawWrite m s n v = if n ≤ s.len then .ok (m.store s.addr n w) else .error .ub := by
  rw [funext h]; rfl

namespace Avx2

theorem deinterleave3x_eq (m1 m2 m3 : Fin 8 → F) (p : Fin 24 → F)
    (h1 : ∀ i : Fin 8, m1 i = p ⟨i, by omega⟩) (h2 : ∀ i : Fin 8, m2 i = p ⟨8 + i, by omega⟩)
    (h3 : ∀ i : Fin 8, m3 i = p ⟨16 + i, by omega⟩) (c : Fin 3) (i : Fin 8) :
    pick3 (deinterleave3x m1 m2 m3) c i = p ⟨3 * i + c, by omega⟩ := by
  obtain rfl := funext h1; obtain rfl := funext h2; obtain rfl := funext h3
  fin_cases c <;> fin_cases i <;> rfl

theorem deinterleave4x_eq (m1 m2 m3 m4 : Fin 8 → F) (p : Fin 32 → F)
    (h1 : ∀ i : Fin 8, m1 i = p ⟨i, by omega⟩) (h2 : ∀ i : Fin 8, m2 i = p ⟨8 + i, by omega⟩)
    (h3 : ∀ i : Fin 8, m3 i = p ⟨16 + i, by omega⟩) (h4 : ∀ i : Fin 8, m4 i = p ⟨24 + i, by omega⟩)
    (c : Fin 4) (i : Fin 8) :
    pick4 (deinterleave4x m1 m2 m3 m4) c i = p ⟨4 * i + c, by omega⟩ := by
  obtain rfl := funext h1; obtain rfl := funext h2; obtain rfl := funext h3; obtain rfl := funext h4
  fin_cases c <;> fin_cases i <;> rfl

variable (a : SimdArith F)

theorem interleave4_eq (v : Fin 4 → Fin 8 → F) (j : Fin 32) :
    interleave4_u8 a (v 0) (v 1) (v 2) (v 3) j = q8 a (v ⟨j % 4, by omega⟩ ⟨j / 4, by omega⟩) := by
  fin_cases j <;> rfl

theorem interleave3_eq (v : Fin 3 → Fin 8 → F) (j : Fin 24) :
    interleave3_u8 a (v 0) (v 1) (v 2) j = q8 a (v ⟨j % 3, by omega⟩ ⟨j / 3, by omega⟩) := by
  fin_cases j <;> rfl

theorem u8x8_eq (v : Fin 8 → F) (j : Fin 8) : f32x8_to_u8x8 a v j = q8 a (v j) := by
  fin_cases j <;> rfl

theorem u16x8_eq (v : Fin 8 → F) (j : Fin 8) : f32x8_to_u16x8 a v j = q16 a (v j) := by
  fin_cases j <;> rfl

theorem u8x16_eq (v w : Fin 8 → F) (j : Fin 16) : f32x8x2_to_u8x16 a v w j = q8 a (concat v w j j.2) := by
  fin_cases j <;> rfl

theorem u16x16_eq (v w : Fin 8 → F) (j : Fin 16) : f32x8x2_to_u16x16 a v w j = q16 a (concat v w j j.2) := by
  fin_cases j <;> rfl

end Avx2

namespace Avx512

theorem deinterleave3x_eq (m1 m2 m3 : Fin 16 → F) (p : Fin 48 → F)
    (h1 : ∀ i : Fin 16, m1 i = p ⟨i, by omega⟩) (h2 : ∀ i : Fin 16, m2 i = p ⟨16 + i, by omega⟩)
    (h3 : ∀ i : Fin 16, m3 i = p ⟨32 + i, by omega⟩) (c : Fin 3) (i : Fin 16) :
    Avx2.pick3 (deinterleave3x m1 m2 m3) c i = p ⟨3 * i + c, by omega⟩ := by
  obtain rfl := funext h1; obtain rfl := funext h2; obtain rfl := funext h3
  fin_cases c <;> fin_cases i <;> rfl

theorem deinterleave4x_eq (m1 m2 m3 m4 : Fin 16 → F) (p : Fin 64 → F)
    (h1 : ∀ i : Fin 16, m1 i = p ⟨i, by omega⟩) (h2 : ∀ i : Fin 16, m2 i = p ⟨16 + i, by omega⟩)
    (h3 : ∀ i : Fin 16, m3 i = p ⟨32 + i, by omega⟩) (h4 : ∀ i : Fin 16, m4 i = p ⟨48 + i, by omega⟩)
    (c : Fin 4) (i : Fin 16) :
    Avx2.pick4 (deinterleave4x m1 m2 m3 m4) c i = p ⟨4 * i + c, by omega⟩ := by
  obtain rfl := funext h1; obtain rfl := funext h2; obtain rfl := funext h3; obtain rfl := funext h4
  fin_cases c <;> fin_cases i <;> rfl

variable (a : SimdArith F)

theorem interleave4_eq (v : Fin 4 → Fin 16 → F) (j : Fin 64) :
    interleave4_u8 a (v 0) (v 1) (v 2) (v 3) j = q8i a (v ⟨j % 4, by omega⟩ ⟨j / 4, by omega⟩) := by
  fin_cases j <;> rfl

theorem interleave3_eq (v : Fin 3 → Fin 16 → F) (j : Fin 48) :
    interleave3_u8 a (v 0) (v 1) (v 2) j = q8i a (v ⟨j % 3, by omega⟩ ⟨j / 3, by omega⟩) := by
  fin_cases j <;> rfl

end Avx512

namespace Neon
variable (a : SimdArith F)

theorem toNat_u8_16 (x : UInt8) : x.toUInt16.toUInt32.toNat = x.toNat := by simp

theorem u8x8_eq (v w : Fin 4 → F) (j : Fin 8) : f32x4x2_to_u8x8 a v w j = q8 a (concat v w j j.2) := by
  fin_cases j <;> rfl

theorem u16x8_eq (v w : Fin 4 → F) (j : Fin 8) : f32x4x2_to_u16x8 a v w j = q16 a (concat v w j j.2) := by
  fin_cases j <;> rfl

theorem u8x4_eq (v : Fin 4 → F) (j : Fin 4) : f32x4_to_u8x4 a v j = q8 a (v j) := by
  fin_cases j <;> rfl

theorem widen_eq (r : Fin 8 → UInt8) (k : Fin 2) (i : Fin 4) :
    (widen r k i : F) = ofNat (r ⟨k * 4 + i, by omega⟩).toNat := by
  have e : ∀ x : UInt8, (ofNat x.toUInt16.toUInt32.toNat : F) = ofNat x.toNat := fun x => by rw [toNat_u8_16]
  fin_cases k <;> fin_cases i <;> exact e _

end Neon


namespace Avx2

theorem zip_fst_eq (x y : Fin 8 → F) (i : Fin 8) : (zip x y).1 i = interleave x y i (by omega) := by
  fin_cases i <;> rfl

theorem zip_snd_eq (x y : Fin 8 → F) (i : Fin 8) : (zip x y).2 i = interleave x y (8 + i) (by omega) := by
  fin_cases i <;> rfl

theorem unzip_fst_eq (x y : Fin 8 → F) (i : Fin 8) : (unzip x y).1 i = concat x y (2 * i) (by omega) := by
  fin_cases i <;> rfl

theorem unzip_snd_eq (x y : Fin 8 → F) (i : Fin 8) : (unzip x y).2 i = concat x y (2 * i + 1) (by omega) := by
  fin_cases i <;> rfl

theorem loadU8At_eq (m : Mem) (s : Slice) (off : Nat) : (loadU8At m s off : Exec (Fin 8 → F)) =
    if off + 8 ≤ s.len then .ok (fun i => ofNat (m (s.addr + off + i)).toNat) else .error .ub := by
  unfold loadU8At rawReadAt
  by_cases h : off + 8 ≤ s.len
  · simp only [if_pos h]; rfl
  · simp only [if_neg h]; rfl

theorem loadU16_eq (m : Mem) (s : Slice) : (loadU16 m s : Exec (Fin 8 → F)) =
    if 16 ≤ s.len then .ok (fun i => ofNat ((m (s.addr + 2 * i)).toNat + 256 * (m (s.addr + 2 * i + 1)).toNat))
    else .error .ub := by
  unfold loadU16
  rw [rawReadAt_zero]
  by_cases h : 16 ≤ s.len
  · simp only [if_pos h]; rfl
  · simp only [if_neg h]; rfl

theorem load3xInner_ub (m : Mem) (s : Slice) (off : Nat) (h : ¬ off + 24 ≤ s.len) :
    (load3xInner m s off : Exec _) = (.error .ub : Exec ((Fin 8 → F) × (Fin 8 → F) × (Fin 8 → F))) := by
  unfold load3xInner
  simp only [loadU8At_eq]
  by_cases h0 : off + 8 ≤ s.len
  case neg => rw [if_neg h0]; rfl
  by_cases h1 : off + 8 + 8 ≤ s.len
  case neg => rw [if_pos h0]; rw [if_neg h1]; rfl
  rw [if_pos h0]; rw [if_pos h1]; rw [if_neg (show ¬ off + 8 * 2 + 8 ≤ s.len by omega)]; rfl

theorem load3xInner_ok (m : Mem) (s : Slice) (off : Nat) (h : off + 24 ≤ s.len) :
    ∃ t : (Fin 8 → F) × (Fin 8 → F) × (Fin 8 → F), load3xInner m s off = .ok t ∧
      ∀ (c : Fin 3) (i : Fin 8), pick3 t c i = ofNat (m (s.addr + (off + (3 * i + c)))).toNat := by
  refine ⟨deinterleave3x (fun i => ofNat (m (s.addr + off + i)).toNat) (fun i => ofNat (m (s.addr + (off + 8) + i)).toNat)
    (fun i => ofNat (m (s.addr + (off + 8 * 2) + i)).toNat), ?_, fun c i => ?_⟩
  · unfold load3xInner
    simp only [loadU8At_eq]
    rw [if_pos (show off + 8 ≤ s.len by omega), if_pos (show off + 8 + 8 ≤ s.len by omega), if_pos (show off + 8 * 2 + 8 ≤ s.len by omega)]
    rfl
  · refine deinterleave3x_eq _ _ _ (fun j : Fin 24 => (ofNat (m (s.addr + (off + j))).toNat : F)) ?_ ?_ ?_ c i <;> intro i <;>
      simp only [Nat.add_assoc, Nat.reduceMul]

theorem loadU8x3_eq (m : Mem) (s : Slice) : (loadU8x3 m s : Exec (Fin 2 → Fin 3 → Fin 8 → F)) =
    if 48 ≤ s.len then .ok (fun k c i => ofNat (m (s.addr + (3 * (k * 8 + i) + c))).toNat)
    else .error .ub := by
  unfold loadU8x3
  by_cases h : 48 ≤ s.len
  · obtain ⟨t, e, ht⟩ := load3xInner_ok (F := F) m s 0 (by omega)
    obtain ⟨u, e', hu⟩ := load3xInner_ok (F := F) m s (8 * 3) (by omega)
    rw [if_pos h, e, e']
    refine congrArg Except.ok (funext fun k => funext fun c => funext fun i => ?_)
    match k with
    | 0 =>
      refine (ht c i).trans ?_
      rw [show 0 + (3 * i.val + c) = 3 * ((0 : Fin 2) * 8 + i.val) + c.val by simp]
    | 1 =>
      refine (hu c i).trans ?_
      rw [show 8 * 3 + (3 * i.val + c) = 3 * ((1 : Fin 2) * 8 + i.val) + c.val by
        rw [show ((1 : Fin 2).val) = 1 from rfl]; omega]
  · rw [if_neg h]
    by_cases h1 : 0 + 24 ≤ s.len
    · obtain ⟨t, e, ht⟩ := load3xInner_ok (F := F) m s 0 h1
      rw [e]
      show (load3xInner m s (8 * 3) >>= _) = _
      rw [load3xInner_ub m s (8 * 3) (by omega)]
      rfl
    · rw [load3xInner_ub m s 0 h1]
      rfl

theorem load4xInner_ub (m : Mem) (s : Slice) (off : Nat) (h : ¬ off + 32 ≤ s.len) :
    (load4xInner m s off : Exec _) = (.error .ub : Exec ((Fin 8 → F) × (Fin 8 → F) × (Fin 8 → F) × (Fin 8 → F))) := by
  unfold load4xInner
  simp only [loadU8At_eq]
  by_cases h0 : off + 8 ≤ s.len
  case neg => rw [if_neg h0]; rfl
  by_cases h1 : off + 8 + 8 ≤ s.len
  case neg => rw [if_pos h0]; rw [if_neg h1]; rfl
  by_cases h2 : off + 8 * 2 + 8 ≤ s.len
  case neg => rw [if_pos h0]; rw [if_pos h1]; rw [if_neg h2]; rfl
  rw [if_pos h0]; rw [if_pos h1]; rw [if_pos h2]; rw [if_neg (show ¬ off + 8 * 3 + 8 ≤ s.len by omega)]; rfl

theorem load4xInner_ok (m : Mem) (s : Slice) (off : Nat) (h : off + 32 ≤ s.len) :
    ∃ t : (Fin 8 → F) × (Fin 8 → F) × (Fin 8 → F) × (Fin 8 → F), load4xInner m s off = .ok t ∧
      ∀ (c : Fin 4) (i : Fin 8), pick4 t c i = ofNat (m (s.addr + (off + (4 * i + c)))).toNat := by
  refine ⟨deinterleave4x (fun i => ofNat (m (s.addr + off + i)).toNat) (fun i => ofNat (m (s.addr + (off + 8) + i)).toNat)
    (fun i => ofNat (m (s.addr + (off + 8 * 2) + i)).toNat)
    (fun i => ofNat (m (s.addr + (off + 8 * 3) + i)).toNat), ?_, fun c i => ?_⟩
  · unfold load4xInner
    simp only [loadU8At_eq]
    rw [if_pos (show off + 8 ≤ s.len by omega), if_pos (show off + 8 + 8 ≤ s.len by omega), if_pos (show off + 8 * 2 + 8 ≤ s.len by omega), if_pos (show off + 8 * 3 + 8 ≤ s.len by omega)]
    rfl
  · refine deinterleave4x_eq _ _ _ _ (fun j : Fin 32 => (ofNat (m (s.addr + (off + j))).toNat : F)) ?_ ?_ ?_ ?_ c i <;> intro i <;>
      simp only [Nat.add_assoc, Nat.reduceMul]

theorem loadU8x4_eq (m : Mem) (s : Slice) : (loadU8x4 m s : Exec (Fin 2 → Fin 4 → Fin 8 → F)) =
    if 64 ≤ s.len then .ok (fun k c i => ofNat (m (s.addr + (4 * (k * 8 + i) + c))).toNat)
    else .error .ub := by
  unfold loadU8x4
  by_cases h : 64 ≤ s.len
  · obtain ⟨t, e, ht⟩ := load4xInner_ok (F := F) m s 0 (by omega)
    obtain ⟨u, e', hu⟩ := load4xInner_ok (F := F) m s (8 * 4) (by omega)
    rw [if_pos h, e, e']
    refine congrArg Except.ok (funext fun k => funext fun c => funext fun i => ?_)
    match k with
    | 0 =>
      refine (ht c i).trans ?_
      rw [show 0 + (4 * i.val + c) = 4 * ((0 : Fin 2) * 8 + i.val) + c.val by simp]
    | 1 =>
      refine (hu c i).trans ?_
      rw [show 8 * 4 + (4 * i.val + c) = 4 * ((1 : Fin 2) * 8 + i.val) + c.val by
        rw [show ((1 : Fin 2).val) = 1 from rfl]; omega]
  · rw [if_neg h]
    by_cases h1 : 0 + 32 ≤ s.len
    · obtain ⟨t, e, ht⟩ := load4xInner_ok (F := F) m s 0 h1
      rw [e]
      show (load4xInner m s (8 * 4) >>= _) = _
      rw [load4xInner_ub m s (8 * 4) (by omega)]
      rfl
    · rw [load4xInner_ub m s 0 h1]
      rfl

theorem writeU8x3_eq (a : SimdArith F) (v : Fin 2 → Fin 3 → Fin 8 → F) (j : Fin 48) :
    arr2 (interleave3_u8 a (v 0 0) (v 0 1) (v 0 2)) (interleave3_u8 a (v 1 0) (v 1 1) (v 1 2)) j =
      q8 a (concat (v 0 ⟨j % 3, by omega⟩) (v 1 ⟨j % 3, by omega⟩) (j / 3) (by omega)) := by
  unfold arr2 concat
  by_cases h : j.val < 24
  · rw [dif_pos h, dif_pos (by omega), interleave3_eq]
  · rw [dif_neg h, dif_neg (by omega), interleave3_eq]
    congr 2
    · apply Fin.ext; show (j.val - 24) % 3 = j % 3; omega
    · apply Fin.ext; show (j.val - 24) / 3 = j / 3 - 8; omega

theorem writeU8x4_eq (a : SimdArith F) (v : Fin 2 → Fin 4 → Fin 8 → F) (j : Fin 64) :
    arr2 (interleave4_u8 a (v 0 0) (v 0 1) (v 0 2) (v 0 3)) (interleave4_u8 a (v 1 0) (v 1 1) (v 1 2) (v 1 3)) j =
      q8 a (concat (v 0 ⟨j % 4, by omega⟩) (v 1 ⟨j % 4, by omega⟩) (j / 4) (by omega)) := by
  unfold arr2 concat
  by_cases h : j.val < 32
  · rw [dif_pos h, dif_pos (by omega), interleave4_eq]
  · rw [dif_neg h, dif_neg (by omega), interleave4_eq]
    congr 2
    · apply Fin.ext; show (j.val - 32) % 4 = j % 4; omega
    · apply Fin.ext; show (j.val - 32) / 4 = j / 4 - 8; omega

end Avx2

namespace Avx512

theorem zip_fst_eq (x y : Fin 16 → F) (i : Fin 16) : (zip x y).1 i = interleave x y i (by omega) := by
  fin_cases i <;> rfl

theorem zip_snd_eq (x y : Fin 16 → F) (i : Fin 16) : (zip x y).2 i = interleave x y (16 + i) (by omega) := by
  fin_cases i <;> rfl

theorem unzip_fst_eq (x y : Fin 16 → F) (i : Fin 16) : (unzip x y).1 i = concat x y (2 * i) (by omega) := by
  fin_cases i <;> rfl

theorem unzip_snd_eq (x y : Fin 16 → F) (i : Fin 16) : (unzip x y).2 i = concat x y (2 * i + 1) (by omega) := by
  fin_cases i <;> rfl

theorem loadU8At_eq (m : Mem) (s : Slice) (off : Nat) : (loadU8At m s off : Exec (Fin 16 → F)) =
    if off + 16 ≤ s.len then .ok (fun i => ofNat (m (s.addr + off + i)).toNat) else .error .ub := by
  unfold loadU8At rawReadAt
  by_cases h : off + 16 ≤ s.len
  · simp only [if_pos h]; rfl
  · simp only [if_neg h]; rfl

theorem loadU16_eq (m : Mem) (s : Slice) : (loadU16 m s : Exec (Fin 16 → F)) =
    if 32 ≤ s.len then .ok (fun i => ofNat ((m (s.addr + 2 * i)).toNat + 256 * (m (s.addr + 2 * i + 1)).toNat))
    else .error .ub := by
  unfold loadU16
  rw [rawReadAt_zero]
  by_cases h : 32 ≤ s.len
  · simp only [if_pos h]; rfl
  · simp only [if_neg h]; rfl

theorem load3xInner_ub (m : Mem) (s : Slice) (off : Nat) (h : ¬ off + 48 ≤ s.len) :
    (load3xInner m s off : Exec _) = (.error .ub : Exec ((Fin 16 → F) × (Fin 16 → F) × (Fin 16 → F))) := by
  unfold load3xInner
  simp only [loadU8At_eq]
  by_cases h0 : off + 16 ≤ s.len
  case neg => rw [if_neg h0]; rfl
  by_cases h1 : off + 16 + 16 ≤ s.len
  case neg => rw [if_pos h0]; rw [if_neg h1]; rfl
  rw [if_pos h0]; rw [if_pos h1]; rw [if_neg (show ¬ off + 16 * 2 + 16 ≤ s.len by omega)]; rfl

theorem load3xInner_ok (m : Mem) (s : Slice) (off : Nat) (h : off + 48 ≤ s.len) :
    ∃ t : (Fin 16 → F) × (Fin 16 → F) × (Fin 16 → F), load3xInner m s off = .ok t ∧
      ∀ (c : Fin 3) (i : Fin 16), Avx2.pick3 t c i = ofNat (m (s.addr + (off + (3 * i + c)))).toNat := by
  refine ⟨deinterleave3x (fun i => ofNat (m (s.addr + off + i)).toNat) (fun i => ofNat (m (s.addr + (off + 16) + i)).toNat)
    (fun i => ofNat (m (s.addr + (off + 16 * 2) + i)).toNat), ?_, fun c i => ?_⟩
  · unfold load3xInner
    simp only [loadU8At_eq]
    rw [if_pos (show off + 16 ≤ s.len by omega), if_pos (show off + 16 + 16 ≤ s.len by omega), if_pos (show off + 16 * 2 + 16 ≤ s.len by omega)]
    rfl
  · refine deinterleave3x_eq _ _ _ (fun j : Fin 48 => (ofNat (m (s.addr + (off + j))).toNat : F)) ?_ ?_ ?_ c i <;> intro i <;>
      simp only [Nat.add_assoc, Nat.reduceMul]

theorem loadU8x3_eq (m : Mem) (s : Slice) : (loadU8x3 m s : Exec (Fin 2 → Fin 3 → Fin 16 → F)) =
    if 96 ≤ s.len then .ok (fun k c i => ofNat (m (s.addr + (3 * (k * 16 + i) + c))).toNat)
    else .error .ub := by
  unfold loadU8x3
  by_cases h : 96 ≤ s.len
  · obtain ⟨t, e, ht⟩ := load3xInner_ok (F := F) m s 0 (by omega)
    obtain ⟨u, e', hu⟩ := load3xInner_ok (F := F) m s (16 * 3) (by omega)
    rw [if_pos h, e, e']
    refine congrArg Except.ok (funext fun k => funext fun c => funext fun i => ?_)
    match k with
    | 0 =>
      refine (ht c i).trans ?_
      rw [show 0 + (3 * i.val + c) = 3 * ((0 : Fin 2) * 16 + i.val) + c.val by simp]
    | 1 =>
      refine (hu c i).trans ?_
      rw [show 16 * 3 + (3 * i.val + c) = 3 * ((1 : Fin 2) * 16 + i.val) + c.val by
        rw [show ((1 : Fin 2).val) = 1 from rfl]; omega]
  · rw [if_neg h]
    by_cases h1 : 0 + 48 ≤ s.len
    · obtain ⟨t, e, ht⟩ := load3xInner_ok (F := F) m s 0 h1
      rw [e]
      show (load3xInner m s (16 * 3) >>= _) = _
      rw [load3xInner_ub m s (16 * 3) (by omega)]
      rfl
    · rw [load3xInner_ub m s 0 h1]
      rfl

theorem load4xInner_ub (m : Mem) (s : Slice) (off : Nat) (h : ¬ off + 64 ≤ s.len) :
    (load4xInner m s off : Exec _) = (.error .ub : Exec ((Fin 16 → F) × (Fin 16 → F) × (Fin 16 → F) × (Fin 16 → F))) := by
  unfold load4xInner
  simp only [loadU8At_eq]
  by_cases h0 : off + 16 ≤ s.len
  case neg => rw [if_neg h0]; rfl
  by_cases h1 : off + 16 + 16 ≤ s.len
  case neg => rw [if_pos h0]; rw [if_neg h1]; rfl
  by_cases h2 : off + 16 * 2 + 16 ≤ s.len
  case neg => rw [if_pos h0]; rw [if_pos h1]; rw [if_neg h2]; rfl
  rw [if_pos h0]; rw [if_pos h1]; rw [if_pos h2]; rw [if_neg (show ¬ off + 16 * 3 + 16 ≤ s.len by omega)]; rfl

theorem load4xInner_ok (m : Mem) (s : Slice) (off : Nat) (h : off + 64 ≤ s.len) :
    ∃ t : (Fin 16 → F) × (Fin 16 → F) × (Fin 16 → F) × (Fin 16 → F), load4xInner m s off = .ok t ∧
      ∀ (c : Fin 4) (i : Fin 16), Avx2.pick4 t c i = ofNat (m (s.addr + (off + (4 * i + c)))).toNat := by
  refine ⟨deinterleave4x (fun i => ofNat (m (s.addr + off + i)).toNat) (fun i => ofNat (m (s.addr + (off + 16) + i)).toNat)
    (fun i => ofNat (m (s.addr + (off + 16 * 2) + i)).toNat)
    (fun i => ofNat (m (s.addr + (off + 16 * 3) + i)).toNat), ?_, fun c i => ?_⟩
  · unfold load4xInner
    simp only [loadU8At_eq]
    rw [if_pos (show off + 16 ≤ s.len by omega), if_pos (show off + 16 + 16 ≤ s.len by omega), if_pos (show off + 16 * 2 + 16 ≤ s.len by omega), if_pos (show off + 16 * 3 + 16 ≤ s.len by omega)]
    rfl
  · refine deinterleave4x_eq _ _ _ _ (fun j : Fin 64 => (ofNat (m (s.addr + (off + j))).toNat : F)) ?_ ?_ ?_ ?_ c i <;> intro i <;>
      simp only [Nat.add_assoc, Nat.reduceMul]

theorem loadU8x4_eq (m : Mem) (s : Slice) : (loadU8x4 m s : Exec (Fin 2 → Fin 4 → Fin 16 → F)) =
    if 128 ≤ s.len then .ok (fun k c i => ofNat (m (s.addr + (4 * (k * 16 + i) + c))).toNat)
    else .error .ub := by
  unfold loadU8x4
  by_cases h : 128 ≤ s.len
  · obtain ⟨t, e, ht⟩ := load4xInner_ok (F := F) m s 0 (by omega)
    obtain ⟨u, e', hu⟩ := load4xInner_ok (F := F) m s (16 * 4) (by omega)
    rw [if_pos h, e, e']
    refine congrArg Except.ok (funext fun k => funext fun c => funext fun i => ?_)
    match k with
    | 0 =>
      refine (ht c i).trans ?_
      rw [show 0 + (4 * i.val + c) = 4 * ((0 : Fin 2) * 16 + i.val) + c.val by simp]
    | 1 =>
      refine (hu c i).trans ?_
      rw [show 16 * 4 + (4 * i.val + c) = 4 * ((1 : Fin 2) * 16 + i.val) + c.val by
        rw [show ((1 : Fin 2).val) = 1 from rfl]; omega]
  · rw [if_neg h]
    by_cases h1 : 0 + 64 ≤ s.len
    · obtain ⟨t, e, ht⟩ := load4xInner_ok (F := F) m s 0 h1
      rw [e]
      show (load4xInner m s (16 * 4) >>= _) = _
      rw [load4xInner_ub m s (16 * 4) (by omega)]
      rfl
    · rw [load4xInner_ub m s 0 h1]
      rfl

theorem writeU8x3_eq (a : SimdArith F) (v : Fin 2 → Fin 3 → Fin 16 → F) (j : Fin 96) :
    arr2 (interleave3_u8 a (v 0 0) (v 0 1) (v 0 2)) (interleave3_u8 a (v 1 0) (v 1 1) (v 1 2)) j =
      q8i a (concat (v 0 ⟨j % 3, by omega⟩) (v 1 ⟨j % 3, by omega⟩) (j / 3) (by omega)) := by
  unfold arr2 concat
  by_cases h : j.val < 48
  · rw [dif_pos h, dif_pos (by omega), interleave3_eq]
  · rw [dif_neg h, dif_neg (by omega), interleave3_eq]
    congr 2
    · apply Fin.ext; show (j.val - 48) % 3 = j % 3; omega
    · apply Fin.ext; show (j.val - 48) / 3 = j / 3 - 16; omega

theorem writeU8x4_eq (a : SimdArith F) (v : Fin 2 → Fin 4 → Fin 16 → F) (j : Fin 128) :
    arr2 (interleave4_u8 a (v 0 0) (v 0 1) (v 0 2) (v 0 3)) (interleave4_u8 a (v 1 0) (v 1 1) (v 1 2) (v 1 3)) j =
      q8i a (concat (v 0 ⟨j % 4, by omega⟩) (v 1 ⟨j % 4, by omega⟩) (j / 4) (by omega)) := by
  unfold arr2 concat
  by_cases h : j.val < 64
  · rw [dif_pos h, dif_pos (by omega), interleave4_eq]
  · rw [dif_neg h, dif_neg (by omega), interleave4_eq]
    congr 2
    · apply Fin.ext; show (j.val - 64) % 4 = j % 4; omega
    · apply Fin.ext; show (j.val - 64) / 4 = j / 4 - 16; omega

end Avx512

theorem avx2_lawful (a : SimdArith F) : (Avx2.backend a).Lawful where
  zip_fst := Avx2.zip_fst_eq
  zip_snd := Avx2.zip_snd_eq
  unzip_fst := Avx2.unzip_fst_eq
  unzip_snd := Avx2.unzip_snd_eq
  loadU8 m s := by
    refine (Avx2.loadU8At_eq m s 0).trans ?_
    simp only [Nat.zero_add, Nat.add_zero]; rfl
  loadU16 := Avx2.loadU16_eq
  loadU8x3 := Avx2.loadU8x3_eq
  loadU8x4 := Avx2.loadU8x4_eq
  writeU8 v m s := rawWrite_eq m s 8 _ _ (Avx2.u8x8_eq a v)
  writeU8_2x v w m s := rawWrite_eq m s 16 _ _ (Avx2.u8x16_eq a v w)
  writeU16 v m s := rawWrite_eq m s 16 _ _ fun i =>
    congrArg (fun b => u16byte b (i % 2)) (Avx2.u16x8_eq a v ⟨i / 2, by omega⟩)
  writeU16_2x v w m s := rawWrite_eq m s 32 _ _ fun i =>
    congrArg (fun b => u16byte b (i % 2)) (Avx2.u16x16_eq a v w ⟨i / 2, by omega⟩)
  writeU8x3 v m s := rawWrite_eq m s 48 _ _ (Avx2.writeU8x3_eq a v)
  writeU8x4 v m s := rawWrite_eq m s 64 _ _ (Avx2.writeU8x4_eq a v)

theorem arr2_map {α β : Type} {n : Nat} (f : α → β) (x y : Fin n → α) (i : Fin (2 * n)) :
    arr2 (fun i => f (x i)) (fun i => f (y i)) i = f (concat x y i i.2) := by
  unfold arr2 concat
  split <;> rfl

theorem avx512_lawful (a : SimdArith F) : (Avx512.backend a).Lawful where
  zip_fst := Avx512.zip_fst_eq
  zip_snd := Avx512.zip_snd_eq
  unzip_fst := Avx512.unzip_fst_eq
  unzip_snd := Avx512.unzip_snd_eq
  loadU8 m s := by
    refine (Avx512.loadU8At_eq m s 0).trans ?_
    simp only [Nat.zero_add, Nat.add_zero]; rfl
  loadU16 := Avx512.loadU16_eq
  loadU8x3 := Avx512.loadU8x3_eq
  loadU8x4 := Avx512.loadU8x4_eq
  writeU8 v m s := rawWrite_eq m s 16 _ _ fun i => rfl
  writeU8_2x v w m s := rawWrite_eq m s 32 _ _ fun i => arr2_map (Avx512.q8 a) v w i
  writeU16 v m s := rawWrite_eq m s 32 _ _ fun i => rfl
  writeU16_2x v w m s := rawWrite_eq m s 64 _ _ fun i =>
    congrArg (fun b => u16byte b (i % 2)) (arr2_map (n := 16) (Avx512.q16 a) v w ⟨i / 2, by omega⟩)
  writeU8x3 v m s := rawWrite_eq m s 96 _ _ (Avx512.writeU8x3_eq a v)
  writeU8x4 v m s := rawWrite_eq m s 128 _ _ (Avx512.writeU8x4_eq a v)

namespace Neon

theorem zip_fst_eq (x y : Fin 4 → F) (i : Fin 4) : vzip1q_f32 x y i = interleave x y i (by omega) := by
  fin_cases i <;> rfl

theorem zip_snd_eq (x y : Fin 4 → F) (i : Fin 4) : vzip2q_f32 x y i = interleave x y (4 + i) (by omega) := by
  fin_cases i <;> rfl

theorem unzip_fst_eq (x y : Fin 4 → F) (i : Fin 4) : vuzp1q_f32 x y i = concat x y (2 * i) (by omega) := by
  fin_cases i <;> rfl

theorem unzip_snd_eq (x y : Fin 4 → F) (i : Fin 4) : vuzp2q_f32 x y i = concat x y (2 * i + 1) (by omega) := by
  fin_cases i <;> rfl

theorem loadU8_eq (m : Mem) (s : Slice) : (loadU8 m s : Exec (Fin 4 → F)) =
    if 4 ≤ s.len then .ok (fun i => ofNat (m (s.addr + i)).toNat) else .error .ub := by
  unfold loadU8
  rw [rawReadAt_zero]
  have e : ∀ x : UInt8, (ofNat x.toUInt16.toUInt32.toNat : F) = ofNat x.toNat := fun x => by rw [toNat_u8_16]
  by_cases h : 4 ≤ s.len
  · simp only [if_pos h]
    refine congrArg Except.ok (funext fun i => ?_)
    fin_cases i <;> exact e _
  · simp only [if_neg h]; rfl

theorem u16le_roundtrip (x y : UInt8) : (UInt16.ofNat (u16le x y)).toUInt32.toNat = x.toNat + 256 * y.toNat := by
  have hx := x.toNat_lt
  have hy := y.toNat_lt
  simp only [u16le, UInt16.toNat_toUInt32, UInt16.toNat_ofNat']
  omega

theorem loadU16_eq (m : Mem) (s : Slice) : (loadU16 m s : Exec (Fin 4 → F)) =
    if 8 ≤ s.len then .ok (fun i => ofNat ((m (s.addr + 2 * i)).toNat + 256 * (m (s.addr + 2 * i + 1)).toNat))
    else .error .ub := by
  unfold loadU16
  rw [rawReadAt_zero]
  by_cases h : 8 ≤ s.len
  · simp only [if_pos h]
    refine congrArg Except.ok (funext fun i => ?_)
    show (ofNat (UInt16.ofNat (u16le _ _)).toUInt32.toNat : F) = _
    rw [u16le_roundtrip]; rfl
  · simp only [if_neg h]; rfl

theorem loadU8x3_eq (m : Mem) (s : Slice) : (loadU8x3 m s : Exec (Fin 2 → Fin 3 → Fin 4 → F)) =
    if 24 ≤ s.len then .ok (fun k c i => ofNat (m (s.addr + (3 * (k * 4 + i) + c))).toNat) else .error .ub := by
  unfold loadU8x3
  rw [rawReadAt_zero]
  by_cases h : 24 ≤ s.len
  · simp only [if_pos h]
    refine congrArg Except.ok (funext fun k => funext fun c => funext fun i => ?_)
    exact widen_eq _ k i
  · simp only [if_neg h]; rfl

theorem loadU8x4_eq (m : Mem) (s : Slice) : (loadU8x4 m s : Exec (Fin 2 → Fin 4 → Fin 4 → F)) =
    if 32 ≤ s.len then .ok (fun k c i => ofNat (m (s.addr + (4 * (k * 4 + i) + c))).toNat) else .error .ub := by
  unfold loadU8x4
  rw [rawReadAt_zero]
  by_cases h : 32 ≤ s.len
  · simp only [if_pos h]
    refine congrArg Except.ok (funext fun k => funext fun c => funext fun i => ?_)
    exact widen_eq _ k i
  · simp only [if_neg h]; rfl

end Neon

theorem neon_lawful (a : SimdArith F) : (Neon.backend a).Lawful where
  zip_fst := Neon.zip_fst_eq
  zip_snd := Neon.zip_snd_eq
  unzip_fst := Neon.unzip_fst_eq
  unzip_snd := Neon.unzip_snd_eq
  loadU8 := Neon.loadU8_eq
  loadU16 := Neon.loadU16_eq
  loadU8x3 := Neon.loadU8x3_eq
  loadU8x4 := Neon.loadU8x4_eq
  writeU8 v m s := rawWrite_eq m s 4 _ _ (Neon.u8x4_eq a v)
  writeU8_2x v w m s := rawWrite_eq m s 8 _ _ (Neon.u8x8_eq a v w)
  writeU16 v m s := rawWrite_eq m s 8 _ _ fun i => rfl
  writeU16_2x v w m s := rawWrite_eq m s 16 _ _ fun i =>
    congrArg (fun b => u16byte b (i % 2)) (Neon.u16x8_eq a v w ⟨i / 2, by omega⟩)
  writeU8x3 v m s := rawWrite_eq m s 24 _ _ fun j => Neon.u8x8_eq a _ _ _
  writeU8x4 v m s := rawWrite_eq m s 32 _ _ fun j => Neon.u8x8_eq a _ _ _

/-- Every platform's vector type meets the contract of `trait Vector`. -/
theorem platform_lawful (p : Platform) (simd : SimdArith F) (sar : Arith F) : (p.cpu simd sar).vec.Lawful := by
  cases p
  · exact scalar_lawful sar
  · exact avx2_lawful simd
  · exact avx512_lawful simd
  · exact neon_lawful simd

end Ezk

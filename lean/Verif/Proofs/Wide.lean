import Verif.Spec.Wide
import Verif.Proofs.Backends

/-! # The interleaved operations on 16-bit pixels -/

namespace Ezk
open FOps
variable {F : Type} [FOps F]

theorem scalarWide_lawful (ar : Arith F) : (scalarWide ar).Lawful ar.q16 where
  load3 m s := by
    show (rawRead m s 12 >>= _) = _
    unfold rawRead
    by_cases h : 12 ≤ s.len
    · rw [if_pos h, if_pos (show 12 * (scalarWide ar).LEN ≤ s.len from h)]
      refine congrArg Except.ok (funext fun k => funext fun c => funext fun i => ?_)
      have hi : i.val = 0 := by have := i.2; change i.val < 1 at this; omega
      show (ofNat (u16le (m (s.addr + 2 * (3 * k.val + c))) (m (s.addr + (2 * (3 * k.val + c) + 1)))) : F) =
        ofNat (wordAt m s.addr (3 * (k.val * 1 + i.val) + c))
      rw [hi, Nat.mul_one, Nat.add_zero]; rfl
    · rw [if_neg h, if_neg (show ¬ 12 * (scalarWide ar).LEN ≤ s.len from h)]; rfl
  load4 m s := by
    show (rawRead m s 16 >>= _) = _
    unfold rawRead
    by_cases h : 16 ≤ s.len
    · rw [if_pos h, if_pos (show 16 * (scalarWide ar).LEN ≤ s.len from h)]
      refine congrArg Except.ok (funext fun k => funext fun c => funext fun i => ?_)
      have hi : i.val = 0 := by have := i.2; change i.val < 1 at this; omega
      show (ofNat (u16le (m (s.addr + 2 * (4 * k.val + c))) (m (s.addr + (2 * (4 * k.val + c) + 1)))) : F) =
        ofNat (wordAt m s.addr (4 * (k.val * 1 + i.val) + c))
      rw [hi, Nat.mul_one, Nat.add_zero]; rfl
    · rw [if_neg h, if_neg (show ¬ 16 * (scalarWide ar).LEN ≤ s.len from h)]; rfl
  write3 v m s := rawWrite_eq m s 12 _ _ (fun i => by
    have key : ∀ (w : Fin 2 → Fin 3 → Fin 1 → F) (i : Fin 12),
        w ⟨i / 2 / 3, by omega⟩ ⟨i / 2 % 3, by omega⟩ 0 =
          concat (w 0 ⟨i / 2 % 3, by omega⟩) (w 1 ⟨i / 2 % 3, by omega⟩) (i / 6) (by omega) := by
      intro w i; fin_cases i <;> rfl
    exact congrArg (fun x => u16byte (ar.q16 x) (i % 2)) (key v i))
  write4 v m s := rawWrite_eq m s 16 _ _ (fun i => by
    have key : ∀ (w : Fin 2 → Fin 4 → Fin 1 → F) (i : Fin 16),
        w ⟨i / 2 / 4, by omega⟩ ⟨i / 2 % 4, by omega⟩ 0 =
          concat (w 0 ⟨i / 2 % 4, by omega⟩) (w 1 ⟨i / 2 % 4, by omega⟩) (i / 8) (by omega) := by
      intro w i; fin_cases i <;> rfl
    exact congrArg (fun x => u16byte (ar.q16 x) (i % 2)) (key v i))

namespace Neon

theorem widen16_eq (r : Fin 8 → UInt16) (k : Fin 2) (i : Fin 4) :
    (widen16 r k i : F) = ofNat (r ⟨k * 4 + i, by omega⟩).toUInt32.toNat := by
  fin_cases k <;> fin_cases i <;> rfl

theorem wide_lawful (a : SimdArith F) : (wide a).Lawful (q16 a) where
  load3 m s := by
    show (rawReadAt m s 0 48 >>= _) = _
    rw [rawReadAt_zero]
    by_cases h : 48 ≤ s.len
    · rw [if_pos h, if_pos (show 12 * (wide a).LEN ≤ s.len from h)]
      refine congrArg Except.ok (funext fun k => funext fun c => funext fun i => ?_)
      exact (widen16_eq _ k i).trans (congrArg ofNat (u16le_roundtrip _ _))
    · rw [if_neg h, if_neg (show ¬ 12 * (wide a).LEN ≤ s.len from h)]; rfl
  load4 m s := by
    show (rawReadAt m s 0 64 >>= _) = _
    rw [rawReadAt_zero]
    by_cases h : 64 ≤ s.len
    · rw [if_pos h, if_pos (show 16 * (wide a).LEN ≤ s.len from h)]
      refine congrArg Except.ok (funext fun k => funext fun c => funext fun i => ?_)
      exact (widen16_eq _ k i).trans (congrArg ofNat (u16le_roundtrip _ _))
    · rw [if_neg h, if_neg (show ¬ 16 * (wide a).LEN ≤ s.len from h)]; rfl
  write3 v m s := rawWrite_eq m s 48 _ _ (fun i => by
    refine congrArg (fun b => u16byte b (i % 2)) ((u16x8_eq a _ _ _).trans ?_)
    congr 2
    exact Nat.div_div_eq_div_mul _ _ _)
  write4 v m s := rawWrite_eq m s 64 _ _ (fun i => by
    refine congrArg (fun b => u16byte b (i % 2)) ((u16x8_eq a _ _ _).trans ?_)
    congr 2
    exact Nat.div_div_eq_div_mul _ _ _)

end Neon

theorem arr2_half {α : Type} {n : Nat} (f : Fin 2 → Fin n → α) (k : Fin 2) (r : Fin n) (j : Fin (2 * n))
    (h : j.val = n * k + r) : arr2 (f 0) (f 1) j = f k r := by
  unfold arr2
  have hr := r.2
  match k, h with
  | 0, h =>
    have e : j.val = r := by simpa using h
    rw [dif_pos (by omega)]; congr 1; exact Fin.ext e
  | 1, h =>
    have e : j.val = n + r := by simpa using h
    rw [dif_neg (by omega)]; congr 1; apply Fin.ext; show j.val - n = r; omega

/-- A byte of memory after a store of 16-bit values. -/
theorem store_word (m : Mem) (a n : Nat) (w : Fin n → UInt8) (x : Nat) (h : x < n) :
    m.store a n w (a + x) = w ⟨x, h⟩ := by
  rw [Mem.store, dif_pos (by omega)]
  congr 1; apply Fin.ext; show a + x - a = x; omega

/-! ## AVX2 -/

namespace Avx2

theorem loadU16At_eq (m : Mem) (s : Slice) (off : Nat) : (loadU16At m s off : Exec (Fin 8 → F)) =
    if off + 16 ≤ s.len then .ok (fun i => ofNat (wordAt m (s.addr + off) i)) else .error .ub := by
  unfold loadU16At rawReadAt
  by_cases h : off + 16 ≤ s.len
  · simp only [if_pos h]; rfl
  · simp only [if_neg h]; rfl

/-- Value `j` of the 24 (32) gathered by three (four) overlapping loads. -/
theorem load3xInner16_eq (m : Mem) (s : Slice) (off : Nat) (h : off + 32 ≤ s.len) :
    ∃ t : (Fin 8 → F) × (Fin 8 → F) × (Fin 8 → F), load3xInner16 m s off = .ok t ∧
      ∀ (c : Fin 3) (i : Fin 8), pick3 t c i =
        ofNat (wordAt m (s.addr + off + 8 * ((3 * i + c) / 8)) ((3 * i + c) % 8)) := by
  refine ⟨deinterleave3x (fun i => ofNat (wordAt m (s.addr + off) i)) (fun i => ofNat (wordAt m (s.addr + (off + 8)) i))
    (fun i => ofNat (wordAt m (s.addr + (off + 8 * 2)) i)), ?_, fun c i => ?_⟩
  · unfold load3xInner16
    simp only [loadU16At_eq]
    rw [if_pos (show off + 16 ≤ s.len by omega), if_pos (show off + 8 + 16 ≤ s.len by omega),
      if_pos (show off + 8 * 2 + 16 ≤ s.len by omega)]
    rfl
  · refine deinterleave3x_eq _ _ _
      (fun j : Fin 24 => (ofNat (wordAt m (s.addr + off + 8 * (j / 8)) (j % 8)) : F)) ?_ ?_ ?_ c i <;> intro i
    · have e1 : i.val / 8 = 0 := by omega
      have e2 : i.val % 8 = i := by omega
      simp only [e1, e2]; rfl
    · have e1 : (8 + i.val) / 8 = 1 := by omega
      have e2 : (8 + i.val) % 8 = i := by omega
      simp only [e1, e2, Nat.add_assoc]
    · have e1 : (16 + i.val) / 8 = 2 := by omega
      have e2 : (16 + i.val) % 8 = i := by omega
      simp only [e1, e2, Nat.add_assoc]

theorem load4xInner16_eq (m : Mem) (s : Slice) (off : Nat) (h : off + 40 ≤ s.len) :
    ∃ t : (Fin 8 → F) × (Fin 8 → F) × (Fin 8 → F) × (Fin 8 → F), load4xInner16 m s off = .ok t ∧
      ∀ (c : Fin 4) (i : Fin 8), pick4 t c i =
        ofNat (wordAt m (s.addr + off + 8 * ((4 * i + c) / 8)) ((4 * i + c) % 8)) := by
  refine ⟨deinterleave4x (fun i => ofNat (wordAt m (s.addr + off) i)) (fun i => ofNat (wordAt m (s.addr + (off + 8)) i))
    (fun i => ofNat (wordAt m (s.addr + (off + 8 * 2)) i)) (fun i => ofNat (wordAt m (s.addr + (off + 8 * 3)) i)),
    ?_, fun c i => ?_⟩
  · unfold load4xInner16
    simp only [loadU16At_eq]
    rw [if_pos (show off + 16 ≤ s.len by omega), if_pos (show off + 8 + 16 ≤ s.len by omega),
      if_pos (show off + 8 * 2 + 16 ≤ s.len by omega), if_pos (show off + 8 * 3 + 16 ≤ s.len by omega)]
    rfl
  · refine deinterleave4x_eq _ _ _ _
      (fun j : Fin 32 => (ofNat (wordAt m (s.addr + off + 8 * (j / 8)) (j % 8)) : F)) ?_ ?_ ?_ ?_ c i <;> intro i
    · have e1 : i.val / 8 = 0 := by omega
      have e2 : i.val % 8 = i := by omega
      simp only [e1, e2]; rfl
    · have e1 : (8 + i.val) / 8 = 1 := by omega
      have e2 : (8 + i.val) % 8 = i := by omega
      simp only [e1, e2, Nat.add_assoc]
    · have e1 : (16 + i.val) / 8 = 2 := by omega
      have e2 : (16 + i.val) % 8 = i := by omega
      simp only [e1, e2, Nat.add_assoc]
    · have e1 : (24 + i.val) / 8 = 3 := by omega
      have e2 : (24 + i.val) % 8 = i := by omega
      simp only [e1, e2, Nat.add_assoc]

theorem loadU16x3_eq (m : Mem) (s : Slice) (h : 56 ≤ s.len) :
    ∃ t : Fin 2 → Fin 3 → Fin 8 → F, loadU16x3 m s = .ok t ∧ ∀ (k : Fin 2) (c : Fin 3) (i : Fin 8),
      t k c i = ofNat (wordAt m (s.addr + 24 * k + 8 * ((3 * i + c) / 8)) ((3 * i + c) % 8)) := by
  obtain ⟨t, e, ht⟩ := load3xInner16_eq (F := F) m s 0 (by omega)
  obtain ⟨u, e', hu⟩ := load3xInner16_eq (F := F) m s (8 * 3) (by omega)
  unfold loadU16x3
  rw [e, e']
  refine ⟨_, rfl, fun k c i => ?_⟩
  match k with
  | 0 => exact ht c i
  | 1 => exact hu c i

theorem loadU16x4_eq (m : Mem) (s : Slice) (h : 72 ≤ s.len) :
    ∃ t : Fin 2 → Fin 4 → Fin 8 → F, loadU16x4 m s = .ok t ∧ ∀ (k : Fin 2) (c : Fin 4) (i : Fin 8),
      t k c i = ofNat (wordAt m (s.addr + 32 * k + 8 * ((4 * i + c) / 8)) ((4 * i + c) % 8)) := by
  obtain ⟨t, e, ht⟩ := load4xInner16_eq (F := F) m s 0 (by omega)
  obtain ⟨u, e', hu⟩ := load4xInner16_eq (F := F) m s (8 * 4) (by omega)
  unfold loadU16x4
  rw [e, e']
  refine ⟨_, rfl, fun k c i => ?_⟩
  match k with
  | 0 => exact ht c i
  | 1 => exact hu c i

variable (a : SimdArith F)

/-- The pixel that ends up at place `t` of eight: `0 1 4 5 2 3 6 7`. -/
theorem both_eq (v : Fin 4 → Fin 8 → F) (j : Fin 32) :
    both (interleave4_u16 a (v 0) (v 1) (v 2) (v 3)) j =
      q16 a (v ⟨j % 4, by omega⟩ ⟨j / 4 % 2 + 4 * (j / 8 % 2) + 2 * (j / 16), by omega⟩) := by
  fin_cases j <;> rfl

/-- The pixel of channel `e % 3` that ends up at place `e` of the first (or second) twelve of 24 values. -/
def place3 (r : Nat) : Nat := if r < 8 then r / 3 % 2 else r / 3 + 2

theorem interleave3_u16_eq (v : Fin 3 → Fin 8 → F) (j : Fin 48) :
    interleave3_u16 a (v 0) (v 1) (v 2) j =
      u16byte (q16 a (v ⟨j / 2 % 3, by omega⟩ ⟨(2 * (j / 24) + place3 (j / 2 % 12)) % 8, by omega⟩)) (j % 2) := by
  fin_cases j <;> rfl

end Avx2

/-! ## AVX-512 -/

namespace Avx512

theorem loadU16At_eq (m : Mem) (s : Slice) (off : Nat) : (loadU16At m s off : Exec (Fin 16 → F)) =
    if off + 32 ≤ s.len then .ok (fun i => ofNat (wordAt m (s.addr + off) i)) else .error .ub := by
  unfold loadU16At rawReadAt
  by_cases h : off + 32 ≤ s.len
  · simp only [if_pos h]; rfl
  · simp only [if_neg h]; rfl

theorem load3xInner16_eq (m : Mem) (s : Slice) (off : Nat) (h : off + 64 ≤ s.len) :
    ∃ t : (Fin 16 → F) × (Fin 16 → F) × (Fin 16 → F), load3xInner16 m s off = .ok t ∧
      ∀ (c : Fin 3) (i : Fin 16), Avx2.pick3 t c i =
        ofNat (wordAt m (s.addr + off + 16 * ((3 * i + c) / 16)) ((3 * i + c) % 16)) := by
  refine ⟨deinterleave3x (fun i => ofNat (wordAt m (s.addr + off) i)) (fun i => ofNat (wordAt m (s.addr + (off + 16)) i))
    (fun i => ofNat (wordAt m (s.addr + (off + 16 * 2)) i)), ?_, fun c i => ?_⟩
  · unfold load3xInner16
    simp only [loadU16At_eq]
    rw [if_pos (show off + 32 ≤ s.len by omega), if_pos (show off + 16 + 32 ≤ s.len by omega),
      if_pos (show off + 16 * 2 + 32 ≤ s.len by omega)]
    rfl
  · refine deinterleave3x_eq _ _ _
      (fun j : Fin 48 => (ofNat (wordAt m (s.addr + off + 16 * (j / 16)) (j % 16)) : F)) ?_ ?_ ?_ c i <;> intro i
    · have e1 : i.val / 16 = 0 := by omega
      have e2 : i.val % 16 = i := by omega
      simp only [e1, e2]; rfl
    · have e1 : (16 + i.val) / 16 = 1 := by omega
      have e2 : (16 + i.val) % 16 = i := by omega
      simp only [e1, e2, Nat.add_assoc]
    · have e1 : (32 + i.val) / 16 = 2 := by omega
      have e2 : (32 + i.val) % 16 = i := by omega
      simp only [e1, e2, Nat.add_assoc]

theorem load4xInner16_eq (m : Mem) (s : Slice) (off : Nat) (h : off + 80 ≤ s.len) :
    ∃ t : (Fin 16 → F) × (Fin 16 → F) × (Fin 16 → F) × (Fin 16 → F), load4xInner16 m s off = .ok t ∧
      ∀ (c : Fin 4) (i : Fin 16), Avx2.pick4 t c i =
        ofNat (wordAt m (s.addr + off + 16 * ((4 * i + c) / 16)) ((4 * i + c) % 16)) := by
  refine ⟨deinterleave4x (fun i => ofNat (wordAt m (s.addr + off) i)) (fun i => ofNat (wordAt m (s.addr + (off + 16)) i))
    (fun i => ofNat (wordAt m (s.addr + (off + 16 * 2)) i)) (fun i => ofNat (wordAt m (s.addr + (off + 16 * 3)) i)),
    ?_, fun c i => ?_⟩
  · unfold load4xInner16
    simp only [loadU16At_eq]
    rw [if_pos (show off + 32 ≤ s.len by omega), if_pos (show off + 16 + 32 ≤ s.len by omega),
      if_pos (show off + 16 * 2 + 32 ≤ s.len by omega), if_pos (show off + 16 * 3 + 32 ≤ s.len by omega)]
    rfl
  · refine deinterleave4x_eq _ _ _ _
      (fun j : Fin 64 => (ofNat (wordAt m (s.addr + off + 16 * (j / 16)) (j % 16)) : F)) ?_ ?_ ?_ ?_ c i <;> intro i
    · have e1 : i.val / 16 = 0 := by omega
      have e2 : i.val % 16 = i := by omega
      simp only [e1, e2]; rfl
    · have e1 : (16 + i.val) / 16 = 1 := by omega
      have e2 : (16 + i.val) % 16 = i := by omega
      simp only [e1, e2, Nat.add_assoc]
    · have e1 : (32 + i.val) / 16 = 2 := by omega
      have e2 : (32 + i.val) % 16 = i := by omega
      simp only [e1, e2, Nat.add_assoc]
    · have e1 : (48 + i.val) / 16 = 3 := by omega
      have e2 : (48 + i.val) % 16 = i := by omega
      simp only [e1, e2, Nat.add_assoc]

theorem loadU16x3_eq (m : Mem) (s : Slice) (h : 112 ≤ s.len) :
    ∃ t : Fin 2 → Fin 3 → Fin 16 → F, loadU16x3 m s = .ok t ∧ ∀ (k : Fin 2) (c : Fin 3) (i : Fin 16),
      t k c i = ofNat (wordAt m (s.addr + 48 * k + 16 * ((3 * i + c) / 16)) ((3 * i + c) % 16)) := by
  obtain ⟨t, e, ht⟩ := load3xInner16_eq (F := F) m s 0 (by omega)
  obtain ⟨u, e', hu⟩ := load3xInner16_eq (F := F) m s (16 * 3) (by omega)
  unfold loadU16x3
  rw [e, e']
  refine ⟨_, rfl, fun k c i => ?_⟩
  match k with
  | 0 => exact ht c i
  | 1 => exact hu c i

theorem loadU16x4_eq (m : Mem) (s : Slice) (h : 144 ≤ s.len) :
    ∃ t : Fin 2 → Fin 4 → Fin 16 → F, loadU16x4 m s = .ok t ∧ ∀ (k : Fin 2) (c : Fin 4) (i : Fin 16),
      t k c i = ofNat (wordAt m (s.addr + 64 * k + 16 * ((4 * i + c) / 16)) ((4 * i + c) % 16)) := by
  obtain ⟨t, e, ht⟩ := load4xInner16_eq (F := F) m s 0 (by omega)
  obtain ⟨u, e', hu⟩ := load4xInner16_eq (F := F) m s (16 * 4) (by omega)
  unfold loadU16x4
  rw [e, e']
  refine ⟨_, rfl, fun k c i => ?_⟩
  match k with
  | 0 => exact ht c i
  | 1 => exact hu c i

variable (a : SimdArith F)

theorem both_eq (v : Fin 4 → Fin 16 → F) (j : Fin 64) :
    both (interleave4_u16 a (v 0) (v 1) (v 2) (v 3)) j =
      Avx2.q16 a (v ⟨j % 4, by omega⟩ ⟨j / 4 % 2 + 4 * (j / 8 % 4) + 2 * (j / 32), by omega⟩) := by
  fin_cases j <;> rfl

theorem interleave3_u16_eq (v : Fin 3 → Fin 16 → F) (j : Fin 96) :
    interleave3_u16 a (v 0) (v 1) (v 2) j =
      u16byte (Avx2.q16 a (v ⟨j / 2 % 3, by omega⟩
        ⟨(2 * (j / 48) + 8 * (j / 24 % 2) + Avx2.place3 (j / 2 % 12)) % 16, by omega⟩)) (j % 2) := by
  fin_cases j <;> rfl

end Avx512

theorem order4_8 (t : Fin 8) :
    setr8 0 1 4 5 2 3 6 7 t = (⟨t % 2 + 4 * (t / 2 % 2) + 2 * (t / 4), by omega⟩ : Fin 8) := by
  revert t; decide

theorem order4_16 (t : Fin 16) : setr16 0 1 4 5 8 9 12 13 2 3 6 7 10 11 14 15 t =
    (⟨t % 2 + 4 * (t / 2 % 4) + 2 * (t / 8), by omega⟩ : Fin 16) := by
  revert t; decide

theorem order3_8 (t : Fin 8) (c : Fin 3) : setr8 0 1 (if c = 2 then 4 else 0) 5 2 3 (if c = 2 then 6 else 2) 7 t =
    (⟨(2 * ((3 * t + c) / 12) + Avx2.place3 ((3 * t + c) % 12)) % 8, by omega⟩ : Fin 8) := by
  revert t c; decide

theorem order3_16 (t : Fin 16) (c : Fin 3) : setr16 0 1 (if c = 2 then 4 else 0) 5 8 9 (if c = 2 then 12 else 8) 13
      2 3 (if c = 2 then 6 else 2) 7 10 11 (if c = 2 then 14 else 10) 15 t =
    (⟨(2 * ((3 * t + c) / 24) + 8 * ((3 * t + c) / 12 % 2) + Avx2.place3 ((3 * t + c) % 12)) % 16, by omega⟩ :
      Fin 16) := by
  revert t c; decide

/-- What the contract of the stores says of one byte of the first half. -/
theorem Wide.Write4.at_byte {W : Wide F} {q : F → UInt16} (h : W.Write4 q) (v : Fin 2 → Fin 4 → Vec W.LEN F) (m m' : Mem)
    (s : Slice) (hs : 16 * W.LEN ≤ s.len) (hm : W.write4 v m s = .ok m') (t : Fin W.LEN) (c : Fin 4) :
    m' (s.addr + (8 * t + 2 * c)) = u16byte (q (v 0 c t)) 0 := by
  have h1 := ((h v m s).trans (if_pos hs)).symm.trans hm
  rw [← Except.ok.inj h1, store_word _ _ _ _ _ (by omega)]
  have e1 : (8 * t.val + 2 * c) % 2 = 0 := by omega
  have e2 : (8 * t.val + 2 * c) / 2 % 4 = c := by omega
  have e3 : (8 * t.val + 2 * c) / 8 = t := by omega
  simp only [e1, e2, e3, concat, dif_pos t.2]

theorem Wide.Write3.at_byte {W : Wide F} {q : F → UInt16} (h : W.Write3 q) (v : Fin 2 → Fin 3 → Vec W.LEN F) (m m' : Mem)
    (s : Slice) (hs : 12 * W.LEN ≤ s.len) (hm : W.write3 v m s = .ok m') (t : Fin W.LEN) (c : Fin 3) :
    m' (s.addr + (6 * t + 2 * c)) = u16byte (q (v 0 c t)) 0 := by
  have h1 := ((h v m s).trans (if_pos hs)).symm.trans hm
  rw [← Except.ok.inj h1, store_word _ _ _ _ _ (by omega)]
  have e1 : (6 * t.val + 2 * c) % 2 = 0 := by omega
  have e2 : (6 * t.val + 2 * c) / 2 % 3 = c := by omega
  have e3 : (6 * t.val + 2 * c) / 6 = t := by omega
  simp only [e1, e2, e3, concat, dif_pos t.2]

end Ezk

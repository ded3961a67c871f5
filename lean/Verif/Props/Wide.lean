import Verif.Proofs.Wide
import Verif.Props.Backends
import Verif.Model.SimdMath

/-!
# C71: the interleaved operations on 16-bit pixels

`Primitive for u16` offers to load and store packed pixels of three or four 16-bit values.  No pixel format uses them yet.
They meet the contract (`Wide.Lawful`) on the scalar and the NEON vector types; on AVX2 and AVX-512 neither the loads nor
the stores do.
-/

namespace Ezk.Props
open FOps F32

variable {F : Type} [FOps F]

/-- **C71** (partial: AVX2 and AVX-512 are excluded, see `C71_false`): loading and storing interleaved 16-bit pixels. -/
theorem C71_lawful_partial (p : Platform) (hp : p = .scalar ∨ p = .neon) (simd : SimdArith F) (sar : Arith F) :
    (p.wide simd sar).Lawful (p.q16i simd sar) := by
  rcases hp with rfl | rfl
  · exact scalarWide_lawful sar
  · exact Neon.wide_lawful simd

example (simd : SimdArith F) (sar : Arith F) (m : Mem) : ∃ t, (Platform.neon.wide simd sar).load3 m ⟨100, 48⟩ = .ok t ∧
    t 1 2 (3 : Fin 4) = ofNat ((m 146).toNat + 256 * (m 147).toNat) :=
  ⟨_, (C71_lawful_partial .neon (.inr rfl) simd sar).load3 m ⟨100, 48⟩, rfl⟩

/-- The vectors have the same length as for the other operations. -/
theorem wide_len (p : Platform) (simd : SimdArith F) (sar : Arith F) : (p.wide simd sar).LEN = lanes p := by
  cases p <;> rfl

/-- **C71**: on every platform the operations stay inside the slice they are given if it is as long as the contract says,
and the stores change nothing else. -/
theorem C71_in_bounds (p : Platform) (simd : SimdArith F) (sar : Arith F) (m : Mem) (s : Slice) :
    (12 * lanes p ≤ s.len → (∃ t, (p.wide simd sar).load3 m s = .ok t) ∧
      ∀ v, ∃ m', (p.wide simd sar).write3 v m s = .ok m' ∧
        ∀ a, (a < s.addr ∨ s.addr + 12 * lanes p ≤ a) → m' a = m a) ∧
    (16 * lanes p ≤ s.len → (∃ t, (p.wide simd sar).load4 m s = .ok t) ∧
      ∀ v, ∃ m', (p.wide simd sar).write4 v m s = .ok m' ∧
        ∀ a, (a < s.addr ∨ s.addr + 16 * lanes p ≤ a) → m' a = m a) := by
  have st : ∀ (n : Nat) (w : Fin n → UInt8), n ≤ s.len → ∃ m', rawWrite m s n w = .ok m' ∧
      ∀ a, (a < s.addr ∨ s.addr + n ≤ a) → m' a = m a := by
    intro n w h
    refine ⟨_, if_pos h, fun a ha => ?_⟩
    rw [Mem.store, dif_neg (by omega)]
  cases p with
  | scalar =>
    have hl := scalarWide_lawful sar
    exact ⟨fun h => ⟨⟨_, (hl.load3 m s).trans (if_pos h)⟩, fun v => st 12 _ h⟩,
      fun h => ⟨⟨_, (hl.load4 m s).trans (if_pos h)⟩, fun v => st 16 _ h⟩⟩
  | neon =>
    have hl := Neon.wide_lawful simd
    exact ⟨fun h => ⟨⟨_, (hl.load3 m s).trans (if_pos h)⟩, fun v => st 48 _ h⟩,
      fun h => ⟨⟨_, (hl.load4 m s).trans (if_pos h)⟩, fun v => st 64 _ h⟩⟩
  | avx2 =>
    refine ⟨fun h => ⟨?_, fun v => st 96 _ h⟩, fun h => ⟨?_, fun v => st 128 _ h⟩⟩
    · obtain ⟨t, e, -⟩ := Avx2.loadU16x3_eq (F := F) m s (by change 96 ≤ s.len at h; omega)
      exact ⟨t, e⟩
    · obtain ⟨t, e, -⟩ := Avx2.loadU16x4_eq (F := F) m s (by change 128 ≤ s.len at h; omega)
      exact ⟨t, e⟩
  | avx512 =>
    refine ⟨fun h => ⟨?_, fun v => st 192 _ h⟩, fun h => ⟨?_, fun v => st 256 _ h⟩⟩
    · obtain ⟨t, e, -⟩ := Avx512.loadU16x3_eq (F := F) m s (by change 192 ≤ s.len at h; omega)
      exact ⟨t, e⟩
    · obtain ⟨t, e, -⟩ := Avx512.loadU16x4_eq (F := F) m s (by change 256 ≤ s.len at h; omega)
      exact ⟨t, e⟩

example (simd : SimdArith F) (sar : Arith F) (m : Mem) (v : Fin 2 → Fin 3 → Fin 16 → F) :
    ∃ m', (Platform.avx512.wide simd sar).write3 v m ⟨8, 200⟩ = .ok m' ∧ m' 200 = m 200 := by
  obtain ⟨m', h, hm⟩ := ((C71_in_bounds .avx512 simd sar m ⟨8, 200⟩).1 (by decide)).2 v
  exact ⟨m', h, hm 200 (.inr (by decide))⟩

/-- **C71**: what the AVX2 and AVX-512 loads do instead: the registers are loaded `LEN` *bytes* apart although each takes
`2·LEN` bytes, so that value `j` of a half is taken from the wrong place as soon as `j ≥ LEN`. -/
theorem C71_load3_x86 (p : Platform) (hp : p = .avx2 ∨ p = .avx512) (simd : SimdArith F) (sar : Arith F) (m : Mem)
    (s : Slice) (h : 12 * lanes p ≤ s.len) : ∃ t, (p.wide simd sar).load3 m s = .ok t ∧
      ∀ (k : Fin 2) (c : Fin 3) (i : Fin (p.wide simd sar).LEN), t k c i =
        ofNat (wordAt m (s.addr + 3 * lanes p * k + lanes p * ((3 * i + c) / lanes p)) ((3 * i + c) % lanes p)) := by
  rcases hp with rfl | rfl
  · obtain ⟨t, e, ht⟩ := Avx2.loadU16x3_eq (F := F) m s (by change 96 ≤ s.len at h; omega)
    exact ⟨t, e, ht⟩
  · obtain ⟨t, e, ht⟩ := Avx512.loadU16x3_eq (F := F) m s (by change 192 ≤ s.len at h; omega)
    exact ⟨t, e, ht⟩

/-- **C71**: the same for four channels. -/
theorem C71_load4_x86 (p : Platform) (hp : p = .avx2 ∨ p = .avx512) (simd : SimdArith F) (sar : Arith F) (m : Mem)
    (s : Slice) (h : 16 * lanes p ≤ s.len) : ∃ t, (p.wide simd sar).load4 m s = .ok t ∧
      ∀ (k : Fin 2) (c : Fin 4) (i : Fin (p.wide simd sar).LEN), t k c i =
        ofNat (wordAt m (s.addr + 4 * lanes p * k + lanes p * ((4 * i + c) / lanes p)) ((4 * i + c) % lanes p)) := by
  rcases hp with rfl | rfl
  · obtain ⟨t, e, ht⟩ := Avx2.loadU16x4_eq (F := F) m s (by change 128 ≤ s.len at h; omega)
    exact ⟨t, e, ht⟩
  · obtain ⟨t, e, ht⟩ := Avx512.loadU16x4_eq (F := F) m s (by change 256 ≤ s.len at h; omega)
    exact ⟨t, e, ht⟩

example (simd : SimdArith F) (sar : Arith F) (m : Mem) : ∃ t, (Platform.avx2.wide simd sar).load4 m ⟨0, 128⟩ = .ok t ∧
    t 0 0 (2 : Fin 8) = ofNat ((m 8).toNat + 256 * (m 9).toNat) := by
  obtain ⟨t, e, ht⟩ := C71_load4_x86 .avx2 (.inl rfl) simd sar m ⟨0, 128⟩ (by decide)
  exact ⟨t, e, by simpa [wordAt, lanes] using ht 0 0 (2 : Fin 8)⟩

/-- **C71**: what the AVX2 stores of four channels do instead: the pixels of each half are stored in the order
`0 1 4 5 2 3 6 7`.  (Byte `b` of value `c` of place `t` of half `k`.) -/
theorem C71_write4_avx2 (simd : SimdArith F) (sar : Arith F) (v : Fin 2 → Fin 4 → Fin 8 → F) (m : Mem) (s : Slice)
    (h : 128 ≤ s.len) : ∃ m', (Platform.avx2.wide simd sar).write4 v m s = .ok m' ∧
      ∀ (k : Fin 2) (t : Fin 8) (c : Fin 4) (b : Fin 2),
        m' (s.addr + (64 * k + 8 * t + 2 * c + b)) =
          u16byte (Platform.avx2.q16i simd sar (v k c (setr8 0 1 4 5 2 3 6 7 t))) b := by
  refine ⟨_, if_pos h, fun k t c b => (store_word m s.addr _ _ _ (by omega)).trans ?_⟩
  have e1 : (64 * k.val + 8 * t + 2 * c + b) % 2 = b := by omega
  simp only [e1]
  refine congrArg (fun x => u16byte x b) ?_
  refine (arr2_half (fun k => Avx2.both (Avx2.interleave4_u16 simd (v k 0) (v k 1) (v k 2) (v k 3))) k
    ⟨4 * t + c, by omega⟩ _ (show (64 * k.val + 8 * t + 2 * c + b) / 2 = 32 * k + (4 * t + c) by omega)).trans ?_
  rw [Avx2.both_eq simd (v k), order4_8]
  refine congrArg (Avx2.q16 simd) ?_
  congr 1
  · congr 1; show (4 * t.val + c) % 4 = c; omega
  · apply Fin.ext
    show (4 * t.val + c) / 4 % 2 + 4 * ((4 * t.val + c) / 8 % 2) + 2 * ((4 * t.val + c) / 16) =
      t % 2 + 4 * (t / 2 % 2) + 2 * (t / 4)
    omega

/-- **C71**: what the AVX-512 stores of four channels do instead: the pixels of each half are stored in the order
`0 1 4 5 8 9 12 13 2 3 6 7 10 11 14 15`. -/
theorem C71_write4_avx512 (simd : SimdArith F) (sar : Arith F) (v : Fin 2 → Fin 4 → Fin 16 → F) (m : Mem) (s : Slice)
    (h : 256 ≤ s.len) : ∃ m', (Platform.avx512.wide simd sar).write4 v m s = .ok m' ∧
      ∀ (k : Fin 2) (t : Fin 16) (c : Fin 4) (b : Fin 2),
        m' (s.addr + (128 * k + 8 * t + 2 * c + b)) =
          u16byte (Platform.avx512.q16i simd sar (v k c (setr16 0 1 4 5 8 9 12 13 2 3 6 7 10 11 14 15 t))) b := by
  refine ⟨_, if_pos h, fun k t c b => (store_word m s.addr _ _ _ (by omega)).trans ?_⟩
  have e1 : (128 * k.val + 8 * t + 2 * c + b) % 2 = b := by omega
  simp only [e1]
  refine congrArg (fun x => u16byte x b) ?_
  refine (arr2_half (fun k => Avx512.both (Avx512.interleave4_u16 simd (v k 0) (v k 1) (v k 2) (v k 3))) k
    ⟨4 * t + c, by omega⟩ _ (show (128 * k.val + 8 * t + 2 * c + b) / 2 = 64 * k + (4 * t + c) by omega)).trans ?_
  rw [Avx512.both_eq simd (v k), order4_16]
  refine congrArg (Avx2.q16 simd) ?_
  congr 1
  · congr 1; show (4 * t.val + c) % 4 = c; omega
  · apply Fin.ext
    show (4 * t.val + c) / 4 % 2 + 4 * ((4 * t.val + c) / 8 % 4) + 2 * ((4 * t.val + c) / 32) =
      t % 2 + 4 * (t / 2 % 4) + 2 * (t / 8)
    omega

/-- **C71**: what the AVX2 stores of three channels do instead.  Of the eight pixels of a half the places are filled, channel
by channel, from pixels `0 1 (0,0,4) 5 2 3 (2,2,6) 7`: pixel 4 and pixel 6 lose their first two channels. -/
theorem C71_write3_avx2 (simd : SimdArith F) (sar : Arith F) (v : Fin 2 → Fin 3 → Fin 8 → F) (m : Mem) (s : Slice)
    (h : 96 ≤ s.len) : ∃ m', (Platform.avx2.wide simd sar).write3 v m s = .ok m' ∧
      ∀ (k : Fin 2) (t : Fin 8) (c : Fin 3) (b : Fin 2),
        m' (s.addr + (48 * k + 6 * t + 2 * c + b)) =
          u16byte (Platform.avx2.q16i simd sar (v k c
            (setr8 0 1 (if c = 2 then 4 else 0) 5 2 3 (if c = 2 then 6 else 2) 7 t))) b := by
  refine ⟨_, if_pos h, fun k t c b => (store_word m s.addr _ _ _ (by omega)).trans ?_⟩
  refine (arr2_half (fun k => Avx2.interleave3_u16 simd (v k 0) (v k 1) (v k 2)) k
    ⟨6 * t + 2 * c + b, by omega⟩ _
    (show 48 * k.val + 6 * t + 2 * c + b = 48 * k + (6 * t + 2 * c + b) by omega)).trans ?_
  rw [Avx2.interleave3_u16_eq simd (v k), order3_8]
  have e1 : (6 * t.val + 2 * c + b) % 2 = b := by omega
  have e2 : (6 * t.val + 2 * c + b) / 2 = 3 * t + c := by omega
  have e3 : (6 * t.val + 2 * c + b) / 24 = (3 * t + c) / 12 := by omega
  have e4 : (⟨(3 * t.val + c) % 3, by omega⟩ : Fin 3) = c := Fin.ext (by show (3 * t.val + c) % 3 = c; omega)
  simp only [e1, e2, e3, e4]
  rfl

/-- **C71**: the same on AVX-512, with the pixels `0 1 (0,0,4) 5 8 9 (8,8,12) 13 2 3 (2,2,6) 7 10 11 (10,10,14) 15`. -/
theorem C71_write3_avx512 (simd : SimdArith F) (sar : Arith F) (v : Fin 2 → Fin 3 → Fin 16 → F) (m : Mem) (s : Slice)
    (h : 192 ≤ s.len) : ∃ m', (Platform.avx512.wide simd sar).write3 v m s = .ok m' ∧
      ∀ (k : Fin 2) (t : Fin 16) (c : Fin 3) (b : Fin 2),
        m' (s.addr + (96 * k + 6 * t + 2 * c + b)) =
          u16byte (Platform.avx512.q16i simd sar (v k c
            (setr16 0 1 (if c = 2 then 4 else 0) 5 8 9 (if c = 2 then 12 else 8) 13
              2 3 (if c = 2 then 6 else 2) 7 10 11 (if c = 2 then 14 else 10) 15 t))) b := by
  refine ⟨_, if_pos h, fun k t c b => (store_word m s.addr _ _ _ (by omega)).trans ?_⟩
  refine (arr2_half (fun k => Avx512.interleave3_u16 simd (v k 0) (v k 1) (v k 2)) k
    ⟨6 * t + 2 * c + b, by omega⟩ _
    (show 96 * k.val + 6 * t + 2 * c + b = 96 * k + (6 * t + 2 * c + b) by omega)).trans ?_
  rw [Avx512.interleave3_u16_eq simd (v k), order3_16]
  have e1 : (6 * t.val + 2 * c + b) % 2 = b := by omega
  have e2 : (6 * t.val + 2 * c + b) / 2 = 3 * t + c := by omega
  have e3 : (6 * t.val + 2 * c + b) / 48 = (3 * t + c) / 24 := by omega
  have e5 : (6 * t.val + 2 * c + b) / 24 = (3 * t + c) / 12 := by omega
  have e4 : (⟨(3 * t.val + c) % 3, by omega⟩ : Fin 3) = c := Fin.ext (by show (3 * t.val + c) % 3 = c; omega)
  simp only [e1, e2, e3, e4, e5]
  rfl

/-! ### The claim is false on x86 -/

/-- Memory `0 1 2 3 …`. -/
def ramp : Mem := fun a => UInt8.ofNat a

/-- Pixel `i` has the value `i` in all channels. -/
def count (n c : Nat) : Fin 2 → Fin c → Fin n → F32 := fun _ _ i => ofNat i

/-- **C71 is false** on AVX2 and AVX-512, with actual `f32` values: none of the four operations meets its contract. -/
theorem C71_false (p : Platform) (hp : p = .avx2 ∨ p = .avx512) (l : Libm) (sar : Arith F32) :
    ¬ (p.wide (x86Arith l) sar).Load3 ∧ ¬ (p.wide (x86Arith l) sar).Load4 ∧
      ¬ (p.wide (x86Arith l) sar).Write3 (p.q16i (x86Arith l) sar) ∧
      ¬ (p.wide (x86Arith l) sar).Write4 (p.q16i (x86Arith l) sar) := by
  rcases hp with rfl | rfl
  · refine ⟨fun hl => ?_, fun hl => ?_, fun hl => ?_, fun hl => ?_⟩
    · obtain ⟨t, e, ht⟩ := C71_load3_x86 .avx2 (.inl rfl) (x86Arith l) sar ramp ⟨0, 96⟩ (by decide)
      have h := ((hl ramp ⟨0, 96⟩).trans (if_pos (show 12 * 8 ≤ 96 by decide))).symm.trans e
      have h2 := (congrFun (congrFun (congrFun (Except.ok.inj h) ⟨0, by decide⟩) ⟨0, by decide⟩) (⟨3, by decide⟩ : Fin 8)).trans
        (ht ⟨0, by decide⟩ ⟨0, by decide⟩ (⟨3, by decide⟩ : Fin 8))
      have h3 : (ofNat (wordAt ramp 0 9) : F32) = ofNat (wordAt ramp 8 1) := by simpa [lanes, wide_len] using h2
      exact absurd h3 (by decide +kernel)
    · obtain ⟨t, e, ht⟩ := C71_load4_x86 .avx2 (.inl rfl) (x86Arith l) sar ramp ⟨0, 128⟩ (by decide)
      have h := ((hl ramp ⟨0, 128⟩).trans (if_pos (show 16 * 8 ≤ 128 by decide))).symm.trans e
      have h2 := (congrFun (congrFun (congrFun (Except.ok.inj h) ⟨0, by decide⟩) ⟨0, by decide⟩) (⟨2, by decide⟩ : Fin 8)).trans
        (ht ⟨0, by decide⟩ ⟨0, by decide⟩ (⟨2, by decide⟩ : Fin 8))
      have h3 : (ofNat (wordAt ramp 0 8) : F32) = ofNat (wordAt ramp 8 0) := by simpa [lanes, wide_len] using h2
      exact absurd h3 (by decide +kernel)
    · obtain ⟨m', e, hm⟩ := C71_write3_avx2 (x86Arith l) sar (count 8 3) ramp ⟨0, 96⟩ (by decide)
      have h2 := hl.at_byte (count 8 3) ramp m' ⟨0, 96⟩ (show 12 * 8 ≤ 96 by decide) e (2 : Fin 8) 0
      have h3 := h2.symm.trans (hm 0 2 0 0)
      have h4 : u16byte (packus32 (cvtps (ofNat 2))) 0 = u16byte (packus32 (cvtps (ofNat 0))) 0 := h3
      exact absurd h4 (by decide +kernel)
    · obtain ⟨m', e, hm⟩ := C71_write4_avx2 (x86Arith l) sar (count 8 4) ramp ⟨0, 128⟩ (by decide)
      have h2 := hl.at_byte (count 8 4) ramp m' ⟨0, 128⟩ (show 16 * 8 ≤ 128 by decide) e (2 : Fin 8) 0
      have h3 := h2.symm.trans (hm 0 2 0 0)
      have h4 : u16byte (packus32 (cvtps (ofNat 2))) 0 = u16byte (packus32 (cvtps (ofNat 4))) 0 := h3
      exact absurd h4 (by decide +kernel)
  · refine ⟨fun hl => ?_, fun hl => ?_, fun hl => ?_, fun hl => ?_⟩
    · obtain ⟨t, e, ht⟩ := C71_load3_x86 .avx512 (.inr rfl) (x86Arith l) sar ramp ⟨0, 192⟩ (by decide)
      have h := ((hl ramp ⟨0, 192⟩).trans (if_pos (show 12 * 16 ≤ 192 by decide))).symm.trans e
      have h2 := (congrFun (congrFun (congrFun (Except.ok.inj h) ⟨0, by decide⟩) ⟨0, by decide⟩) (⟨6, by decide⟩ : Fin 16)).trans
        (ht ⟨0, by decide⟩ ⟨0, by decide⟩ (⟨6, by decide⟩ : Fin 16))
      have h3 : (ofNat (wordAt ramp 0 18) : F32) = ofNat (wordAt ramp 16 2) := by simpa [lanes, wide_len] using h2
      exact absurd h3 (by decide +kernel)
    · obtain ⟨t, e, ht⟩ := C71_load4_x86 .avx512 (.inr rfl) (x86Arith l) sar ramp ⟨0, 256⟩ (by decide)
      have h := ((hl ramp ⟨0, 256⟩).trans (if_pos (show 16 * 16 ≤ 256 by decide))).symm.trans e
      have h2 := (congrFun (congrFun (congrFun (Except.ok.inj h) ⟨0, by decide⟩) ⟨0, by decide⟩) (⟨4, by decide⟩ : Fin 16)).trans
        (ht ⟨0, by decide⟩ ⟨0, by decide⟩ (⟨4, by decide⟩ : Fin 16))
      have h3 : (ofNat (wordAt ramp 0 16) : F32) = ofNat (wordAt ramp 16 0) := by simpa [lanes, wide_len] using h2
      exact absurd h3 (by decide +kernel)
    · obtain ⟨m', e, hm⟩ := C71_write3_avx512 (x86Arith l) sar (count 16 3) ramp ⟨0, 192⟩ (by decide)
      have h2 := hl.at_byte (count 16 3) ramp m' ⟨0, 192⟩ (show 12 * 16 ≤ 192 by decide) e (2 : Fin 16) 0
      have h3 := h2.symm.trans (hm 0 2 0 0)
      have h4 : u16byte (packus32 (cvtps (ofNat 2))) 0 = u16byte (packus32 (cvtps (ofNat 0))) 0 := h3
      exact absurd h4 (by decide +kernel)
    · obtain ⟨m', e, hm⟩ := C71_write4_avx512 (x86Arith l) sar (count 16 4) ramp ⟨0, 256⟩ (by decide)
      have h2 := hl.at_byte (count 16 4) ramp m' ⟨0, 256⟩ (show 16 * 16 ≤ 256 by decide) e (2 : Fin 16) 0
      have h3 := h2.symm.trans (hm 0 2 0 0)
      have h4 : u16byte (packus32 (cvtps (ofNat 2))) 0 = u16byte (packus32 (cvtps (ofNat 4))) 0 := h3
      exact absurd h4 (by decide +kernel)

end Ezk.Props

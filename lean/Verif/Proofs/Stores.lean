import Verif.Proofs.F32
import Verif.Spec.Verdict

/-!
# The store instructions on binary32 values
-/

namespace Ezk
open F32 FOps

namespace F32

theorem floor_toNat {v : ℚ} (h : 0 ≤ v) : ((⌊v⌋.toNat : Nat) : ℚ) = ⌊v⌋ := by
  have : 0 ≤ ⌊v⌋ := Int.floor_nonneg.mpr h
  have e : ((⌊v⌋.toNat : Nat) : Int) = ⌊v⌋ := Int.toNat_of_nonneg this
  exact_mod_cast congrArg (Int.cast : Int → ℚ) e

/-- What a store of `T + 1` codes has to do with values of the range: off by less than one code, and not above a code that
is less than a half below. -/
def Near (T : Nat) (q : F32 → Nat) : Prop :=
  ∀ s p, -1 / 2 ≤ signed s p → signed s p < T + 1 / 2 →
    |(q (fin s p) : ℚ) - signed s p| < 1 ∧ ∀ n : Nat, signed s p < n + 1 / 2 → q (fin s p) ≤ n

/-- Rounding to nearest. -/
def Nearest (T : Nat) (q : F32 → Nat) : Prop :=
  ∀ s p, -1 / 2 ≤ signed s p → signed s p < T + 1 / 2 → |(q (fin s p) : ℚ) - signed s p| ≤ 1 / 2

theorem Nearest.near {T : Nat} {q : F32 → Nat} (h : Nearest T q) : Near T q := fun s p h1 h2 => by
  have h3 := h s p h1 h2
  refine ⟨lt_of_le_of_lt h3 (by norm_num), fun n hn => ?_⟩
  have : (q (fin s p) : ℚ) < n + 1 := by linarith [(abs_le.mp h3).2]
  have : q (fin s p) < n + 1 := by exact_mod_cast this
  omega

theorem asUnsigned_nonneg {s : Bool} {p : ℚ} {T : Nat} (h : 0 ≤ signed s p) :
    asUnsigned T (fin s p) = min ⌊signed s p⌋.toNat T := by
  simp only [asUnsigned, trunc_eq_floor h]

theorem asUnsigned_neg {s : Bool} {p : ℚ} {T : Nat} (h : signed s p ≤ 0) : asUnsigned T (fin s p) = 0 := by
  have : (trunc (signed s p)).toNat = 0 := by
    rcases h.eq_or_lt with h | h
    · rw [h]; rfl
    · rw [trunc_neg h]
      have : ⌈signed s p⌉ ≤ 0 := Int.ceil_le.mpr (by exact_mod_cast h.le)
      omega
  simp only [asUnsigned, this]
  omega

theorem asUnsigned_high {s : Bool} {p : ℚ} {T : Nat} (h : (T : ℚ) ≤ signed s p) : asUnsigned T (fin s p) = T := by
  have h0 : 0 ≤ signed s p := le_trans (by positivity) h
  rw [asUnsigned_nonneg h0]
  have : (T : Int) ≤ ⌊signed s p⌋ := Int.le_floor.mpr (by exact_mod_cast h)
  omega

theorem asUnsigned_le (T : Nat) (x : F32) : asUnsigned T x ≤ T := by
  cases x with
  | nan => exact Nat.zero_le _
  | inf s => cases s <;> simp [asUnsigned]
  | fin s p => exact Nat.min_le_right _ _

theorem asUnsigned_floor {s : Bool} {p : ℚ} {T : Nat} (h : 0 ≤ signed s p) (h2 : signed s p < T + 1) :
    (asUnsigned T (fin s p) : ℚ) = ⌊signed s p⌋ := by
  rw [asUnsigned_nonneg h]
  have h3 : ⌊signed s p⌋ < T + 1 := Int.floor_lt.mpr (by exact_mod_cast h2)
  have : min ⌊signed s p⌋.toNat T = ⌊signed s p⌋.toNat := by omega
  rw [this, floor_toNat h]

theorem asUnsigned_near (T : Nat) : Near T (asUnsigned T) := by
  intro s p h1 h2
  rcases le_total 0 (signed s p) with h | h
  · rw [asUnsigned_floor h (by linarith)]
    have a := Int.floor_le (signed s p)
    have b := Int.lt_floor_add_one (signed s p)
    refine ⟨by rw [abs_lt]; constructor <;> linarith, fun n hn => ?_⟩
    have e := asUnsigned_floor h (T := T) (by linarith)
    have : (asUnsigned T (fin s p) : ℚ) < n + 1 := by rw [e]; linarith
    have : asUnsigned T (fin s p) < n + 1 := by exact_mod_cast this
    omega
  · rw [asUnsigned_neg h, abs_lt]
    push_cast
    refine ⟨⟨by linarith, by linarith⟩, fun n _ => Nat.zero_le n⟩

theorem cvtps_of_range {s : Bool} {p : ℚ} (h1 : -2 ^ 31 ≤ signed s p) (h2 : signed s p < 2 ^ 31 - 1 / 2) :
    cvtps (fin s p) = rne (signed s p) := by
  have a : -2 ^ 31 ≤ rne (signed s p) := le_rne (n := -2 ^ 31) (by exact_mod_cast h1)
  have b : rne (signed s p) < 2 ^ 31 := by
    have h3 := (abs_le.mp (rne_near (signed s p))).2
    have : (rne (signed s p) : ℚ) < 2 ^ 31 := by linarith
    exact_mod_cast this
  simp only [cvtps, if_pos (And.intro a b)]

theorem rne_bounds {v : ℚ} {T : Nat} (h1 : -1 / 2 ≤ v) (h2 : v < T + 1 / 2) : 0 ≤ rne v ∧ rne v ≤ T := by
  constructor
  · have h : rne (-1 / 2) ≤ rne v := rne_mono h1
    have e : rne (-1 / 2) = 0 := by decide +kernel
    omega
  · have h3 := (abs_le.mp (rne_near v)).2
    have : (rne v : ℚ) < T + 1 := by linarith
    have : rne v < T + 1 := by exact_mod_cast this
    omega

/-- The x86 stores narrow the integer; every narrowing that keeps the codes gives the nearest code. -/
theorem cvtps_nearest {T : Nat} (hT : T ≤ 65535) (g : Int → Nat) (hg : ∀ i : Int, 0 ≤ i → i ≤ T → g i = i.toNat) :
    Nearest T (fun x => g (cvtps x)) := by
  intro s p h1 h2
  have hT' : (T : ℚ) ≤ 65535 := by exact_mod_cast hT
  obtain ⟨a, b⟩ := rne_bounds h1 h2
  have e : cvtps (fin s p) = rne (signed s p) := cvtps_of_range (by linarith) (by linarith)
  simp only [e]
  rw [hg _ a b]
  have e : (((rne (signed s p)).toNat : Nat) : ℚ) = rne (signed s p) := by
    exact_mod_cast congrArg (Int.cast : Int → ℚ) (Int.toNat_of_nonneg a)
  rw [e]
  exact rne_near _

theorem u8_toNat {n : Nat} (h : n ≤ 255) : (UInt8.ofNat n).toNat = n := by
  rw [UInt8.toNat_ofNat']; omega

theorem u16_toNat {n : Nat} (h : n ≤ 65535) : (UInt16.ofNat n).toNat = n := by
  rw [UInt16.toNat_ofNat']; omega

theorem packus32_toNat (i : Int) : (packus32 i).toNat = if i < 0 then 0 else if 65535 < i then 65535 else i.toNat := by
  unfold packus32
  split
  · rfl
  · split
    · rfl
    · rw [u16_toNat (by omega)]

theorem packus16_toNat (v : UInt16) :
    (packus16 v).toNat = if 32768 ≤ v.toNat then 0 else if 255 < v.toNat then 255 else v.toNat := by
  unfold packus16
  split
  · rfl
  · split
    · rfl
    · rw [u8_toNat (by omega)]

theorem truncate8_toNat (i : Int) : (truncate8 i).toNat = (i % 256).toNat := by
  unfold truncate8; rw [u8_toNat (by omega)]

theorem truncate16_toNat (i : Int) : (truncate16 i).toNat = (i % 65536).toNat := by
  unfold truncate16; rw [u16_toNat (by omega)]

theorem pack8_toNat (i : Int) :
    (packus16 (packus32 i)).toNat = if i < 0 then 0 else if 32768 ≤ i then 0 else if 255 < i then 255 else i.toNat := by
  rw [packus16_toNat, packus32_toNat]
  split_ifs <;> omega

theorem fcvtzu_toNat (x : F32) : (fcvtzu x).toNat = asUnsigned (2 ^ 32 - 1) x := by
  unfold fcvtzu
  have := asUnsigned_le (2 ^ 32 - 1) x
  rw [UInt32.toNat_ofNat']
  omega

theorem asUnsigned_min {S T : Nat} (h : T ≤ S) (x : F32) : min (asUnsigned S x) T = asUnsigned T x := by
  cases x with
  | nan => simp [asUnsigned]
  | inf s => cases s <;> simp [asUnsigned, h]
  | fin s p => simp only [asUnsigned]; omega

theorem neon8_toNat (lib : Libm) (x : F32) : (Neon.q8 (neonArith lib) x).toNat = asUnsigned 255 x := by
  have h := fcvtzu_toNat x
  have h2 := asUnsigned_min (S := 2 ^ 32 - 1) (T := 255) (by norm_num) x
  have hc : (neonArith lib).cvtU x = fcvtzu x := rfl
  unfold Neon.q8
  rw [hc]
  split
  · rename_i hl
    have hl' : (fcvtzu x).toNat ≤ 255 := hl
    simp only [UInt16.toNat_toUInt8, UInt32.toNat_toUInt16]
    omega
  · rename_i hl
    have hl' : ¬ (fcvtzu x).toNat ≤ 255 := hl
    have : (asUnsigned 255 x) = 255 := by omega
    rw [this]; rfl

theorem neon16_toNat (lib : Libm) (x : F32) : (Neon.q16 (neonArith lib) x).toNat = asUnsigned 65535 x := by
  have h := fcvtzu_toNat x
  have h2 := asUnsigned_min (S := 2 ^ 32 - 1) (T := 65535) (by norm_num) x
  have hc : (neonArith lib).cvtU x = fcvtzu x := rfl
  unfold Neon.q16
  rw [hc]
  split
  · rename_i hl
    have hl' : (fcvtzu x).toNat ≤ 65535 := hl
    simp only [UInt32.toNat_toUInt16]
    omega
  · rename_i hl
    have hl' : ¬ (fcvtzu x).toNat ≤ 65535 := hl
    have : (asUnsigned 65535 x) = 65535 := by omega
    rw [this]; rfl

end F32

/-- IEEE arithmetic with stores that are off by less than one code. -/
structure IsIeee (ar : Arith F32) : Prop where
  add : ar.add = F32.add
  sub : ar.sub = F32.sub
  mul : ar.mul = F32.mul
  div : ar.div = F32.div
  q8 : Near 255 (fun x => (ar.q8 x).toNat)
  q8i : Near 255 (fun x => (ar.q8i x).toNat)
  q16 : Near 65535 (fun x => (ar.q16 x).toNat)

theorem scalar_ieee (lib : Libm) : IsIeee (scalarBackend (scalarArith lib)).ar := by
  refine ⟨rfl, rfl, rfl, rfl, ?_, ?_, ?_⟩
  · intro s p h1 h2
    change |(((UInt8.ofNat (asUnsigned 255 (fin s p))).toNat : Nat) : ℚ) - _| < 1 ∧
      ∀ n : Nat, _ → (UInt8.ofNat (asUnsigned 255 (fin s p))).toNat ≤ n
    rw [u8_toNat (asUnsigned_le _ _)]
    exact asUnsigned_near 255 s p h1 h2
  · intro s p h1 h2
    change |(((UInt8.ofNat (asUnsigned 255 (fin s p))).toNat : Nat) : ℚ) - _| < 1 ∧
      ∀ n : Nat, _ → (UInt8.ofNat (asUnsigned 255 (fin s p))).toNat ≤ n
    rw [u8_toNat (asUnsigned_le _ _)]
    exact asUnsigned_near 255 s p h1 h2
  · intro s p h1 h2
    change |(((UInt16.ofNat (asUnsigned 65535 (fin s p))).toNat : Nat) : ℚ) - _| < 1 ∧
      ∀ n : Nat, _ → (UInt16.ofNat (asUnsigned 65535 (fin s p))).toNat ≤ n
    rw [u16_toNat (asUnsigned_le _ _)]
    exact asUnsigned_near 65535 s p h1 h2

theorem pack8_nearest : Nearest 255 (fun x => (packus16 (packus32 (cvtps x))).toNat) :=
  cvtps_nearest (by norm_num) (fun i => (packus16 (packus32 i)).toNat) (fun i h0 h1 => by
    simp only [pack8_toNat]; split_ifs <;> omega)

theorem pack16_nearest : Nearest 65535 (fun x => (packus32 (cvtps x)).toNat) :=
  cvtps_nearest (by norm_num) (fun i => (packus32 i).toNat) (fun i h0 h1 => by
    simp only [packus32_toNat]; split_ifs <;> omega)

theorem trunc8_nearest : Nearest 255 (fun x => (truncate8 (cvtps x)).toNat) :=
  cvtps_nearest (by norm_num) (fun i => (truncate8 i).toNat) (fun i h0 h1 => by
    simp only [truncate8_toNat]; omega)

theorem trunc16_nearest : Nearest 65535 (fun x => (truncate16 (cvtps x)).toNat) :=
  cvtps_nearest (by norm_num) (fun i => (truncate16 i).toNat) (fun i h0 h1 => by
    simp only [truncate16_toNat]; omega)

theorem vec_ieee (p : Platform) (simd scalar : Libm) : IsIeee (p.ieee simd scalar).vec.ar := by
  cases p with
  | scalar => exact scalar_ieee scalar
  | avx2 => exact ⟨rfl, rfl, rfl, rfl, pack8_nearest.near, pack8_nearest.near, pack16_nearest.near⟩
  | avx512 => exact ⟨rfl, rfl, rfl, rfl, trunc8_nearest.near, pack8_nearest.near, trunc16_nearest.near⟩
  | neon =>
    have h8 : Near 255 (fun x => (Neon.q8 (neonArith simd) x).toNat) := fun s p h1 h2 => by
      simp only [neon8_toNat]; exact asUnsigned_near 255 s p h1 h2
    have h16 : Near 65535 (fun x => (Neon.q16 (neonArith simd) x).toNat) := fun s p h1 h2 => by
      simp only [neon16_toNat]; exact asUnsigned_near 65535 s p h1 h2
    exact ⟨rfl, rfl, rfl, rfl, h8, h8, h16⟩

theorem column_ieee (p : Platform) (simd scalar : Libm) (w x : Nat) :
    IsIeee (Spec.columnArith (p.ieee simd scalar) w x) := by
  unfold Spec.columnArith
  split
  · exact vec_ieee p simd scalar
  · cases p <;> exact scalar_ieee scalar

/-- A code is stored as itself. -/
theorem F32.Near.exact {T : Nat} {q : F32 → Nat} (h : Near T q) {n : Nat} (hn : n ≤ T) : q (fin false n) = n := by
  have hn' : (n : ℚ) ≤ T := by exact_mod_cast hn
  have := (h false n (by simp only [signed, Bool.false_eq_true, if_false]; linarith [(Nat.cast_nonneg n : (0 : ℚ) ≤ n)])
    (by simp only [signed, Bool.false_eq_true, if_false]; linarith)).1
  simp only [signed, Bool.false_eq_true, if_false] at this
  rw [abs_lt] at this
  have a : (q (fin false n) : ℚ) < n + 1 := by linarith [this.2]
  have b : (n : ℚ) < q (fin false n) + 1 := by linarith [this.1]
  have a' : q (fin false n) < n + 1 := by exact_mod_cast a
  have b' : n < q (fin false n) + 1 := by exact_mod_cast b
  omega

end Ezk

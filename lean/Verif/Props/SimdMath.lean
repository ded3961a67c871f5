import Verif.Proofs.SimdExp

/-!
# C47: the logarithm, power and square root of the vector code

The vector code does not call the system's functions: `ln`, `exp` and `pow` are polynomial approximations with their own range
reduction on the bits of the numbers (`Model/SimdMath.lean`).  Arguments range over all bit patterns.
-/

namespace Ezk.Props
open Ezk F32

/-- The functions used by AVX2 and AVX-512, or by NEON. -/
def VectorLibm (lib : Libm) : Prop := ∃ p : Platform, p ≠ .scalar ∧ ∀ scalar, lib = p.libm scalar

/-- The numbers: those with a bit pattern. -/
def HasBits (x : F32) : Prop := ∃ b : BitVec 32, x = ofBits b

theorem VectorLibm.cases {lib : Libm} (h : VectorLibm lib) : lib = x86Libm ∨ lib = neonLibm := by
  obtain ⟨p, hp, h⟩ := h
  have := h x86Libm
  cases p
  · exact absurd rfl hp
  · exact Or.inl this
  · exact Or.inl this
  · exact Or.inr this

theorem HasBits.rep {s : Bool} {p : ℚ} (h : HasBits (fin s p)) : Rep p ∧ 0 ≤ p ∧ p < 2 ^ 128 := by
  obtain ⟨b, hb⟩ := h
  rw [ofBits] at hb
  have hb0 := b.isLt
  have hm : b.toNat % 2 ^ 23 < 2 ^ 23 := Nat.mod_lt _ (by norm_num)
  have he : b.toNat / 2 ^ 23 % 2 ^ 8 < 256 := Nat.mod_lt _ (by norm_num)
  generalize b.toNat % 2 ^ 23 = m at *
  generalize b.toNat / 2 ^ 23 % 2 ^ 8 = e at *
  split at hb
  · split at hb <;> exact absurd hb nofun
  · rename_i h255
    split at hb
    · injection hb with _ hb
      subst hb
      rw [pow2_eq]
      refine ⟨⟨m, -149, by omega, le_refl _, rfl⟩, by positivity, ?_⟩
      have : (m : ℚ) < 2 ^ 23 := by exact_mod_cast hm
      have h2 : (2 : ℚ) ^ (-149 : Int) ≤ 1 := by norm_num
      calc (m : ℚ) * 2 ^ (-149 : Int) ≤ 2 ^ 23 * 1 := mul_le_mul this.le h2 (by positivity) (by norm_num)
        _ < 2 ^ 128 := by norm_num
    · injection hb with _ hb
      subst hb
      rw [pow2_eq]
      refine ⟨⟨2 ^ 23 + m, e - 150, by omega, by omega, rfl⟩, by positivity, ?_⟩
      have h1 : ((2 ^ 23 + m : Nat) : ℚ) < ((2 ^ 24 : Nat) : ℚ) := by exact_mod_cast (by omega : 2 ^ 23 + m < 2 ^ 24)
      have h2 : (2 : ℚ) ^ ((e : Int) - 150) ≤ (2 : ℚ) ^ (104 : Int) := zpow_le_of_le (by omega)
      calc ((2 ^ 23 + m : Nat) : ℚ) * (2 : ℚ) ^ ((e : Int) - 150) < ((2 ^ 24 : Nat) : ℚ) * (2 : ℚ) ^ ((e : Int) - 150) :=
            mul_lt_mul_of_pos_right h1 (pow2_pos _)
        _ ≤ ((2 ^ 24 : Nat) : ℚ) * (2 : ℚ) ^ (104 : Int) := mul_le_mul_of_nonneg_left h2 (by positivity)
        _ = 2 ^ 128 := by norm_num

variable {lib : Libm} {p : ℚ}

/-- **C47**: `ln` of every normal number below `2^127`. -/
theorem C47_ln (hl : VectorLibm lib) (hb : HasBits (fin false p)) (h1 : (2 : ℚ) ^ (-126 : Int) ≤ p) (h2 : p < 2 ^ 127) :
    ∃ s r, lib.ln (fin false p) = fin s r ∧
      |((signed s r : ℚ) : ℝ) - Real.log p| ≤ 1 / 10 ^ 7 * (1 + |Real.log p|) := by
  obtain ⟨hr, h0, -⟩ := hb.rep
  obtain ⟨L, a, b, c, -⟩ := log_field hr h0 h2
  obtain rfl := c h1
  rcases hl.cases with rfl | rfl
  · obtain ⟨s, r, e, -, h⟩ := a
    exact ⟨s, r, e, h⟩
  · obtain ⟨s, r, e, -, h⟩ := b
    exact ⟨s, r, e, h⟩

/-- **C47**: powers of every normal number below `2^127`, unless they overflow; `y` may be of either sign. -/
theorem C47_pow (hl : VectorLibm lib) (hb : HasBits (fin false p)) (h1 : (2 : ℚ) ^ (-126 : Int) ≤ p) (h2 : p < 2 ^ 127)
    {t : Bool} {q : ℚ} (hq : 0 ≤ q) (hq' : q ≤ 100) (ho : ((signed t q : ℚ) : ℝ) * Real.log p ≤ 88) :
    ∃ r, lib.pow (fin false p) (fin t q) = fin false r ∧ 0 ≤ r ∧
      |(r : ℝ) - (p : ℝ) ^ ((signed t q : ℚ) : ℝ)| ≤
        (43 / 10 ^ 8 + 17 / 10 ^ 8 * q * (1 + |Real.log p|)) * (p : ℝ) ^ ((signed t q : ℚ) : ℝ) + 1 / 10 ^ 36 := by
  obtain ⟨hr, -, -⟩ := hb.rep
  have hpow : PowAccurate lib.pow := by
    rcases hl.cases with rfl | rfl
    exacts [pow_x86, pow_neon]
  obtain ⟨r, e1, e2, e3⟩ := hpow.1 hr h1 h2 (is_fin (s := t) hq) (by rw [signed_abs hq]; exact hq') ho
  refine ⟨r, e1, e2, e3.trans ?_⟩
  have ea : |((signed t q : ℚ) : ℝ)| = q := by
    have := signed_abs (s := t) hq
    have h3 : ((|signed t q| : ℚ) : ℝ) = (q : ℝ) := by rw [this]
    push_cast at h3; exact h3
  rw [ea]
  norm_num

/-- **C47**: positive powers of zero and of subnormal numbers are (nearly) zero. -/
theorem C47_pow_tiny (hl : VectorLibm lib) (hb : HasBits (fin false p)) (h1 : p < (2 : ℚ) ^ (-126 : Int)) {q : ℚ} (hq : 0 < q)
    (hq' : q ≤ 100) :
    ∃ r, lib.pow (fin false p) (fin false q) = fin false r ∧ 0 ≤ r ∧ (r : ℝ) ≤ 101 / 100 * Real.exp (-(87 * q)) + 1 / 10 ^ 36 := by
  obtain ⟨hr, h0, -⟩ := hb.rep
  have hpow : PowAccurate lib.pow := by
    rcases hl.cases with rfl | rfl
    exacts [pow_x86, pow_neon]
  obtain ⟨r, e1, e2, e3⟩ := hpow.2 hr h0 h1 (is_fin (s := false) hq.le) hq hq'
  refine ⟨r, e1, e2, e3.trans ?_⟩
  have : signed false q = q := rfl
  rw [this]
  norm_num

/-- **C47**: `sqrt` of every nonnegative number. -/
theorem C47_sqrt (hl : VectorLibm lib) (hb : HasBits (fin false p)) :
    ∃ r, lib.sqrt (fin false p) = fin false r ∧ 0 ≤ r ∧ |(r : ℝ) - Real.sqrt p| ≤ 7 / 10 ^ 8 * Real.sqrt p := by
  obtain ⟨hr, h0, h2⟩ := hb.rep
  have : lib.sqrt = F32.sqrt := by rcases hl.cases with rfl | rfl <;> rfl
  rw [this]
  exact sqrt_app hr h0 h2

/-- Powers of negative numbers are NaN on AVX2 and AVX-512 (of `-0`, they are not). -/
theorem C47_pow_negative (hp : 0 < p) (y : F32) : x86Libm.pow (fin true p) y = nan := by
  have h1 : x86Log (fin true p) = nan := by
    have : le zero (fin true p) = false := by
      simp only [zero, le, signed, if_true, Bool.false_eq_true, if_false, decide_eq_false_iff_not, not_le]
      linarith
    rw [x86Log, this]
    rfl
  have h2 : ∀ y, mul y nan = nan := by intro y; cases y <;> rfl
  have h3 : x86Exp nan = nan := by decide +kernel
  change x86Exp (mul y (x86Log (fin true p))) = nan
  rw [h1, h2, h3]

/-- There are two such libraries, and numbers. -/
example : VectorLibm x86Libm ∧ VectorLibm neonLibm ∧ HasBits (fin false (1 / 2)) ∧ HasBits (fin false 0) :=
  ⟨⟨.avx2, nofun, fun _ => rfl⟩, ⟨.neon, nofun, fun _ => rfl⟩, ⟨0x3f000000#32, by decide +kernel⟩,
    ⟨0#32, by decide +kernel⟩⟩

/-- `0.5 ^ 2.2` as computed by AVX2. -/
example : ∃ r, x86Libm.pow (fin false (1 / 2)) (fin false (22 / 10)) = fin false r ∧
    |(r : ℝ) - ((1 / 2 : ℚ) : ℝ) ^ ((22 / 10 : ℚ) : ℝ)| ≤ 1 / 10 ^ 5 := by
  have hlog : |Real.log ((1 / 2 : ℚ) : ℝ)| ≤ 1 := by
    have : ((1 / 2 : ℚ) : ℝ) = 2⁻¹ := by norm_num
    rw [this, Real.log_inv, abs_neg, abs_of_pos (Real.log_pos (by norm_num))]
    have := log2_bounds.2
    norm_num at this ⊢; linarith
  have hneg : Real.log ((1 / 2 : ℚ) : ℝ) ≤ 0 := Real.log_nonpos (by norm_num) (by norm_num)
  obtain ⟨r, h1, h2, h3⟩ := C47_pow (lib := x86Libm) (p := 1 / 2) ⟨.avx2, nofun, fun _ => rfl⟩
    ⟨0x3f000000#32, by decide +kernel⟩ (by norm_num) (by norm_num) (t := false) (q := 22 / 10) (by norm_num) (by norm_num)
    (by simp only [signed, Bool.false_eq_true, if_false]; push_cast; nlinarith)
  refine ⟨r, h1, h3.trans ?_⟩
  have hs : signed false (22 / 10) = 22 / 10 := rfl
  rw [hs]
  have hp : ((1 / 2 : ℚ) : ℝ) ^ ((22 / 10 : ℚ) : ℝ) ≤ 1 := Real.rpow_le_one (by norm_num) (by norm_num) (by norm_num)
  have hp0 : (0 : ℝ) ≤ ((1 / 2 : ℚ) : ℝ) ^ ((22 / 10 : ℚ) : ℝ) := Real.rpow_nonneg (by norm_num) _
  have hc : (43 / 10 ^ 8 + 17 / 10 ^ 8 * ((22 / 10 : ℚ) : ℝ) * (1 + |Real.log ((1 / 2 : ℚ) : ℝ)|)) ≤ 5 / 10 ^ 6 := by
    push_cast at hlog ⊢
    norm_num
    linarith
  calc _ ≤ (5 / 10 ^ 6 : ℝ) * 1 + 1 / 10 ^ 36 := by
        refine add_le_add (mul_le_mul hc hp hp0 (by norm_num)) (le_refl _)
    _ ≤ _ := by norm_num

end Ezk.Props

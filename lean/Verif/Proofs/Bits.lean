import Verif.Model.SimdMath
import Verif.Proofs.F32

/-!
# The bits of floating point numbers
-/

namespace Ezk.F32

/-- Results of roundings are representable. -/
theorem rep_rnd {q : ℚ} (h : 0 ≤ q) : Rep (rnd q) := by
  rcases h.eq_or_lt with rfl | h
  · rw [rnd_zero]; exact rep_zero
  · have hu := ulp_pos q
    have h0 : 0 ≤ rne (q / ulp q) := rne_nonneg (div_nonneg h.le hu.le)
    obtain ⟨n, hn⟩ := Int.eq_ofNat_of_zero_le h0
    have hle : rne (q / ulp q) ≤ (2 ^ 24 : Int) := by
      apply rne_le
      rw [div_le_iff₀ hu, ulp_eq]
      have h1 := (exponent_spec h).2
      have h2 : (2 : ℚ) ^ (exponent q + 1) ≤ (2 : ℚ) ^ (24 + (max (exponent q) (-126) - 23)) := zpow_le_of_le (by omega)
      have h3 : (2 : ℚ) ^ (24 + (max (exponent q) (-126) - 23)) =
          ((2 ^ 24 : Int) : ℚ) * (2 : ℚ) ^ (max (exponent q) (-126) - 23) := by
        rw [zpow_add₀ (by norm_num)]; norm_num
      rw [← h3]
      exact (h1.le).trans h2
    rw [rnd_pos_eq h, hn]
    rw [hn] at hle
    rcases Nat.lt_or_ge n (2 ^ 24) with hl | hl
    · exact ⟨n, max (exponent q) (-126) - 23, hl, by omega, by rw [ulp_eq]; push_cast; rfl⟩
    · have e : n = 2 ^ 24 := by have : (n : Int) ≤ 2 ^ 24 := hle; norm_cast at this; omega
      refine ⟨2 ^ 23, max (exponent q) (-126) - 23 + 1, by norm_num, by omega, ?_⟩
      rw [ulp_eq, e, zpow_add₀ (by norm_num)]; push_cast; ring

theorem rep_pow2 {e : Int} (h : -149 ≤ e) : Rep ((2 : ℚ) ^ e) := ⟨1, e, by norm_num, h, by simp⟩

/-- The significand of a normal number. -/
theorem rep_significand {p : ℚ} (h : Rep p) {k : Int} (h1 : (2 : ℚ) ^ k ≤ p) (h2 : p < (2 : ℚ) ^ (k + 1)) (hk : -126 ≤ k) :
    ∃ M : Nat, 2 ^ 23 ≤ M ∧ M < 2 ^ 24 ∧ p = M * (2 : ℚ) ^ (k - 23) := by
  have hp : 0 < p := lt_of_lt_of_le (pow2_pos k) h1
  have hr := rnd_rep h
  rw [rnd_pos_eq hp, ulp_eq, exponent_unique h1 h2, max_eq_left hk] at hr
  have hu := pow2_pos (k - 23)
  have h0 : 0 ≤ rne (p / (2 : ℚ) ^ (k - 23)) := rne_nonneg (div_nonneg hp.le hu.le)
  obtain ⟨M, hM⟩ := Int.eq_ofNat_of_zero_le h0
  rw [hM] at hr
  have hr : p = (M : ℚ) * (2 : ℚ) ^ (k - 23) := by rw [← hr]; push_cast; rfl
  refine ⟨M, ?_, ?_, hr⟩
  · have e : (2 : ℚ) ^ k = 2 ^ 23 * (2 : ℚ) ^ (k - 23) := by
      rw [zpow_sub₀ (by norm_num)]; norm_num
      ring
    rw [hr, e] at h1
    exact_mod_cast le_of_mul_le_mul_right h1 hu
  · have e : (2 : ℚ) ^ (k + 1) = 2 ^ 24 * (2 : ℚ) ^ (k - 23) := by
      rw [zpow_sub₀ (by norm_num), zpow_add₀ (by norm_num)]; norm_num
      ring
    rw [hr, e] at h2
    exact_mod_cast lt_of_mul_lt_mul_right h2 hu.le

/-- The significand of a subnormal number. -/
theorem rep_subnormal {p : ℚ} (h : Rep p) (h0 : 0 ≤ p) (h2 : p < (2 : ℚ) ^ (-126 : Int)) :
    ∃ M : Nat, M < 2 ^ 23 ∧ p = M * (2 : ℚ) ^ (-149 : Int) := by
  rcases h0.eq_or_lt with rfl | hp
  · exact ⟨0, by norm_num, by simp⟩
  have hr := rnd_rep h
  have hE := exponent_lt hp h2
  rw [rnd_pos_eq hp, ulp_eq, max_eq_right (by omega)] at hr
  have hu := pow2_pos (-149)
  have e0 : (-126 - 23 : Int) = -149 := by norm_num
  rw [e0] at hr
  have hn : 0 ≤ rne (p / (2 : ℚ) ^ (-149 : Int)) := rne_nonneg (div_nonneg hp.le hu.le)
  obtain ⟨M, hM⟩ := Int.eq_ofNat_of_zero_le hn
  rw [hM] at hr
  have hr : p = (M : ℚ) * (2 : ℚ) ^ (-149 : Int) := by rw [← hr]; push_cast; rfl
  refine ⟨M, ?_, hr⟩
  have e : (2 : ℚ) ^ (-126 : Int) = 2 ^ 23 * (2 : ℚ) ^ (-149 : Int) := by norm_num
  rw [hr, e] at h2
  exact_mod_cast lt_of_mul_lt_mul_right h2 hu.le

/-- Sign bit and exponent field. -/
def high (s : Bool) (e : Nat) : Nat := (if s then 256 else 0) + e

theorem or_sign (s : Bool) {n : Nat} (h : n < 2 ^ 31) :
    ((if s then 0x80000000#32 else 0#32) ||| BitVec.ofNat 32 n) = BitVec.ofNat 32 ((if s then 2 ^ 31 else 0) + n) := by
  cases s
  · simp
  · apply BitVec.eq_of_toNat_eq
    have h1 : n % 2 ^ 32 = n := Nat.mod_eq_of_lt (by omega)
    have h2 : (2 ^ 31 + n) % 2 ^ 32 = 2 ^ 31 + n := Nat.mod_eq_of_lt (by omega)
    rw [if_pos rfl, if_pos rfl, BitVec.toNat_or, BitVec.toNat_ofNat, BitVec.toNat_ofNat, BitVec.toNat_ofNat, h1, h2]
    exact (Nat.two_pow_add_eq_or_of_lt h 1 ▸ rfl : 2 ^ 31 * 1 ||| n = 2 ^ 31 * 1 + n)

theorem toBits_zero (s : Bool) : toBits (fin s 0) = BitVec.ofNat 32 (2 ^ 23 * high s 0 + 0) := by
  cases s <;> rfl

theorem toBits_normal (s : Bool) {p : ℚ} {k : Int} (h1 : (2 : ℚ) ^ k ≤ p) (h2 : p < (2 : ℚ) ^ (k + 1)) (hk : -126 ≤ k)
    (hk' : k ≤ 127) {M : Nat} (hM1 : 2 ^ 23 ≤ M) (hM2 : M < 2 ^ 24) (hp : p = M * (2 : ℚ) ^ (k - 23)) :
    toBits (fin s p) = BitVec.ofNat 32 (2 ^ 23 * high s (k + 127).toNat + (M - 2 ^ 23)) := by
  have hp0 : 0 < p := lt_of_lt_of_le (pow2_pos k) h1
  have hE := exponent_unique h1 h2
  have hq : p / pow2 (k - 23) = ((M : Int) : ℚ) := by
    rw [pow2_eq, hp, mul_div_assoc, div_self (pow2_pos _).ne']; push_cast; ring
  have hk2 : ¬ k < -126 := by omega
  rw [toBits, if_neg hp0.ne', hE, if_neg hk2, hq, rat_floor, Int.floor_intCast, or_sign]
  · refine congrArg (BitVec.ofNat 32) ?_
    obtain ⟨E, hE⟩ : ∃ E : Nat, k = (E : Int) - 126 := ⟨(k + 126).toNat, by omega⟩
    have e1 : (k + 126).toNat = E := by omega
    have e2 : (k + 127).toNat = E + 1 := by omega
    rw [e1, e2, high, Int.toNat_natCast]
    cases s
    · simp only [Bool.false_eq_true, if_false]; omega
    · simp only [if_true]; omega
  · have : (k + 126).toNat ≤ 253 := by omega
    rw [Int.toNat_natCast]; omega

theorem toBits_subnormal (s : Bool) {p : ℚ} {M : Nat} (hM : M < 2 ^ 23) (hp : p = M * (2 : ℚ) ^ (-149 : Int)) :
    toBits (fin s p) = BitVec.ofNat 32 (2 ^ 23 * high s 0 + M) := by
  rcases Nat.eq_zero_or_pos M with rfl | h0
  · have : p = 0 := by rw [hp]; simp
    rw [this]; exact toBits_zero s
  have hp0 : 0 < p := by rw [hp]; exact mul_pos (by exact_mod_cast h0) (pow2_pos _)
  have hE : exponent p < -126 := by
    apply exponent_lt hp0
    have e : (2 : ℚ) ^ (-126 : Int) = 2 ^ 23 * (2 : ℚ) ^ (-149 : Int) := by norm_num
    rw [hp, e]
    have : (M : ℚ) < 2 ^ 23 := by exact_mod_cast hM
    exact mul_lt_mul_of_pos_right this (pow2_pos _)
  have hq : p / pow2 (-149) = ((M : Int) : ℚ) := by
    rw [pow2_eq, hp, mul_div_assoc, div_self (pow2_pos _).ne']; push_cast; ring
  rw [toBits, if_neg hp0.ne', if_pos hE, hq, rat_floor, Int.floor_intCast, Int.toNat_natCast, or_sign _ (by omega)]
  congr 1
  cases s <;> simp [high]

theorem and256 : ∀ E : Fin 512, (E.val &&& 256) ||| 126 = (if 256 ≤ E.val then 256 else 0) + 126 := by decide +kernel

/-- The mantissa with exponent bits replaced by those of 0.5. -/
theorem mantissa_of {E f : Nat} (hE : E < 512) (hf : f < 2 ^ 23) :
    mantissa (BitVec.ofNat 32 (2 ^ 23 * E + f)) = fin (decide (256 ≤ E)) ((2 ^ 23 + f : Nat) * pow2 (-24)) := by
  have hb : toBits oneHalf = BitVec.ofNat 32 (2 ^ 23 * 126) := by decide +kernel
  have hm : (~~~0x7f800000#32) = BitVec.ofNat 32 (2 ^ 23 * 256 + (2 ^ 23 - 1)) := by decide
  have hn : (2 ^ 23 * E + f) % 2 ^ 32 = 2 ^ 23 * E + f := Nat.mod_eq_of_lt (by omega)
  have key : ((2 ^ 23 * E + f) &&& (2 ^ 23 * 256 + (2 ^ 23 - 1))) ||| (2 ^ 23 * 126) =
      2 ^ 23 * ((E &&& 256) ||| 126) + f := by
    apply Nat.eq_of_testBit_eq
    intro j
    have e0 : 2 ^ 23 * 126 = 2 ^ 23 * 126 + 0 := rfl
    rw [e0, Nat.testBit_or, Nat.testBit_and, Nat.testBit_two_pow_mul_add _ hf, Nat.testBit_two_pow_mul_add _ (by norm_num),
      Nat.testBit_two_pow_mul_add _ (by norm_num : 0 < 2 ^ 23), Nat.testBit_two_pow_mul_add _ hf]
    by_cases hj : j < 23
    · simp only [hj, if_true, Nat.zero_testBit, Bool.or_false, Nat.testBit_two_pow_sub_one, decide_true, Bool.and_true]
    · simp only [hj, if_false, Nat.testBit_or, Nat.testBit_and]
  have hE' := and256 ⟨E, hE⟩
  simp only at hE'
  have hval : ((BitVec.ofNat 32 (2 ^ 23 * E + f) &&& ~~~0x7f800000#32) ||| toBits oneHalf).toNat =
      2 ^ 23 * ((if 256 ≤ E then 256 else 0) + 126) + f := by
    rw [hb, hm, BitVec.toNat_or, BitVec.toNat_and, BitVec.toNat_ofNat, BitVec.toNat_ofNat, BitVec.toNat_ofNat, hn,
      Nat.mod_eq_of_lt (by norm_num), Nat.mod_eq_of_lt (by norm_num), key, hE']
  rw [mantissa, ofBits, hval]
  by_cases h : 256 ≤ E
  · have h1 : (2 ^ 23 * (256 + 126) + f) / 2 ^ 23 % 2 ^ 8 = 126 := by omega
    have h2 : (2 ^ 23 * (256 + 126) + f) % 2 ^ 23 = f := by omega
    rw [if_pos h, h1, h2, if_neg (by norm_num), if_neg (by norm_num), decide_eq_true h, decide_eq_true (by omega)]
    norm_num
  · have h1 : (2 ^ 23 * (0 + 126) + f) / 2 ^ 23 % 2 ^ 8 = 126 := by omega
    have h2 : (2 ^ 23 * (0 + 126) + f) % 2 ^ 23 = f := by omega
    rw [if_neg h, h1, h2, if_neg (by norm_num), if_neg (by norm_num), decide_eq_false h, decide_eq_false (by omega)]
    norm_num

/-- The exponent field, shifted down as an unsigned number. -/
theorem shift_logical {E f : Nat} (hE : E < 512) (hf : f < 2 ^ 23) :
    ((BitVec.ofNat 32 (2 ^ 23 * E + f)) >>> 23 - 0x7F#32).toInt = (E : Int) - 127 := by
  have hn : (2 ^ 23 * E + f) % 2 ^ 32 = 2 ^ 23 * E + f := Nat.mod_eq_of_lt (by omega)
  have h1 : (BitVec.ofNat 32 (2 ^ 23 * E + f)) >>> 23 = BitVec.ofNat 32 E := by
    apply BitVec.eq_of_toNat_eq
    rw [BitVec.toNat_ushiftRight, BitVec.toNat_ofNat, hn, Nat.shiftRight_eq_div_pow, BitVec.toNat_ofNat]
    omega
  rw [h1, BitVec.toInt_sub, BitVec.toInt_eq_toNat_bmod, BitVec.toNat_ofNat, Nat.mod_eq_of_lt (by omega)]
  have e : (0x7F#32).toInt = 127 := by decide
  rw [e]
  simp only [Int.bmod]
  omega

/-- The exponent field, shifted down with the sign. -/
theorem shift_arith {E f : Nat} (hE : E < 512) (hf : f < 2 ^ 23) :
    ((BitVec.ofNat 32 (2 ^ 23 * E + f)).sshiftRight 23 - 0x7F#32).toInt =
      (if 256 ≤ E then (E : Int) - 512 else E) - 127 := by
  have hn : (2 ^ 23 * E + f) % 2 ^ 32 = 2 ^ 23 * E + f := Nat.mod_eq_of_lt (by omega)
  have h1 : ((BitVec.ofNat 32 (2 ^ 23 * E + f)).sshiftRight 23).toInt = if 256 ≤ E then (E : Int) - 512 else E := by
    rw [BitVec.toInt_sshiftRight, BitVec.toInt_eq_toNat_bmod, BitVec.toNat_ofNat, hn, Int.shiftRight_eq_div_pow]
    simp only [Int.bmod]
    split <;> omega
  rw [BitVec.toInt_sub, h1]
  have e : (0x7F#32).toInt = 127 := by decide
  rw [e]
  simp only [Int.bmod]
  split <;> omega

/-- `2^n` from its bits. -/
theorem expBits_of {n : Int} (h1 : -126 ≤ n) (h2 : n ≤ 127) : expBits n = fin false ((2 : ℚ) ^ n) := by
  obtain ⟨E, hE⟩ : ∃ E : Nat, n = (E : Int) - 127 := ⟨(n + 127).toNat, by omega⟩
  have hv : (BitVec.ofInt 32 (n + 0x7f) <<< 23).toNat = 2 ^ 23 * E := by
    have e : n + 0x7f = (E : Int) := by omega
    rw [e, BitVec.ofInt_natCast, BitVec.toNat_shiftLeft, BitVec.toNat_ofNat, Nat.shiftLeft_eq,
      Nat.mod_eq_of_lt (show E < 2 ^ 32 by omega), Nat.mod_eq_of_lt (by omega)]
    ring
  rw [expBits, ofBits, hv]
  have e1 : 2 ^ 23 * E / 2 ^ 23 % 2 ^ 8 = E := by omega
  have e2 : 2 ^ 23 * E % 2 ^ 23 = 0 := by omega
  rw [e1, e2, if_neg (by omega), if_neg (by omega), decide_eq_false (by omega), pow2_eq, hE]
  refine congrArg (fin false) ?_
  have : ((E : Int) - 127) = 23 + ((E : Int) - 150) := by ring
  have e23 : ((2 ^ 23 : Nat) : ℚ) = (2 : ℚ) ^ (23 : Int) := by norm_num
  rw [this, zpow_add₀ (by norm_num), Nat.add_zero, e23]

theorem expBits_zero : expBits (-127) = fin false 0 := by decide +kernel

end Ezk.F32

import Verif.Model.F32

/-!
# The SIMD implementations of `exp`, `ln`, `pow` and `sqrt`

`mod math` of `src/vector/avx2.rs:409-545`, `src/vector/avx512.rs:428-565` and `src/vector/neon.rs:311-476`, one lane each
(all operations are lane-wise).  AVX2 and AVX-512 differ only in how masks are represented; `_mm512_maskz_expand_ps(mask, ONE)`
expands a vector whose lanes are all 1, which is a blend.

Constants are `f32` literals.  `vmlaq_f32` is a multiplication and an addition in Rust (`simd_add(a, simd_mul(b, c))`).
-/

namespace Ezk
namespace F32

/-! ## Instructions -/

/-- `VFMADD`: product and sum with one rounding; an exact zero is `+0` unless product and addend are both negative.
(used at `src/vector/avx2.rs:458, 459`) -/
def fma : F32 → F32 → F32 → F32
  | fin s p, fin t q, fin u r => ofRat ((s ^^ t) && u) (signed (s ^^ t) (p * q) + signed u r)
  | fin _ _, fin _ _, c => c
  | a, b, c => add (mul a b) c

/-- A multiplication followed by an addition. (e.g. `src/vector/neon.rs:360-371`) -/
def mulAdd (a b c : F32) : F32 := add (mul a b) c

/-- The 32 bits of a number (`_mm256_castps_si256`, `vreinterpretq_s32_f32`).  The payload of NaN is not modelled.
(used at `src/vector/avx2.rs:80, 83`) -/
def toBits : F32 → BitVec 32
  | nan => 0x7fc00000#32
  | inf s => (if s then 0x80000000#32 else 0#32) ||| 0x7f800000#32
  | fin s p =>
    (if s then 0x80000000#32 else 0#32) |||
      (if p = 0 then 0#32
       else if exponent p < -126 then BitVec.ofNat 32 (p / pow2 (-149)).floor.toNat
       else BitVec.ofNat 32 ((exponent p + 126).toNat * 2 ^ 23 + (p / pow2 (exponent p - 23)).floor.toNat))

/-- The number with the given 32 bits (`_mm256_castsi256_ps`, `vreinterpretq_f32_s32`).
(used at `src/vector/avx2.rs:85, 471`) -/
def ofBits (b : BitVec 32) : F32 :=
  let s := decide (2 ^ 31 ≤ b.toNat)
  let e : Nat := b.toNat / 2 ^ 23 % 2 ^ 8
  let m : Nat := b.toNat % 2 ^ 23
  if e = 255 then (if m = 0 then inf s else nan)
  else if e = 0 then fin s (m * pow2 (-149))
  else fin s ((2 ^ 23 + m : Nat) * pow2 ((e : Int) - 150))

/-- `_mm256_cvtepi32_ps`, `vcvtq_f32_s32`: an integer, rounded. (used at `src/vector/avx2.rs:92, 99`) -/
def ofInt (i : Int) : F32 := ofRat false i

/-- `_mm256_floor_ps`, `_mm512_roundscale_ps(_, _MM_FROUND_TO_NEG_INF)`.
(used at `src/vector/avx2.rs:447` and used at `src/vector/avx512.rs:466`) -/
def floorPs : F32 → F32
  | nan => nan
  | inf s => inf s
  | fin s p => ofRat s (signed s p).floor

/-- `CVTTPS2DQ`: truncated; NaN and anything outside of `i32` gives `-2³¹`. (used at `src/vector/avx2.rs:468`) -/
def cvttps : F32 → Int
  | nan => -2 ^ 31
  | inf _ => -2 ^ 31
  | fin s p =>
    let i := trunc (signed s p)
    if -2 ^ 31 ≤ i ∧ i < 2 ^ 31 then i else -2 ^ 31

/-- `FCVTZS`: truncated and saturated to `i32`, NaN gives 0. (used at `src/vector/neon.rs:347, 378`) -/
def fcvtzs : F32 → Int
  | nan => 0
  | inf s => if s then -2 ^ 31 else 2 ^ 31 - 1
  | fin s p => max (-2 ^ 31) (min (trunc (signed s p)) (2 ^ 31 - 1))

/-- `MINPS`: the second operand if one is NaN or both are zero. (used at `src/vector/avx2.rs:441`) -/
def minPs (a b : F32) : F32 := if lt a b then a else b

/-- `FMIN` (NEON): NaN if one is NaN.  (Used with a constant that is not zero.) (used at `src/vector/neon.rs:340`) -/
def minNeon (a b : F32) : F32 := if a = nan ∨ b = nan then nan else if lt b a then b else a

/-- `SQRTPS`, `FSQRT`: correctly rounded.  `s` is the integer root of `p·4^k`, which has at least 26 bits; if it is not exact,
the true root lies strictly between `s` and `s + 1`, as does `s + 1/2`, and no number or midpoint of two numbers does.
(`src/vector/avx2.rs:52-54`, `src/vector/avx512.rs:52-54`, `src/vector/neon.rs:50-52`) -/
def sqrt : F32 → F32
  | nan => nan
  | inf s => if s then nan else inf false
  | fin s p =>
    if p = 0 then fin s 0
    else if s then nan
    else
      let k : Int := 26 - exponent p / 2
      let a := p * (pow2 k * pow2 k)
      let r := Nat.sqrt a.floor.toNat
      round false ((r + if (r * r : Nat) = a then 0 else 1 / 2) * pow2 (-k))

/-! ## `exp` -/

/-- `EXP_HI`, `src/vector/avx2.rs:427`, `src/vector/avx512.rs:446`, `src/vector/neon.rs:327` (as for the following constants,
the three files agree). -/
def expHi : F32 := FOps.lit 88.37626
/-- `EXP_LO` (`src/vector/avx2.rs:428`, `src/vector/neon.rs:328`) -/
def expLo : F32 := FOps.lit (-88.37626)
/-- `std::f32::consts::LOG2_E` (`src/vector/avx2.rs:430`, `src/vector/neon.rs:329`) -/
def log2e : F32 := FOps.lit 1.44269504088896340735992468100189214
/-- `C1` (`src/vector/avx2.rs:431`, `src/vector/neon.rs:330`) -/
def expC1 : F32 := FOps.lit 0.6933594
/-- `C2` (`src/vector/avx2.rs:432`, `src/vector/neon.rs:331`) -/
def expC2 : F32 := FOps.lit (-2.1219444e-4)
/-- `ONE` (`src/vector/avx2.rs:418`, `src/vector/neon.rs:317`) -/
def one : F32 := FOps.lit 1.0
/-- `ONE_HALF` (`src/vector/avx2.rs:419`, `src/vector/neon.rs:318`) -/
def oneHalf : F32 := FOps.lit 0.5
/-- `_mm256_setzero_ps()`; also a value masked out with a bitwise and.
(`src/vector/avx2.rs:449`, `src/vector/avx2.rs:492`) -/
def zero : F32 := fin false 0

/-- The polynomial of `exp` before multiplication by `z`: `src/vector/avx2.rs:457-462`, `src/vector/avx512.rs:476-481`,
`src/vector/neon.rs:360-371`.
`mla a b c` is `a·b + c`: `_mm256_fmadd_ps` or a multiplication and an addition. -/
def expPoly (mla : F32 → F32 → F32 → F32) (x : F32) : F32 :=
  let y := FOps.lit 1.9875691E-4
  let y := mla y x (FOps.lit 1.3981999E-3)
  let y := mla y x (FOps.lit 8.333452E-3)
  let y := mla y x (FOps.lit 4.1665796E-2)
  let y := mla y x (FOps.lit 1.6666666E-1)
  mla y x (FOps.lit 5E-1)

/-- The bits of `2^n`: `n + 127` in the exponent field, wrapping arithmetic.
(`src/vector/avx2.rs:468-471`, `src/vector/neon.rs:378-381`) -/
def expBits (n : Int) : F32 := ofBits (BitVec.ofInt 32 (n + 0x7f) <<< 23)

/-- The common part of `exp`: from the clamped argument `x` and the whole number `fx` (as a float) with `n` (as an integer).
`src/vector/avx2.rs:451-472`, `src/vector/avx512.rs:470-491`, `src/vector/neon.rs:355-383`. -/
def expTail (mla : F32 → F32 → F32 → F32) (x fx : F32) (n : Int) : F32 :=
  let tmp := mul fx expC1
  let z := mul fx expC2
  let x := sub x tmp
  let x := sub x z
  let z := mul x x
  let y := expPoly mla x
  let y := mla y z x
  let y := add y one
  mul y (expBits n)

/-- `exp` of AVX2 and AVX-512, `src/vector/avx2.rs:426-473`, `src/vector/avx512.rs:445-492`. -/
def x86Exp (x : F32) : F32 :=
  let x := minPs expHi x
  let x := maxPs expLo x
  let fx := mul x log2e
  let fx := add fx oneHalf
  let tmp := floorPs fx
  let mask := if lt fx tmp then one else zero
  let fx := sub tmp mask
  expTail fma x fx (cvttps fx)

/-- `exp` of NEON, `src/vector/neon.rs:326-384`. -/
def neonExp (x : F32) : F32 :=
  let x := minNeon x expHi
  let x := maxNeon x expLo
  let fx := mulAdd x log2e oneHalf
  let tmp := ofInt (fcvtzs fx)
  let mask := if lt fx tmp then one else zero
  let fx := sub tmp mask
  expTail mulAdd x fx (fcvtzs fx)

/-! ## `log` -/

/-- `CEPHES_SQRT_HF` (`src/vector/avx2.rs:478`, `src/vector/neon.rs:390`) -/
def sqrtHf : F32 := FOps.lit 0.70710677
/-- `CEPHES_LOG_Q1` (`src/vector/avx2.rs:488`, `src/vector/neon.rs:400`) -/
def logQ1 : F32 := FOps.lit (-2.1219444e-4)
/-- `CEPHES_LOG_Q2` (`src/vector/avx2.rs:489`, `src/vector/neon.rs:401`) -/
def logQ2 : F32 := FOps.lit 0.6933594

/-- The polynomial of `log`: `src/vector/avx2.rs:515-523`, `src/vector/avx512.rs:534-542`,
`src/vector/neon.rs:439-455`. -/
def logPoly (mla : F32 → F32 → F32 → F32) (x : F32) : F32 :=
  let y := FOps.lit 7.0376836E-2
  let y := mla y x (FOps.lit (-1.151461E-1))
  let y := mla y x (FOps.lit 1.16769984E-1)
  let y := mla y x (FOps.lit (-1.2420141E-1))
  let y := mla y x (FOps.lit 1.4249323E-1)
  let y := mla y x (FOps.lit (-1.6668057E-1))
  let y := mla y x (FOps.lit 2.0000714E-1)
  let y := mla y x (FOps.lit (-2.4999994E-1))
  mla y x (FOps.lit 3.333333E-1)

/-- The common part of `log`: from the exponent field `emm0` (already reduced by 127) and the mantissa `x`.
`src/vector/avx2.rs:501-536`, `src/vector/avx512.rs:520-555`, `src/vector/neon.rs:417-467`. -/
def logTail (mla : F32 → F32 → F32 → F32) (emm0 : Int) (x : F32) : F32 :=
  let e := ofInt emm0
  let e := add e one
  let mask := lt x sqrtHf
  let tmp := if mask then x else zero
  let x := sub x one
  let e := sub e (if mask then one else zero)
  let x := add x tmp
  let z := mul x x
  let y := logPoly mla x
  let y := mul y x
  let y := mul y z
  let tmp := mul e logQ1
  let y := add y tmp
  let tmp := mul z oneHalf
  let y := sub y tmp
  let tmp := mul e logQ2
  let x := add x y
  add x tmp

/-- The mantissa: exponent bits replaced by those of `0.5`. (`src/vector/avx2.rs:498-499`) -/
def mantissa (b : BitVec 32) : F32 := ofBits ((b &&& ~~~0x7f800000#32) ||| toBits oneHalf)

/-- `log` of AVX2 and AVX-512, `src/vector/avx2.rs:476-540`, `src/vector/avx512.rs:495-559`: the exponent is shifted down
without its sign (`_mm256_srli_epi32`). -/
def x86Log (x : F32) : F32 :=
  let nanMask := !(le zero x)
  let x := maxPs zero x
  let b := toBits x
  let imm0 := b >>> 23
  let r := logTail fma (imm0 - 0x7F#32).toInt (mantissa b)
  if nanMask then nan else r

/-- `log` of NEON, `src/vector/neon.rs:388-471`: the exponent is shifted down with its sign (`vshrq_n_s32`). -/
def neonLog (x : F32) : F32 :=
  let valid := decide (x ≠ nan)
  let ux := toBits x
  let emm0 := ux.sshiftRight 23
  let r := logTail mulAdd (emm0 - 0x7f#32).toInt (mantissa ux)
  if valid then r else nan

/-! ## The functions of the backends -/

/-- AVX2 (`src/vector/avx2.rs:51-64`, `543-545`) and AVX-512 (`src/vector/avx512.rs:51-64`, `562-564`). -/
def x86Libm : Libm where
  pow x y := x86Exp (mul y (x86Log x))
  sqrt := sqrt
  ln := x86Log

/-- NEON (`src/vector/neon.rs:49-61`, `474-476`). -/
def neonLibm : Libm where
  pow x y := neonExp (mul y (neonLog x))
  sqrt := sqrt
  ln := neonLog

end F32

open F32

/-- The approximations used by the vector code of a platform. Scalar code, also as the only code of a platform without SIMD,
calls the system's functions. (`src/formats/visit_2x2.rs:16-69`) -/
def Platform.libm (p : Platform) (scalar : Libm) : Libm :=
  match p with
  | .scalar => scalar
  | .avx2 => x86Libm
  | .avx512 => x86Libm
  | .neon => neonLibm

/-- The platforms with everything but the system's `powf`, `ln` and `sqrt`. (`src/formats/visit_2x2.rs:16-69`) -/
def Platform.real (p : Platform) (scalar : Libm) : Cpu F32 := p.ieee (p.libm scalar) scalar

end Ezk

import Verif.Model.Backends
import Mathlib.Data.Rat.Floor

/-!
# IEEE 754 binary32

Rust's `f32` and the SIMD lanes: values, rounding to nearest even with subnormals and overflow, signed zeros,
infinities and NaN (payloads are not modelled: nothing in the crate looks at them).  Additions and multiplications are
separate instructions; the crate uses no fused operation outside of the SIMD `pow`.
-/

namespace Ezk

/-- A binary32 value: a finite number is its sign and its magnitude.  (The type has more values than binary32; every
operation below returns a representable one.) (the `f32` of `src/vector/mod.rs:130-287`) -/
inductive F32
  | nan
  | inf (neg : Bool)
  | fin (neg : Bool) (mag : ℚ)
  deriving DecidableEq

namespace F32

/-- `2 ^ e`. (binary32 arithmetic of `src/vector/mod.rs:139-168`, `src/vector/avx2.rs:15-46`) -/
def pow2 : Int → ℚ
  | .ofNat n => ((2 ^ n : Nat) : ℚ)
  | .negSucc n => mkRat 1 (2 ^ (n + 1))

/-- The exponent `e` with `2 ^ e ≤ q < 2 ^ (e + 1)`, for `q > 0`.
(binary32 arithmetic of `src/vector/mod.rs:139-168`, `src/vector/avx2.rs:15-46`) -/
def exponent (q : ℚ) : Int :=
  let k : Int := (Nat.log2 q.num.natAbs : Int) - (Nat.log2 q.den : Int)
  if pow2 k ≤ q then k else k - 1

/-- The distance of neighbouring numbers around `q > 0`: 24 significant bits, at least `2 ^ -149`.
(binary32 arithmetic of `src/vector/mod.rs:139-168`, `src/vector/avx2.rs:15-46`) -/
def ulp (q : ℚ) : ℚ := pow2 (max (exponent q) (-126) - 23)

/-- Round to the nearest integer, ties to even.
(binary32 arithmetic of `src/vector/mod.rs:139-168`, `src/vector/avx2.rs:15-46`) -/
def rne (q : ℚ) : Int :=
  let f := q.floor
  let d := q - f
  if d < 1 / 2 then f else if 1 / 2 < d then f + 1 else if f % 2 = 0 then f else f + 1

/-- Round towards zero. (binary32 arithmetic of `src/vector/mod.rs:139-168`, `src/vector/avx2.rs:15-46`) -/
def trunc (q : ℚ) : Int := if 0 ≤ q then q.floor else - (-q).floor

/-- The first magnitude that is not finite.
(binary32 arithmetic of `src/vector/mod.rs:139-168`, `src/vector/avx2.rs:15-46`) -/
def limit : ℚ := pow2 128

/-- The number of sign `neg` and magnitude `q ≥ 0`, rounded.
(binary32 arithmetic of `src/vector/mod.rs:139-168`, `src/vector/avx2.rs:15-46`) -/
def round (neg : Bool) (q : ℚ) : F32 :=
  if q = 0 then fin neg 0
  else
    let r := rne (q / ulp q) * ulp q
    if limit ≤ r then inf neg else fin neg r

/-- Signed value of a finite number. (binary32 arithmetic of `src/vector/mod.rs:139-168`, `src/vector/avx2.rs:15-46`) -/
def signed (neg : Bool) (q : ℚ) : ℚ := if neg then -q else q

/-- The rational number `q`, rounded; `zneg` is the sign of the result if `q = 0`.
(binary32 arithmetic of `src/vector/mod.rs:139-168`, `src/vector/avx2.rs:15-46`) -/
def ofRat (zneg : Bool) (q : ℚ) : F32 := if q = 0 then fin zneg 0 else round (decide (q < 0)) |q|

/-- Addition, IEEE 754 §5.4.1; an exact zero sum is `+0` unless both operands are negative.
(binary32 arithmetic of `src/vector/mod.rs:139-168`, `src/vector/avx2.rs:15-46`) -/
def add : F32 → F32 → F32
  | nan, _ => nan
  | _, nan => nan
  | inf s, inf t => if s = t then inf s else nan
  | inf s, fin _ _ => inf s
  | fin _ _, inf t => inf t
  | fin s p, fin t q => ofRat (s && t) (signed s p + signed t q)

/-- Change of sign. (binary32 arithmetic of `src/vector/mod.rs:139-168`, `src/vector/avx2.rs:15-46`) -/
def neg : F32 → F32
  | nan => nan
  | inf s => inf (!s)
  | fin s p => fin (!s) p

/-- Subtraction. (binary32 arithmetic of `src/vector/mod.rs:139-168`, `src/vector/avx2.rs:15-46`) -/
def sub (a b : F32) : F32 := add a (neg b)

/-- Multiplication. (binary32 arithmetic of `src/vector/mod.rs:139-168`, `src/vector/avx2.rs:15-46`) -/
def mul : F32 → F32 → F32
  | nan, _ => nan
  | _, nan => nan
  | inf s, inf t => inf (s ^^ t)
  | inf s, fin t q => if q = 0 then nan else inf (s ^^ t)
  | fin s p, inf t => if p = 0 then nan else inf (s ^^ t)
  | fin s p, fin t q => round (s ^^ t) (p * q)

/-- Division. (binary32 arithmetic of `src/vector/mod.rs:139-168`, `src/vector/avx2.rs:15-46`) -/
def div : F32 → F32 → F32
  | nan, _ => nan
  | _, nan => nan
  | inf _, inf _ => nan
  | inf s, fin t _ => inf (s ^^ t)
  | fin s _, inf t => fin (s ^^ t) 0
  | fin s p, fin t q => if q = 0 then (if p = 0 then nan else inf (s ^^ t)) else round (s ^^ t) (p / q)

/-- `<`; false for NaN, and zeros are equal.
(binary32 arithmetic of `src/vector/mod.rs:139-168`, `src/vector/avx2.rs:15-46`) -/
def lt : F32 → F32 → Bool
  | nan, _ => false
  | _, nan => false
  | inf s, inf t => s && !t
  | inf s, fin _ _ => s
  | fin _ _, inf t => !t
  | fin s p, fin t q => decide (signed s p < signed t q)

/-- `<=`. (binary32 arithmetic of `src/vector/mod.rs:139-168`, `src/vector/avx2.rs:15-46`) -/
def le : F32 → F32 → Bool
  | nan, _ => false
  | _, nan => false
  | inf s, inf t => s || !t
  | inf s, fin _ _ => s
  | fin _ _, inf t => !t
  | fin s p, fin t q => decide (signed s p ≤ signed t q)

/-- Magnitude. (binary32 arithmetic of `src/vector/mod.rs:139-168`, `src/vector/avx2.rs:15-46`) -/
def abs : F32 → F32
  | nan => nan
  | inf _ => inf false
  | fin _ p => fin false p

/-- `f32::max`: the larger; the other operand if one is NaN.  (Which of two zeros of different sign is returned is not
specified; here the first.) (`src/vector/mod.rs:157-159`) -/
def maxNum (a b : F32) : F32 := if a = nan then b else if lt a b then b else a

/-- `MAXPS`: the second operand if one is NaN or both are zero. (`src/vector/avx2.rs:35-37`) -/
def maxPs (a b : F32) : F32 := if lt b a then a else b

/-- `FMAX` (NEON): NaN if one is NaN, and `+0` is larger than `-0`. (`src/vector/neon.rs:32-34`) -/
def maxNeon (a b : F32) : F32 :=
  if a = nan ∨ b = nan then nan else if lt a b then b else if a = fin true 0 ∧ b = fin false 0 then b else a

/-- `x as u8`, `x as u16`: truncated and saturated to `0..=top`, NaN gives 0. (`src/vector/mod.rs:238-277`) -/
def asUnsigned (top : Nat) : F32 → Nat
  | nan => 0
  | inf s => if s then 0 else top
  | fin s p => min (trunc (signed s p)).toNat top

/-- `CVTPS2DQ` with the default rounding mode: to nearest even; NaN and anything outside of `i32` gives `-2³¹`.
(used at `src/vector/avx2.rs:285, 286`) -/
def cvtps : F32 → Int
  | nan => -2 ^ 31
  | inf _ => -2 ^ 31
  | fin s p =>
    let i := rne (signed s p)
    if -2 ^ 31 ≤ i ∧ i < 2 ^ 31 then i else -2 ^ 31

/-- `FCVTZU`: truncated and saturated to `u32`, NaN gives 0. (used at `src/vector/neon.rs:263, 267`) -/
def fcvtzu (x : F32) : UInt32 := UInt32.ofNat (asUnsigned (2 ^ 32 - 1) x)

/-- Constants and conversions.  Decimal literals are rounded correctly by the compiler; integers up to 16 bits are exact.
`std::f32::consts::E` is the literal 2.71828182845904523536028747135266250.
(binary32 arithmetic of `src/vector/mod.rs:139-168`, `src/vector/avx2.rs:15-46`) -/
instance : FOps F32 where
  lit q := ofRat false q
  ofNat n := ofRat false n
  add := add
  sub := sub
  mul := mul
  div := div
  neg := neg
  e := ofRat false 2.71828182845904523536028747135266250

/-- The functions that are not specified bit by bit: `powf`, `sqrt` and `ln` (scalar: the system's libm; AVX2, AVX-512 and
NEON: the crate's polynomial approximations).  Nothing is assumed of them.
(`src/vector/mod.rs:179-192`, `src/vector/avx2.rs:51-64`, `src/vector/neon.rs:49-61`) -/
structure Libm where
  pow : F32 → F32 → F32
  sqrt : F32 → F32
  ln : F32 → F32

/-- `impl Vector for f32`, `src/vector/mod.rs:130-287`. -/
def scalarArith (lib : Libm) : Arith F32 where
  add := add
  sub := sub
  mul := mul
  div := div
  max := maxNum
  pow := lib.pow
  sqrt := lib.sqrt
  ln := lib.ln
  lt := lt
  le := le
  q8 x := UInt8.ofNat (asUnsigned 255 x)
  q8i x := UInt8.ofNat (asUnsigned 255 x)
  q16 x := UInt16.ofNat (asUnsigned 65535 x)

/-- Lanes of AVX2 (`src/vector/avx2.rs:15-64`) and AVX-512 (`src/vector/avx512.rs:15-64`). -/
def x86Arith (lib : Libm) : SimdArith F32 where
  add := add
  sub := sub
  mul := mul
  div := div
  max := maxPs
  pow := lib.pow
  sqrt := lib.sqrt
  ln := lib.ln
  lt := lt
  le := le
  cvt := cvtps
  cvtU _ := 0

/-- Lanes of NEON, `src/vector/neon.rs:16-66`: the comparisons are `vcaltq_f32` and `vcaleq_f32`, which compare
magnitudes. -/
def neonArith (lib : Libm) : SimdArith F32 where
  add := add
  sub := sub
  mul := mul
  div := div
  max := maxNeon
  pow := lib.pow
  sqrt := lib.sqrt
  ln := lib.ln
  lt a b := lt (abs a) (abs b)
  le a b := le (abs a) (abs b)
  cvt _ := 0
  cvtU := fcvtzu

end F32

open F32

/-- The platforms with IEEE arithmetic; `simd` and `scalar` are the approximated functions of the two kinds of code.
(`src/formats/visit_2x2.rs:16-69`) -/
def Platform.ieee (p : Platform) (simd scalar : Libm) : Cpu F32 :=
  p.cpu (match p with
    | .neon => neonArith simd
    | _ => x86Arith simd) (scalarArith scalar)

end Ezk

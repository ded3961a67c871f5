import Verif.Spec.Ideal

/-!
# Digital representation of luma and chroma

The quantisation of ITU-R BT.601, BT.709, BT.2020 and BT.2100 (the latter's table 9), before rounding.  At `n` bits a
limited-range ("narrow") code is the 8-bit one times `2^(n - 8)`, and the neutral chroma code is `2^(n - 1)` in both ranges.
`Spec.lumaCode` and `Spec.chromaCode` of Verif/Spec/Ideal.lean are the crate's reading instead, in which the limited range is a
fixed part of `0 … 2^n - 1` and neutral full-range chroma is half of `2^n - 1`.
-/

namespace Ezk.Spec
open PixelFormat

/-- `D'Y`. -/
noncomputable def digitalLuma (full : Bool) (n : Nat) (y : ℝ) : ℝ :=
  if full then (2 ^ n - 1) * y else (219 * y + 16) * 2 ^ (n - 8)

/-- `D'Cb` and `D'Cr`. -/
noncomputable def digitalChroma (full : Bool) (n : Nat) (u : ℝ) : ℝ :=
  if full then (2 ^ n - 1) * u + 2 ^ (n - 1) else (224 * u + 128) * 2 ^ (n - 8)

/-- The luma of a code. -/
noncomputable def lumaOfDigital (full : Bool) (n : Nat) (d : ℝ) : ℝ :=
  if full then d / (2 ^ n - 1) else (d / 2 ^ (n - 8) - 16) / 219

/-- The chroma of a code. -/
noncomputable def chromaOfDigital (full : Bool) (n : Nat) (d : ℝ) : ℝ :=
  if full then (d - 2 ^ (n - 1)) / (2 ^ n - 1) else (d / 2 ^ (n - 8) - 128) / 224

/-- The codes of the standards for the RGB picture `V` of 8 bits. -/
noncomputable def standardCodes (k : ℝ × ℝ × ℝ) (f : PixelFormat) (full : Bool) (V : Pic Nat) (c : Chan) (x y : Nat) : ℝ :=
  match c with
  | .U => digitalChroma full (sampleBits f) (cellMean f (fun x y => (pixelYuv k V x y).2.1) x y)
  | .V => digitalChroma full (sampleBits f) (cellMean f (fun x y => (pixelYuv k V x y).2.2) x y)
  | _ => digitalLuma full (sampleBits f) (pixelYuv k V x y).1

/-- The 8-bit RGB codes for the codes `V` of the standards; they may lie outside of `0 … 255`. -/
noncomputable def standardColours (k : ℝ × ℝ × ℝ) (f : PixelFormat) (full : Bool) (V : Pic Nat) (c : Chan) (x y : Nat) : ℝ :=
  let n := sampleBits f
  let rgb := standardRgb k (lumaOfDigital full n (V .Y x y)) (chromaOfDigital full n (V .U x y))
    (chromaOfDigital full n (V .V x y))
  match c with
  | .R => 255 * rgb.1
  | .G => 255 * rgb.2.1
  | _ => 255 * rgb.2.2

end Ezk.Spec

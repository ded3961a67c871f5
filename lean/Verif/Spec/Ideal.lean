import Verif.Spec.Colorimetry
import Verif.Spec.Convert

/-!
# Ideal conversions

What a conversion between RGB and YUV codes should give, over the real numbers and before it is made an integer.  Nothing here
refers to the crate's formulas, matrices or order of evaluation.

The luma weights, the definition of the colour differences and the 8-bit limited range are those of the standards.  Codes of more
bits and full-range chroma codes are scaled as the crate scales them; Verif/Spec/Quantisation.lean has what the standards say
about those, and Verif/Props/Quantisation.lean compares the two.
-/

namespace Ezk.Spec
open PixelFormat

/-- Codes of `0 … M` for luma in `[0, 1]`: `0 … M`, or `16 … 235` out of 255. -/
noncomputable def lumaCode (full : Bool) (M : Nat) (y : ℝ) : ℝ := M * if full then y else (16 + 219 * y) / 255

/-- Codes of `0 … M` for chroma in `[-1/2, 1/2]`: `0 … M`, or `16 … 240` out of 255. -/
noncomputable def chromaCode (full : Bool) (M : Nat) (u : ℝ) : ℝ := M * if full then u + 1 / 2 else (128 + 224 * u) / 255

/-- The inverse of `lumaCode`. -/
noncomputable def lumaOf (full : Bool) (M : Nat) (n : ℝ) : ℝ := if full then n / M else (255 * (n / M) - 16) / 219

/-- The inverse of `chromaCode`. -/
noncomputable def chromaOfCode (full : Bool) (M : Nat) (n : ℝ) : ℝ :=
  if full then n / M - 1 / 2 else (255 * (n / M) - 128) / 224

/-- The mean of `g` over the pixels that share the chroma sample of pixel `(x, y)`. -/
noncomputable def cellMean (f : PixelFormat) (g : Nat → Nat → ℝ) (x y : Nat) : ℝ :=
  (∑ a ∈ Finset.range (hsub f), ∑ b ∈ Finset.range (vsub f),
    g (x / hsub f * hsub f + a) (y / vsub f * vsub f + b)) / (hsub f * vsub f)

/-- Colour of a pixel with 8-bit components. -/
noncomputable def pixelYuv (k : ℝ × ℝ × ℝ) (V : Pic Nat) (x y : Nat) : ℝ × ℝ × ℝ :=
  standardYuv k (V .R x y / 255) (V .G x y / 255) (V .B x y / 255)

/-- The YUV codes for the RGB picture `V`. -/
noncomputable def idealYuv (k : ℝ × ℝ × ℝ) (f : PixelFormat) (full : Bool) (V : Pic Nat) (c : Chan) (x y : Nat) : ℝ :=
  let M := 2 ^ sampleBits f - 1
  match c with
  | .U => chromaCode full M (cellMean f (fun x y => (pixelYuv k V x y).2.1) x y)
  | .V => chromaCode full M (cellMean f (fun x y => (pixelYuv k V x y).2.2) x y)
  | _ => lumaCode full M (pixelYuv k V x y).1

/-- The inverse of `standardYuv`: `R = Y + 2(1 - kr)·Cr`, `B = Y + 2(1 - kb)·Cb`, and `G` such that
`kr·R + kg·G + kb·B = Y`. -/
noncomputable def standardRgb (k : ℝ × ℝ × ℝ) (y u v : ℝ) : ℝ × ℝ × ℝ :=
  let r := y + 2 * (1 - k.1) * v
  let b := y + 2 * (1 - k.2.2) * u
  (r, (y - k.1 * r - k.2.2 * b) / k.2.1, b)

/-- The 8-bit RGB codes for the YUV picture `V`; they may lie outside of `0 … 255`. -/
noncomputable def idealRgb (k : ℝ × ℝ × ℝ) (f : PixelFormat) (full : Bool) (V : Pic Nat) (c : Chan) (x y : Nat) : ℝ :=
  let M := 2 ^ sampleBits f - 1
  let rgb := standardRgb k (lumaOf full M (V .Y x y)) (chromaOfCode full M (V .U x y)) (chromaOfCode full M (V .V x y))
  match c with
  | .R => 255 * rgb.1
  | .G => 255 * rgb.2.1
  | _ => 255 * rgb.2.2

/-- Colour of a pixel of a YUV picture of format `f` with weights `k` and range `full`, in terms of the weights `k'`. -/
noncomputable def recoded (k k' : ℝ × ℝ × ℝ) (f : PixelFormat) (full : Bool) (V : Pic Nat) (x y : Nat) : ℝ × ℝ × ℝ :=
  let M := 2 ^ sampleBits f - 1
  let rgb := standardRgb k (lumaOf full M (V .Y x y)) (chromaOfCode full M (V .U x y)) (chromaOfCode full M (V .V x y))
  standardYuv k' rgb.1 rgb.2.1 rgb.2.2

/-- The YUV codes of format `f'`, weights `k'` and range `full'` for the YUV picture `V` of format `f`, weights `k` and range
`full`; they may lie outside of the range of codes. -/
noncomputable def idealRecode (k k' : ℝ × ℝ × ℝ) (f f' : PixelFormat) (full full' : Bool) (V : Pic Nat) (c : Chan)
    (x y : Nat) : ℝ :=
  let M := 2 ^ sampleBits f' - 1
  match c with
  | .U => chromaCode full' M (cellMean f' (fun x y => (recoded k k' f full V x y).2.1) x y)
  | .V => chromaCode full' M (cellMean f' (fun x y => (recoded k k' f full V x y).2.2) x y)
  | _ => lumaCode full' M (recoded k k' f full V x y).1

/-- The YUV codes of format `f` for the RGB signals `E`, whose components need not lie in `[0, 1]`; the codes may lie outside of
the range of codes. -/
noncomputable def idealCodes (k : ℝ × ℝ × ℝ) (f : PixelFormat) (full : Bool) (E : Pic ℝ) (c : Chan) (x y : Nat) : ℝ :=
  let M := 2 ^ sampleBits f - 1
  let yuv (x y : Nat) : ℝ × ℝ × ℝ := standardYuv k (E .R x y) (E .G x y) (E .B x y)
  match c with
  | .U => chromaCode full M (cellMean f (fun x y => (yuv x y).2.1) x y)
  | .V => chromaCode full M (cellMean f (fun x y => (yuv x y).2.2) x y)
  | _ => lumaCode full M (yuv x y).1

/-- The nearest number of `0 … 255`. -/
noncomputable def clamp255 (v : ℝ) : ℝ := max 0 (min 255 v)

end Ezk.Spec

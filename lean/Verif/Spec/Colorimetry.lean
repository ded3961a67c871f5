import Verif.Spec.Real
import Verif.Model.Color

/-!
# What the colour standards say

Numbers from the standards the enum variants are named after, written down independently of the crate's constants.
-/

namespace Ezk.Spec

/-- Luma weights `(kr, kg, kb)`: ITU-R BT.601-7 §2.5.1, BT.709-6 §3.2, BT.2020-2 table 4.  ICtCp has none. -/
noncomputable def lumaWeights : ColorSpace → Option (ℝ × ℝ × ℝ)
  | .BT601 => some (0.299, 0.587, 0.114)
  | .BT709 => some (0.2126, 0.7152, 0.0722)
  | .BT2020 => some (0.2627, 0.678, 0.0593)
  | .ICtCpPQ | .ICtCpHLG => none

/-- `Y = kr·R + kg·G + kb·B`, `Cb = (B - Y) / (2(1 - kb))`, `Cr = (R - Y) / (2(1 - kr))`. -/
noncomputable def standardYuv (k : ℝ × ℝ × ℝ) (r g b : ℝ) : ℝ × ℝ × ℝ :=
  let y := k.1 * r + k.2.1 * g + k.2.2 * b
  (y, (b - y) / (2 * (1 - k.2.2)), (r - y) / (2 * (1 - k.1)))

/-- Chromaticity `(x, y)` of a primary. -/
abbrev Chromaticity := ℝ × ℝ

/-- Chromaticities of red, green and blue: SMPTE ST 240, ITU-R BT.709-6 §1.3, BT.2020-2 table 3. -/
noncomputable def chromaticities : ColorPrimaries → Chromaticity × Chromaticity × Chromaticity
  | .ST240 => ((0.630, 0.340), (0.310, 0.595), (0.155, 0.070))
  | .BT709 => ((0.640, 0.330), (0.300, 0.600), (0.150, 0.060))
  | .BT2020 => ((0.708, 0.292), (0.170, 0.797), (0.131, 0.046))

/-- `(X, Y, Z)` has chromaticity `c` up to `ε`: `x = X / (X + Y + Z)`, `y = Y / (X + Y + Z)`. -/
def HasChromaticity (ε : ℝ) (c : Chromaticity) (p : ℝ × ℝ × ℝ) : Prop :=
  0 < p.1 + p.2.1 + p.2.2 ∧ |p.1 / (p.1 + p.2.1 + p.2.2) - c.1| ≤ ε ∧ |p.2.1 / (p.1 + p.2.1 + p.2.2) - c.2| ≤ ε

/-- The white point D65 is `x = 0.3127`, `y = 0.3290`. -/
noncomputable def d65 : Chromaticity := (0.3127, 0.3290)

end Ezk.Spec

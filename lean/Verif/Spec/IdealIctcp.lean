import Verif.Spec.Ideal
import Verif.Spec.Standards

/-!
# Ideal ICtCp codes

Codes for the ICtCp signals that BT.2100 prescribes for an RGB picture, over the real numbers and before they are made integers.
The range is taken as in Verif/Spec/Ideal.lean.
-/

namespace Ezk.Spec

/-- `I`, `CT`, `CP` of an 8-bit pixel of an image in one of the two systems of BT.2100. -/
noncomputable def pixelIctcp (t : ColorTransfer) (V : Pic Nat) (x y : Nat) : ℝ × ℝ × ℝ :=
  let light (c : Chan) : ℝ := Standard.toLight t ((V c x y : ℝ) / 255)
  let rgb := (light .R, light .G, light .B)
  match t with
  | .BT2100HLG => Standard.ictcpHlg rgb
  | _ => Standard.ictcpPq rgb

/-- The ICtCp codes of format `f` for the RGB picture `V`; they may lie outside of the range of codes. -/
noncomputable def idealIctcp (t : ColorTransfer) (f : PixelFormat) (full : Bool) (V : Pic Nat) (c : Chan) (x y : Nat) : ℝ :=
  let M := 2 ^ sampleBits f - 1
  match c with
  | .U => chromaCode full M (cellMean f (fun x y => (pixelIctcp t V x y).2.1) x y)
  | .V => chromaCode full M (cellMean f (fun x y => (pixelIctcp t V x y).2.2) x y)
  | _ => lumaCode full M (pixelIctcp t V x y).1

end Ezk.Spec

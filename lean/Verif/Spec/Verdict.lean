import Verif.Model.Convert
import Verif.Spec.Convert

/-!
# What a call of `convert` reports
-/

namespace Ezk.Spec

/-- The arithmetic used for column `x` of an image `w` pixels wide: SIMD for the columns that fill whole pairs of
vectors, scalar for the rest. -/
def columnArith {F : Type} [FOps F] (c : Cpu F) (w x : Nat) : Arith F :=
  if x < w - w % (c.vec.LEN * 2) then c.vec.ar else (scalarBackend c.sar).ar

/-- A check as part of `convert`. -/
def checkBounds (t : Img) : Exec (Except ConvertError Unit) := do
  match ← t.boundsCheck with
  | .ok () => return .ok ()
  | .error e => return .error (.boundsCheck e)

/-- A YUV format needs YUV colour information. -/
def checkColor (t : Img) : Exec (Except ConvertError Unit) :=
  match isYuv t.format, t.color with
  | true, .RGB _ => .ok (.error .invalidColorInfo)
  | _, _ => .ok (.ok ())

/-- One check after the other; the first problem counts. -/
def firstProblem : List (Exec (Except ConvertError Unit)) → Exec (Except ConvertError Unit)
  | [] => .ok (.ok ())
  | c :: cs => do
    match ← c with
    | .ok () => firstProblem cs
    | .error e => return .error e

/-- What `convert` reports. -/
def verdict (src dst : Img) : Exec (Except ConvertError Unit) :=
  if src.width ≠ dst.width ∨ src.height ≠ dst.height then .ok (.error .mismatchedImageSize)
  else if src.width % 2 = 1 ∨ src.height % 2 = 1 then .ok (.error .oddImageDimensions)
  else if src.format = dst.format ∧ src.color = dst.color then firstProblem [checkBounds src, checkBounds dst]
  else firstProblem [checkBounds src, checkColor src, checkColor dst, checkBounds dst]

end Ezk.Spec

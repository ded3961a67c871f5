import Verif.Spec.Layout

/-!
# The eight orientations of an image

As in the orientation tag of EXIF: transposed or not, then mirrored or not in either direction.
-/

namespace Ezk.Spec

structure Orientation where
  transpose : Bool
  flipX : Bool
  flipY : Bool
  deriving DecidableEq

/-- The pixel of a `w` × `h` image that the reoriented image shows at `(x, y)`. -/
def Orientation.place (o : Orientation) (w h x y : Nat) : Nat × Nat :=
  let u := if o.transpose then y else x
  let v := if o.transpose then x else y
  (if o.flipX then w - 1 - u else u, if o.flipY then h - 1 - v else v)

/-- The size of the reoriented image. -/
def Orientation.size (o : Orientation) (w h : Nat) : Nat × Nat := if o.transpose then (h, w) else (w, h)

end Ezk.Spec

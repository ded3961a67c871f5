import Verif.Spec.Layout

/-!
# Horizontal strips of an image

How a picture is divided between threads: strips of whole 2-row sections, sizes as equal as possible, the larger ones
first.
-/

namespace Ezk.Spec

/-- Rows `o .. o + h` of plane `i` (for an image row range: `rowCount` plane rows). -/
def stripPlane (f : PixelFormat) (o h i : Nat) (p : Plane) : Plane :=
  ⟨⟨p.slice.addr + p.stride * rowCount f i o, p.stride * rowCount f i h⟩, p.stride⟩

/-- Rows `o .. o + h` of an image. -/
def stripPlanes (f : PixelFormat) (ps : List Plane) (o h : Nat) : List Plane :=
  (ps.take (planeCount f)).mapIdx (stripPlane f o h)

/-- Number of strips. -/
def stripCount (height threads : Nat) : Nat := min threads (height / 2)

/-- First row of strip `k` of `n` in an image `height` rows high. -/
def stripStart (height n k : Nat) : Nat := 2 * (k * (height / 2 / n) + min k (height / 2 % n))

/-- Rows of strip `k`. -/
def stripHeight (height n k : Nat) : Nat := 2 * (height / 2 / n + if k < height / 2 % n then 1 else 0)

/-- All strips: first row and number of rows. -/
def strips (height threads : Nat) : List (Nat × Nat) :=
  let n := stripCount height threads
  (List.range n).map fun k => (stripStart height n k, stripHeight height n k)

end Ezk.Spec

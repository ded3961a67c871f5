import Verif.Model.Color

/-!
# The colour arithmetic of a single pixel

Scalar formulas for everything `convert` does to one pixel: there are no vectors, blocks or planes here.  The
arithmetic `ar` is that of the CPU; the operations are listed in the order in which they are rounded.  The numeric
constants (matrices) are the crate's.
-/

namespace Ezk.Spec
open FOps

/-- A colour of three components: `(r, g, b)`, `(y, u, v)`, `(x, y, z)` or `(l, m, s)`. -/
abbrev C3 (F : Type) := F × F × F

section
variable {F : Type} [FOps F] (ar : Arith F)

/-- `x·a + y·b + z·c`. -/
def dot (x a y b z c : F) : F := ar.add (ar.add (ar.mul x a) (ar.mul y b)) (ar.mul z c)

/-- Row vector times matrix. -/
def rowMul (p : C3 F) (m : Mat F) : C3 F :=
  (dot ar p.1 m.m00 p.2.1 m.m10 p.2.2 m.m20,
   dot ar p.1 m.m01 p.2.1 m.m11 p.2.2 m.m21,
   dot ar p.1 m.m02 p.2.1 m.m12 p.2.2 m.m22)

/-- Matrix times column vector. -/
def matMul (m : Mat F) (p : C3 F) : C3 F :=
  (dot ar p.1 m.m00 p.2.1 m.m01 p.2.2 m.m02,
   dot ar p.1 m.m10 p.2.1 m.m11 p.2.2 m.m12,
   dot ar p.1 m.m20 p.2.1 m.m21 p.2.2 m.m22)

/-- Apply a function to all three components. -/
def map3 (f : F → F) (p : C3 F) : C3 F := (f p.1, f p.2.1, f p.2.2)

/-! ## Transfer functions -/

/-- PQ: `((c1 + c2·y) / (1 + c3·y)) ^ m2` with `y = (max(L, 0) / 10000) ^ m1`. -/
def pqEncode (l : F) : F :=
  let y := ar.pow (ar.div (ar.max l (lit 0.0)) Pq.L) Pq.M1
  ar.pow (ar.div (ar.add (ar.mul y Pq.C2) Pq.C1) (ar.add (ar.mul y Pq.C3) (lit 1.0))) Pq.M2

/-- PQ: `10000 · (max(p - c1, 0) / (c2 - c3·p)) ^ (1/m1)` with `p = max(e, 0) ^ (1/m2)`. -/
def pqDecode (e : F) : F :=
  let p := ar.pow (ar.max e (lit 0.0)) (div (lit 1.0) Pq.M2)
  ar.mul (ar.pow (ar.div (ar.max (ar.sub p Pq.C1) (lit 0.0)) (ar.sub Pq.C2 (ar.mul p Pq.C3))) (div (lit 1.0) Pq.M1)) Pq.L

/-- HLG: `√(3l)` up to `1/12`, `a·ln(12l - b) + c` above; negative input counts as 0. -/
def hlgEncode (l : F) : F :=
  let l := ar.max l (lit 0.0)
  if ar.le l (div (lit 1.0) (lit 12.0)) then ar.sqrt (ar.mul l (lit 3.0))
  else ar.add (ar.mul Hlg.A (ar.ln (ar.sub (ar.mul (lit 12.0) l) Hlg.B'))) Hlg.C

/-- HLG: `e²/3` up to `1/2`, `(exp((e - c)/a) + b)/12` above. -/
def hlgDecode (v : F) : F :=
  let v := ar.max v (lit 0.0)
  if ar.le v (lit 0.5) then ar.div (ar.pow v (lit 2.0)) (lit 3.0)
  else ar.div (ar.add (ar.pow e (ar.div (ar.sub v Hlg.C) Hlg.A)) Hlg.B') (lit 12.0)

/-- Linear light to the encoded signal. -/
def encodeTransfer (t : ColorTransfer) (l : F) : F :=
  match t with
  | .Linear => l
  | .Gamma22 => ar.pow l (div (lit 1.0) (div (ofNat 22) (lit 10.0)))
  | .Gamma28 => ar.pow l (div (lit 1.0) (div (ofNat 28) (lit 10.0)))
  | .SRGB =>
    if ar.le l (lit 0.0031308) then ar.mul l (lit 12.92)
    else ar.sub (ar.mul (lit 1.055) (ar.pow l (div (lit 1.0) (lit 2.4)))) (lit 0.055)
  | .SDR =>
    if ar.lt l (lit 0.01805397) then ar.mul (lit 4.5) l
    else ar.sub (ar.mul (lit 1.099) (ar.pow l (lit 0.45))) (lit 0.099)
  | .BT2100PQ => pqEncode ar l
  | .BT2100HLG => hlgEncode ar l

/-- The encoded signal to linear light. -/
def decodeTransfer (t : ColorTransfer) (v : F) : F :=
  match t with
  | .Linear => v
  | .Gamma22 => ar.pow v (div (ofNat 22) (lit 10.0))
  | .Gamma28 => ar.pow v (div (ofNat 28) (lit 10.0))
  | .SRGB =>
    if ar.le v (lit 0.04045) then ar.div v (lit 12.92)
    else ar.pow (ar.div (ar.add v (lit 0.055)) (lit 1.055)) (lit 2.4)
  | .SDR =>
    if ar.lt v (lit 0.081490956) then ar.div v (lit 4.5)
    else ar.pow (ar.div (ar.add v (lit 0.0993)) (lit 1.099)) (div (lit 1.0) (lit 0.45))
  | .BT2100PQ => pqDecode ar v
  | .BT2100HLG => hlgDecode ar v

/-! ## YUV and RGB -/

/-- The `YUV → RGB` matrix of a matrix-based colour space: entries `m20`, `m21`, `m11`, `m12` are used. -/
def yuvToRgbMatrix (m : Mat F) (p : C3 F) : C3 F :=
  let (y, u, v) := p
  (ar.add y (ar.mul v m.m20),
   ar.add y (ar.add (ar.mul v m.m21) (ar.mul u m.m11)),
   ar.add y (ar.mul u m.m12))

/-- XYZ to LMS. -/
def toLms (p : C3 F) : C3 F :=
  (dot ar p.1 (lit 0.3593) p.2.1 (lit 0.6976) p.2.2 (lit (-0.0359)),
   dot ar p.1 (lit (-0.1921)) p.2.1 (lit 1.1005) p.2.2 (lit 0.0754),
   dot ar p.1 (lit 0.0071) p.2.1 (lit 0.0748) p.2.2 (lit 0.8433))

/-- LMS to XYZ. -/
def ofLms (p : C3 F) : C3 F :=
  (dot ar p.1 (lit 2.0700345) p.2.1 (lit (-1.3262312)) p.2.2 (lit 0.20670232),
   dot ar p.1 (lit 0.3647498) p.2.1 (lit 0.6805457) p.2.2 (lit (-0.04532032)),
   dot ar p.1 (lit (-0.04978125)) p.2.1 (lit (-0.049197882)) p.2.2 (lit 1.1880972))

/-- `y + u·a + v·b`. -/
def ict (y u a v b : F) : F := ar.add (ar.add y (ar.mul u a)) (ar.mul v b)

/-- Encoded LMS to `ICtCp` (PQ variant). -/
def ictcpPq (p : C3 F) : C3 F :=
  let (l, m, s) := p
  (ar.add (ar.mul l (lit 0.5)) (ar.mul m (lit 0.5)),
   ar.div (dot ar l (lit 6610.0) m (lit (-13613.0)) s (lit 7003.0)) (lit 4096.0),
   ar.div (dot ar l (lit 17933.0) m (lit (-17390.0)) s (lit (-543.0))) (lit 4096.0))

/-- Encoded LMS to `ICtCp` (HLG variant). -/
def ictcpHlg (p : C3 F) : C3 F :=
  let (l, m, s) := p
  (ar.mul (ar.add l m) (lit 0.5),
   ar.add (ar.sub (ar.mul l (lit 0.88500977)) (ar.mul m (lit 1.8225098))) (ar.mul s (lit 0.9375)),
   ar.sub (ar.sub (ar.mul l (lit 2.319336)) (ar.mul m (lit 2.2490234))) (ar.mul s (lit 0.0703125)))

/-- RGB to YUV in the given colour space; `t` and `prim` are those of the image. -/
def rgbToYuv (cs : ColorSpace) (t : ColorTransfer) (prim : ColorPrimaries) (p : C3 F) : C3 F :=
  match cs with
  | .BT601 => matMul ar BT601_RGB_TO_YUV p
  | .BT709 => matMul ar BT709_RGB_TO_YUV p
  | .BT2020 => matMul ar BT2020_RGB_TO_YUV p
  | .ICtCpPQ =>
    ictcpPq ar (map3 (pqEncode ar) (toLms ar (rowMul ar (map3 (decodeTransfer ar t) p) prim.rgbToXyzMat)))
  | .ICtCpHLG =>
    ictcpHlg ar (map3 (hlgEncode ar) (toLms ar (rowMul ar (map3 (decodeTransfer ar t) p) prim.rgbToXyzMat)))

/-- YUV to RGB in the given colour space. -/
def yuvToRgb (cs : ColorSpace) (t : ColorTransfer) (prim : ColorPrimaries) (p : C3 F) : C3 F :=
  let (y, u, v) := p
  match cs with
  | .BT601 => yuvToRgbMatrix ar BT601_YUV_TO_RGB p
  | .BT709 => yuvToRgbMatrix ar BT709_YUV_TO_RGB p
  | .BT2020 => yuvToRgbMatrix ar BT2020_YUV_TO_RGB p
  | .ICtCpPQ =>
    let lms := (ict ar y u (lit 0.008609037) v (lit 0.111029625),
      ict ar y u (lit (-0.008609037)) v (lit (-0.111029625)),
      ict ar y u (lit 0.5600313) v (lit (-0.32062715)))
    map3 (encodeTransfer ar t) (rowMul ar (ofLms ar (map3 (pqDecode ar) lms)) prim.xyzToRgbMat)
  | .ICtCpHLG =>
    let lms := (ict ar y u (lit 0.01571858) v (lit 0.20958106),
      ict ar y u (lit (-0.01571858)) v (lit (-0.20958106)),
      ict ar y u (lit 1.0212711) v (lit (-0.6052745)))
    map3 (encodeTransfer ar t) (rowMul ar (ofLms ar (map3 (hlgDecode ar) lms)) prim.xyzToRgbMat)

/-! ## Studio (limited) range -/

/-- Luma of a sample in `[0, 1]`: limited range occupies `[16/255, 235/255]`. -/
def expandLuma (full : Bool) (y : F) : F :=
  if full then y else ar.mul (ar.sub y (div (lit 16.0) (lit 255.0))) (div (lit 255.0) (lit 219.0))

/-- Chroma of a sample in `[0, 1]`, centred: limited range occupies `[16/255, 240/255]`. -/
def expandChroma (full : Bool) (u : F) : F :=
  ar.sub (if full then u else ar.mul (ar.sub u (div (lit 16.0) (lit 255.0))) (div (lit 255.0) (lit 224.0))) (lit 0.5)

/-- Inverse of `expandLuma`. -/
def compressLuma (full : Bool) (y : F) : F :=
  if full then y else ar.add (div (lit 16.0) (lit 255.0)) (ar.mul y (div (lit 219.0) (lit 255.0)))

/-- Inverse of `expandChroma`. -/
def compressChroma (full : Bool) (u : F) : F :=
  if full then ar.add u (lit 0.5)
  else ar.add (div (lit 16.0) (lit 255.0)) (ar.mul (ar.add u (lit 0.5)) (div (lit 224.0) (lit 255.0)))

/-! ## Change of transfer function and primaries -/

/-- Through linear light and XYZ. -/
def changeRgb (st : ColorTransfer) (sp : ColorPrimaries) (dt : ColorTransfer) (dp : ColorPrimaries) (p : C3 F) : C3 F :=
  map3 (encodeTransfer ar dt)
    (rowMul ar (rowMul ar (map3 (decodeTransfer ar st) p) sp.rgbToXyzMat) dp.xyzToRgbMat)

end
end Ezk.Spec

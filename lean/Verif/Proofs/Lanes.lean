import Verif.Spec.Color
import Verif.Model.Formats

/-! # Lane `i` of the vector colour code is the scalar formula on lane `i` -/

namespace Ezk
open FOps
variable {F : Type} [FOps F] (B : Backend F)

/-- The three lanes `i` of a triple of vectors. -/
def lane3 {n : Nat} (p : Vec n F × Vec n F × Vec n F) (i : Fin n) : Spec.C3 F := (p.1 i, p.2.1 i, p.2.2 i)

theorem lane_rgbToXyz (m : Mat F) (r g b : B.V) (i : Fin B.LEN) :
    lane3 (rgbToXyz B m r g b) i = Spec.rowMul B.ar (r i, g i, b i) m := rfl
theorem lane_xyzToRgb (m : Mat F) (r g b : B.V) (i : Fin B.LEN) :
    lane3 (xyzToRgb B m r g b) i = Spec.rowMul B.ar (r i, g i, b i) m := rfl
theorem lane_linearToScaled (t : ColorTransfer) (v : B.V) (i : Fin B.LEN) :
    t.linearToScaledV B v i = Spec.encodeTransfer B.ar t (v i) := by cases t <;> rfl
theorem lane_scaledToLinear (t : ColorTransfer) (v : B.V) (i : Fin B.LEN) :
    t.scaledToLinearV B v i = Spec.decodeTransfer B.ar t (v i) := by cases t <;> rfl

theorem lane_pqRgbToYuv (t : ColorTransfer) (p : ColorPrimaries) (r g b : B.V) (i : Fin B.LEN) :
    lane3 (pqRgbToYuv B t p.rgbToXyzMat r g b) i = Spec.rgbToYuv B.ar .ICtCpPQ t p (r i, g i, b i) := by
  cases t <;> rfl
theorem lane_hlgRgbToYuv (t : ColorTransfer) (p : ColorPrimaries) (r g b : B.V) (i : Fin B.LEN) :
    lane3 (hlgRgbToYuv B t p.rgbToXyzMat r g b) i = Spec.rgbToYuv B.ar .ICtCpHLG t p (r i, g i, b i) := by
  cases t <;> rfl
theorem lane_pqYuvToRgb (t : ColorTransfer) (p : ColorPrimaries) (y u v : B.V) (i : Fin B.LEN) :
    lane3 (pqYuvToRgb B t p.xyzToRgbMat y u v) i = Spec.yuvToRgb B.ar .ICtCpPQ t p (y i, u i, v i) := by
  cases t <;> rfl
theorem lane_hlgYuvToRgb (t : ColorTransfer) (p : ColorPrimaries) (y u v : B.V) (i : Fin B.LEN) :
    lane3 (hlgYuvToRgb B t p.xyzToRgbMat y u v) i = Spec.yuvToRgb B.ar .ICtCpHLG t p (y i, u i, v i) := by
  cases t <;> rfl

theorem lane_rgbToYuv (cs : ColorSpace) (t : ColorTransfer) (p : ColorPrimaries) (r g b : B.V) (i : Fin B.LEN) :
    lane3 (cs.rgbToYuv B t p.rgbToXyzMat r g b) i = Spec.rgbToYuv B.ar cs t p (r i, g i, b i) := by
  cases cs
  · rfl
  · rfl
  · rfl
  · exact lane_pqRgbToYuv B t p r g b i
  · exact lane_hlgRgbToYuv B t p r g b i

theorem lane_yuvToRgb (cs : ColorSpace) (t : ColorTransfer) (p : ColorPrimaries) (y u v : B.V) (i : Fin B.LEN) :
    lane3 (cs.yuvToRgb B t p.xyzToRgbMat y u v) i = Spec.yuvToRgb B.ar cs t p (y i, u i, v i) := by
  cases cs
  · rfl
  · rfl
  · rfl
  · exact lane_pqYuvToRgb B t p y u v i
  · exact lane_hlgYuvToRgb B t p y u v i

theorem lane_expandY (full : Bool) (y : B.V) (i : Fin B.LEN) :
    expandY B full y i = Spec.expandLuma B.ar full (y i) := by cases full <;> rfl
theorem lane_expandUV (full : Bool) (y : B.V) (i : Fin B.LEN) :
    expandUV B full y i = Spec.expandChroma B.ar full (y i) := by cases full <;> rfl
theorem lane_compressY (full : Bool) (y : B.V) (i : Fin B.LEN) :
    compressY B full y i = Spec.compressLuma B.ar full (y i) := by cases full <;> rfl
theorem lane_compressUV (full : Bool) (y : B.V) (i : Fin B.LEN) :
    compressUV B full y i = Spec.compressChroma B.ar full (y i) := by cases full <;> rfl

/-- The `4:2:0` decoder treats every pixel with the chroma of its cell. -/
theorem lane_yx4UvToRgb (cs : ColorSpace) (t : ColorTransfer) (p : ColorPrimaries)
    (y00 y01 y10 y11 u v : B.V) (i : Fin B.LEN) :
    let r := cs.yx4UvToRgb B t p.xyzToRgbMat y00 y01 y10 y11 u v
    lane3 r.p00 i = Spec.yuvToRgb B.ar cs t p (y00 i, (B.zip u u).1 i, (B.zip v v).1 i) ∧
    lane3 r.p01 i = Spec.yuvToRgb B.ar cs t p (y01 i, (B.zip u u).2 i, (B.zip v v).2 i) ∧
    lane3 r.p10 i = Spec.yuvToRgb B.ar cs t p (y10 i, (B.zip u u).1 i, (B.zip v v).1 i) ∧
    lane3 r.p11 i = Spec.yuvToRgb B.ar cs t p (y11 i, (B.zip u u).2 i, (B.zip v v).2 i) := by
  cases cs
  · exact ⟨rfl, rfl, rfl, rfl⟩
  · exact ⟨rfl, rfl, rfl, rfl⟩
  · exact ⟨rfl, rfl, rfl, rfl⟩
  · exact ⟨lane_pqYuvToRgb .., lane_pqYuvToRgb .., lane_pqYuvToRgb .., lane_pqYuvToRgb ..⟩
  · exact ⟨lane_hlgYuvToRgb .., lane_hlgYuvToRgb .., lane_hlgYuvToRgb .., lane_hlgYuvToRgb ..⟩

/-- `TransferAndPrimariesConvert` on one lane. -/
theorem lane_transferPixel (sc dc : ColorInfo) (p : RgbaPixel B.V) (i : Fin B.LEN) :
    let q := transferPixel sc dc B p
    (q.r i, q.g i, q.b i) =
      Spec.changeRgb B.ar sc.transfer sc.primaries dc.transfer dc.primaries (p.r i, p.g i, p.b i) ∧
    q.a i = p.a i := by
  refine ⟨?_, rfl⟩
  simp only [transferPixel, lane_linearToScaled, Spec.changeRgb, Spec.map3, ← lane_scaledToLinear B sc.transfer]
  rfl

end Ezk

import Verif.Proofs.Transfer
import Verif.Spec.Colorimetry

/-!
# Colour formulas in exact arithmetic

`B` is any vector backend whose lane operations are exact; the functions are those the conversions call.  A vector has
`B.LEN` lanes, `v i` is lane `i`.
-/

namespace Ezk.Props
open FOps Spec

variable {B : Backend ℝ}

/-- There are such backends: the scalar one with exact operations. -/
noncomputable def exactBackend : Backend ℝ := scalarBackend (realArith (fun _ => 0) (fun _ => 0) (fun _ => 0))
theorem exactBackend_exact : Exact exactBackend.ar := realArith_exact _ _ _

/-! ## C26: YUV and RGB are inverse -/

/-- **C26** (partial: false for BT.2020, see below). RGB to YUV and back. -/
theorem C26_rgb_yuv_rgb_partial (hB : Exact B.ar) {cs : ColorSpace} (hcs : cs = .BT601 ∨ cs = .BT709)
    (t t' : ColorTransfer) (mat mat' : Mat ℝ) (r g b : B.V) :
    let yuv := cs.rgbToYuv B t mat r g b
    cs.yuvToRgb B t' mat' yuv.1 yuv.2.1 yuv.2.2 = (r, g, b) := by
  rcases hcs with rfl | rfl
  · exact ext_lanes fun i => (matrices_inverse hB (kr := lit 0.299) (kg := lit 0.587) (kb := lit 0.114)
      (by simp only [lit_real]; norm_num) (by simp only [lit_real]; norm_num)
      (by simp only [lit_real]; norm_num) (by simp only [lit_real]; norm_num) (r i, g i, b i)).1
  · exact ext_lanes fun i => (matrices_inverse hB (kr := lit 0.2126) (kg := lit 0.7152) (kb := lit 0.0722)
      (by simp only [lit_real]; norm_num) (by simp only [lit_real]; norm_num)
      (by simp only [lit_real]; norm_num) (by simp only [lit_real]; norm_num) (r i, g i, b i)).1

/-- **C26** (partial: false for BT.2020, see below). YUV to RGB and back. -/
theorem C26_yuv_rgb_yuv_partial (hB : Exact B.ar) {cs : ColorSpace} (hcs : cs = .BT601 ∨ cs = .BT709)
    (t t' : ColorTransfer) (mat mat' : Mat ℝ) (y u v : B.V) :
    let rgb := cs.yuvToRgb B t mat y u v
    cs.rgbToYuv B t' mat' rgb.1 rgb.2.1 rgb.2.2 = (y, u, v) := by
  rcases hcs with rfl | rfl
  · exact ext_lanes fun i => (matrices_inverse hB (kr := lit 0.299) (kg := lit 0.587) (kb := lit 0.114)
      (by simp only [lit_real]; norm_num) (by simp only [lit_real]; norm_num)
      (by simp only [lit_real]; norm_num) (by simp only [lit_real]; norm_num) (y i, u i, v i)).2
  · exact ext_lanes fun i => (matrices_inverse hB (kr := lit 0.2126) (kg := lit 0.7152) (kb := lit 0.0722)
      (by simp only [lit_real]; norm_num) (by simp only [lit_real]; norm_num)
      (by simp only [lit_real]; norm_num) (by simp only [lit_real]; norm_num) (y i, u i, v i)).2

/-- **C26** is false for BT.2020: pure green comes back changed. -/
theorem C26_bt2020_not_inverse (hB : Exact B.ar) (t t' : ColorTransfer) (mat mat' : Mat ℝ) {r g b : B.V}
    {i : Fin B.LEN} (hr : r i = 0) (hg : g i = 1) (hb : b i = 0) :
    let yuv := ColorSpace.BT2020.rgbToYuv B t mat r g b
    (ColorSpace.BT2020.yuvToRgb B t' mat' yuv.1 yuv.2.1 yuv.2.2).2.1 i ≠ g i := by
  have e : lane3 (let yuv := ColorSpace.BT2020.rgbToYuv B t mat r g b
      ColorSpace.BT2020.yuvToRgb B t' mat' yuv.1 yuv.2.1 yuv.2.2) i =
      yuvToRgbMatrix B.ar BT2020_YUV_TO_RGB (matMul B.ar BT2020_RGB_TO_YUV (r i, g i, b i)) := rfl
  intro yuv
  refine ne_of_eq_of_ne (congrArg (fun q => q.2.1) e) ?_
  rw [hr, hg, hb]
  simp only [yuvToRgbMatrix, matMul, BT2020_YUV_TO_RGB, BT2020_RGB_TO_YUV, makeYuvToRgb, makeRgbToYuv, dot_real hB,
    hB.add, hB.mul, lit_real, mul_real, div_real, sub_real, neg_real]
  norm_num [Rat.cast_ofScientific]

/-! ## C27: greys are neutral -/

/-- **C27** (partial: false for BT.2020, see below). -/
theorem C27_grey_partial (hB : Exact B.ar) {cs : ColorSpace} (hcs : cs = .BT601 ∨ cs = .BT709)
    (t t' : ColorTransfer) (mat mat' : Mat ℝ) (r : B.V) :
    cs.rgbToYuv B t mat r r r = (r, fun _ => 0, fun _ => 0) ∧
    cs.yuvToRgb B t' mat' r (fun _ => 0) (fun _ => 0) = (r, r, r) := by
  rcases hcs with rfl | rfl <;> refine ⟨ext_lanes fun i => ?_, ext_lanes fun i => ?_⟩
  · change matMul B.ar (makeRgbToYuv (lit 0.299) (lit 0.587) (lit 0.114)) (r i, r i, r i) = (r i, 0, 0)
    simp only [matMul, makeRgbToYuv, dot_real hB, lit_real, mul_real, div_real, sub_real, Prod.mk.injEq]
    norm_num only [Rat.cast_ofScientific]
    refine ⟨?_, ?_, ?_⟩ <;> ring
  · change yuvToRgbMatrix B.ar (makeYuvToRgb (lit 0.299) (lit 0.587) (lit 0.114)) (r i, 0, 0) = (r i, r i, r i)
    simp only [yuvToRgbMatrix, hB.add, hB.mul, zero_mul, add_zero]
  · change matMul B.ar (makeRgbToYuv (lit 0.2126) (lit 0.7152) (lit 0.0722)) (r i, r i, r i) = (r i, 0, 0)
    simp only [matMul, makeRgbToYuv, dot_real hB, lit_real, mul_real, div_real, sub_real, Prod.mk.injEq]
    norm_num only [Rat.cast_ofScientific]
    refine ⟨?_, ?_, ?_⟩ <;> ring
  · change yuvToRgbMatrix B.ar (makeYuvToRgb (lit 0.2126) (lit 0.7152) (lit 0.0722)) (r i, 0, 0) = (r i, r i, r i)
    simp only [yuvToRgbMatrix, hB.add, hB.mul, zero_mul, add_zero]

/-- **C27** is false for BT.2020: white has luma 0.644 and a chroma of more than 0.18. -/
theorem C27_bt2020_white (hB : Exact B.ar) (t : ColorTransfer) (mat : Mat ℝ) {r : B.V} {i : Fin B.LEN} (hr : r i = 1) :
    let yuv := ColorSpace.BT2020.rgbToYuv B t mat r r r
    yuv.1 i = 0.644 ∧ 0.18 < yuv.2.1 i ∧ 0.18 < yuv.2.2 i := by
  have e : lane3 (ColorSpace.BT2020.rgbToYuv B t mat r r r) i = matMul B.ar BT2020_RGB_TO_YUV (r i, r i, r i) := rfl
  intro yuv
  change (lane3 yuv i).1 = _ ∧ (0.18 : ℝ) < (lane3 yuv i).2.1 ∧ (0.18 : ℝ) < (lane3 yuv i).2.2
  rw [e, hr]
  simp only [matMul, BT2020_RGB_TO_YUV, makeRgbToYuv, dot_real hB, lit_real, mul_real, div_real, sub_real]
  norm_num [Rat.cast_ofScientific]

/-! ## C28: codes stay in range -/

theorem matrixSpace_range (hB : Exact B.ar) {cs : ColorSpace} (hcs : cs = .BT601 ∨ cs = .BT709 ∨ cs = .BT2020)
    (t : ColorTransfer) (mat : Mat ℝ) {r g b : B.V} {i : Fin B.LEN} (hr : 0 ≤ r i ∧ r i ≤ 1) (hg : 0 ≤ g i ∧ g i ≤ 1)
    (hb : 0 ≤ b i ∧ b i ≤ 1) :
    let p := lane3 (cs.rgbToYuv B t mat r g b) i
    (0 ≤ p.1 ∧ p.1 ≤ 1) ∧ (-(1 / 2) ≤ p.2.1 ∧ p.2.1 ≤ 1 / 2) ∧ (-(1 / 2) ≤ p.2.2 ∧ p.2.2 ≤ 1 / 2) := by
  rcases hcs with rfl | rfl | rfl
  · exact matrix_range hB (kr := lit 0.299) (kg := lit 0.587) (kb := lit 0.114)
      (by simp only [lit_real]; norm_num) (by simp only [lit_real]; norm_num)
      (by simp only [lit_real]; norm_num) (by simp only [lit_real]; norm_num) hr.1 hr.2 hg.1 hg.2 hb.1 hb.2
  · exact matrix_range hB (kr := lit 0.2126) (kg := lit 0.7152) (kb := lit 0.0722)
      (by simp only [lit_real]; norm_num) (by simp only [lit_real]; norm_num)
      (by simp only [lit_real]; norm_num) (by simp only [lit_real]; norm_num) hr.1 hr.2 hg.1 hg.2 hb.1 hb.2
  · exact matrix_range hB (kr := lit 0.2627) (kg := lit 0.322) (kb := lit 0.0593)
      (by simp only [lit_real]; norm_num) (by simp only [lit_real]; norm_num)
      (by simp only [lit_real]; norm_num) (by simp only [lit_real]; norm_num) hr.1 hr.2 hg.1 hg.2 hb.1 hb.2

/-- **C28**: full-range samples of an in-range colour lie in `[0, 1]`. -/
theorem C28_full (hB : Exact B.ar) {cs : ColorSpace} (hcs : cs = .BT601 ∨ cs = .BT709 ∨ cs = .BT2020)
    (t : ColorTransfer) (mat : Mat ℝ) {r g b : B.V} {i : Fin B.LEN} (hr : 0 ≤ r i ∧ r i ≤ 1) (hg : 0 ≤ g i ∧ g i ≤ 1)
    (hb : 0 ≤ b i ∧ b i ≤ 1) :
    let yuv := cs.rgbToYuv B t mat r g b
    (0 ≤ compressY B true yuv.1 i ∧ compressY B true yuv.1 i ≤ 1) ∧
    (0 ≤ compressUV B true yuv.2.1 i ∧ compressUV B true yuv.2.1 i ≤ 1) ∧
    (0 ≤ compressUV B true yuv.2.2 i ∧ compressUV B true yuv.2.2 i ≤ 1) := by
  obtain ⟨hy, hu, hv⟩ := matrixSpace_range hB hcs t mat hr hg hb
  simp only [lane3] at hy hu hv
  simp only [lane_compressY, lane_compressUV, compressChroma_full hB]
  refine ⟨hy, ⟨?_, ?_⟩, ?_, ?_⟩ <;> linarith [hu.1, hu.2, hv.1, hv.2]

/-- **C28**: limited-range samples of an in-range colour lie in `[16/255, 235/255]` and `[16/255, 240/255]`. -/
theorem C28_limited (hB : Exact B.ar) {cs : ColorSpace} (hcs : cs = .BT601 ∨ cs = .BT709 ∨ cs = .BT2020)
    (t : ColorTransfer) (mat : Mat ℝ) {r g b : B.V} {i : Fin B.LEN} (hr : 0 ≤ r i ∧ r i ≤ 1) (hg : 0 ≤ g i ∧ g i ≤ 1)
    (hb : 0 ≤ b i ∧ b i ≤ 1) :
    let yuv := cs.rgbToYuv B t mat r g b
    (16 / 255 ≤ compressY B false yuv.1 i ∧ compressY B false yuv.1 i ≤ 235 / 255) ∧
    (16 / 255 ≤ compressUV B false yuv.2.1 i ∧ compressUV B false yuv.2.1 i ≤ 240 / 255) ∧
    (16 / 255 ≤ compressUV B false yuv.2.2 i ∧ compressUV B false yuv.2.2 i ≤ 240 / 255) := by
  obtain ⟨hy, hu, hv⟩ := matrixSpace_range hB hcs t mat hr hg hb
  simp only [lane3] at hy hu hv
  simp only [lane_compressY, lane_compressUV, compressLuma_real hB, compressChroma_real hB]
  refine ⟨⟨?_, ?_⟩, ⟨?_, ?_⟩, ?_, ?_⟩ <;> linarith [hy.1, hy.2, hu.1, hu.2, hv.1, hv.2]

/-- The bounds of C28 are attained: white and blue in BT.709. -/
theorem C28_attained (hB : Exact B.ar) (t : ColorTransfer) (mat : Mat ℝ) {r g b : B.V} {i : Fin B.LEN}
    (hb : b i = 1) :
    (r i = 1 → g i = 1 → compressY B false (ColorSpace.BT709.rgbToYuv B t mat r g b).1 i = 235 / 255) ∧
    (r i = 0 → g i = 0 → compressUV B false (ColorSpace.BT709.rgbToYuv B t mat r g b).2.1 i = 240 / 255) := by
  have e : lane3 (ColorSpace.BT709.rgbToYuv B t mat r g b) i = matMul B.ar BT709_RGB_TO_YUV (r i, g i, b i) := rfl
  have e1 : (ColorSpace.BT709.rgbToYuv B t mat r g b).1 i = (lane3 (ColorSpace.BT709.rgbToYuv B t mat r g b) i).1 := rfl
  have e2 : (ColorSpace.BT709.rgbToYuv B t mat r g b).2.1 i =
    (lane3 (ColorSpace.BT709.rgbToYuv B t mat r g b) i).2.1 := rfl
  refine ⟨fun hr hg => ?_, fun hr hg => ?_⟩
  · rw [lane_compressY, compressLuma_real hB, e1, e, hr, hg, hb]
    simp only [matMul, BT709_RGB_TO_YUV, makeRgbToYuv, dot_real hB, lit_real]
    norm_num [Rat.cast_ofScientific]
  · rw [lane_compressUV, compressChroma_real hB, e2, e, hr, hg, hb]
    simp only [matMul, BT709_RGB_TO_YUV, makeRgbToYuv, dot_real hB, lit_real]
    norm_num [Rat.cast_ofScientific]

/-! ## C29: range expansion and compression -/

/-- **C29**: expansion and compression are inverse of each other, for luma and chroma, full and limited range. -/
theorem C29_inverse (hB : Exact B.ar) (full : Bool) (v : B.V) :
    compressY B full (expandY B full v) = v ∧ expandY B full (compressY B full v) = v ∧
    compressUV B full (expandUV B full v) = v ∧ expandUV B full (compressUV B full v) = v := by
  refine ⟨funext fun i => ?_, funext fun i => ?_, funext fun i => ?_, funext fun i => ?_⟩
  · rw [lane_compressY, lane_expandY, (compress_expand_luma hB full (v i)).1]
  · rw [lane_expandY, lane_compressY, (compress_expand_luma hB full (v i)).2]
  · rw [lane_compressUV, lane_expandUV, (compress_expand_chroma hB full (v i)).1]
  · rw [lane_expandUV, lane_compressUV, (compress_expand_chroma hB full (v i)).2]

/-- **C29**: the sample `n / 255` is expanded to `(n - 16) / 219` resp. `(n - 16) / 224 - 1/2` in limited range and to
`n / 255` resp. `n / 255 - 1/2` in full range. -/
theorem C29_values (hB : Exact B.ar) {v : B.V} {i : Fin B.LEN} {n : ℝ} (hv : v i = n / 255) :
    expandY B false v i = (n - 16) / 219 ∧ expandUV B false v i = (n - 16) / 224 - 1 / 2 ∧
    expandY B true v i = n / 255 ∧ expandUV B true v i = n / 255 - 1 / 2 := by
  simp only [lane_expandY, lane_expandUV, expandLuma, expandChroma, hB.sub, hB.mul, lit_real, div_real, hv]
  norm_num only [Rat.cast_ofScientific]
  refine ⟨?_, ?_, ?_, ?_⟩ <;> simp only [Bool.false_eq_true, ↓reduceIte] <;> ring

/-! ## C30: transfer functions -/

/-- **C30** (partial: false for the others, see below): the decoder undoes the encoder exactly. -/
theorem C30_inverse_partial (hB : Exact B.ar) {t : ColorTransfer}
    (ht : t = .Linear ∨ t = .Gamma22 ∨ t = .Gamma28 ∨ t = .BT2100PQ) {v : B.V} {i : Fin B.LEN} (h0 : 0 ≤ v i) :
    t.scaledToLinearV B (t.linearToScaledV B v) i = v i := by
  rw [lane_scaledToLinear, lane_linearToScaled]
  rcases ht with rfl | rfl | rfl | rfl
  · rfl
  · exact (gamma_inverse hB h0).1
  · exact (gamma_inverse hB h0).2
  · exact pq_inverse hB h0

/-- **C30** (partial): sRGB and HLG are undone up to 1e-7, SDR on `[0, 1]` up to 1e-3. -/
theorem C30_near_partial (hB : Exact B.ar) (v : B.V) (i : Fin B.LEN) (h0 : 0 ≤ v i) :
    |ColorTransfer.SRGB.scaledToLinearV B (ColorTransfer.SRGB.linearToScaledV B v) i - v i| ≤ 1e-7 ∧
    |ColorTransfer.BT2100HLG.scaledToLinearV B (ColorTransfer.BT2100HLG.linearToScaledV B v) i - v i| ≤ 1e-7 ∧
    (v i ≤ 1 → |ColorTransfer.SDR.scaledToLinearV B (ColorTransfer.SDR.linearToScaledV B v) i - v i| ≤ 1e-3) := by
  simp only [lane_scaledToLinear, lane_linearToScaled]
  exact ⟨le_trans (srgb_near hB _) (by norm_num), hlg_near hB h0, fun h1 => sdr_near hB h1⟩

/-- **C30** is false for SDR, sRGB and HLG: concrete values that do not come back. -/
theorem C30_not_inverse (hB : Exact B.ar) {v : B.V} {i : Fin B.LEN} :
    (v i = 1 → ColorTransfer.SDR.scaledToLinearV B (ColorTransfer.SDR.linearToScaledV B v) i ≠ v i) ∧
    (v i = 0.003130807 → ColorTransfer.SRGB.scaledToLinearV B (ColorTransfer.SRGB.linearToScaledV B v) i ≠ v i) ∧
    (v i = 1 / 12 + 1e-9 →
      ColorTransfer.BT2100HLG.scaledToLinearV B (ColorTransfer.BT2100HLG.linearToScaledV B v) i ≠ v i) := by
  simp only [lane_scaledToLinear, lane_linearToScaled]
  refine ⟨fun h => ?_, fun h => ?_, fun h => ?_⟩ <;> rw [h]
  · exact (sdr_white hB).ne'
  · exact srgb_gap hB
  · exact hlg_gap hB

/-- **C30** (partial: false for sRGB and HLG, see below): encoding is monotone. -/
theorem C30_encode_monotone_partial (hB : Exact B.ar) {t : ColorTransfer} (h1 : t ≠ .SRGB) (h2 : t ≠ .BT2100HLG)
    {v : B.V} {i j : Fin B.LEN} (h0 : 0 ≤ v i) (hij : v i ≤ v j) :
    t.linearToScaledV B v i ≤ t.linearToScaledV B v j := by
  rw [lane_linearToScaled, lane_linearToScaled]
  cases t
  · exact hij
  · exact (gamma_mono hB h0 hij).1.1
  · exact (gamma_mono hB h0 hij).1.2
  · exact absurd rfl h1
  · exact enc_sdr_mono hB h0 hij
  · exact enc_pq_mono hB hij
  · exact absurd rfl h2

/-- **C30** (partial): sRGB and HLG encoding is monotone up to 1e-7. -/
theorem C30_encode_nearly_monotone_partial (hB : Exact B.ar) {v : B.V} {i j : Fin B.LEN} (h0 : 0 ≤ v i)
    (hij : v i ≤ v j) :
    ColorTransfer.SRGB.linearToScaledV B v i ≤ ColorTransfer.SRGB.linearToScaledV B v j + 1e-7 ∧
    ColorTransfer.BT2100HLG.linearToScaledV B v i ≤ ColorTransfer.BT2100HLG.linearToScaledV B v j + 1e-7 := by
  simp only [lane_linearToScaled]
  exact ⟨enc_srgb_mono hB h0 hij, enc_hlg_mono hB hij⟩

/-- **C30** is false for sRGB and HLG encoding: at the threshold the value drops. -/
theorem C30_encode_not_monotone (hB : Exact B.ar) {v w : B.V} {i : Fin B.LEN} :
    (v i = 0.0031308 → w i = 0.0031308001 →
      ColorTransfer.SRGB.linearToScaledV B w i < ColorTransfer.SRGB.linearToScaledV B v i) ∧
    (v i = 1 / 12 → w i = 1 / 12 + 1e-9 →
      ColorTransfer.BT2100HLG.linearToScaledV B w i < ColorTransfer.BT2100HLG.linearToScaledV B v i) := by
  simp only [lane_linearToScaled]
  refine ⟨fun hv hw => ?_, fun hv hw => ?_⟩ <;> rw [hv, hw]
  · exact enc_srgb_drop hB
  · exact enc_hlg_drop hB

/-- **C30**: decoding is monotone on `[0, 1]`, for every transfer function. -/
theorem C30_decode_monotone (hB : Exact B.ar) (t : ColorTransfer) {v : B.V} {i j : Fin B.LEN} (h0 : 0 ≤ v i)
    (hij : v i ≤ v j) (h1 : v j ≤ 1) : t.scaledToLinearV B v i ≤ t.scaledToLinearV B v j := by
  rw [lane_scaledToLinear, lane_scaledToLinear]
  cases t
  · exact hij
  · exact (gamma_mono hB h0 hij).2.1
  · exact (gamma_mono hB h0 hij).2.2
  · exact dec_srgb_mono hB h0 hij
  · exact dec_sdr_mono hB h0 hij
  · exact dec_pq_mono hB hij h1
  · exact dec_hlg_mono hB hij

/-- **C30** (partial: false for PQ encoding, see below): black is 0 on both sides. -/
theorem C30_zero_partial (hB : Exact B.ar) (t : ColorTransfer) {v : B.V} {i : Fin B.LEN} (h0 : v i = 0) :
    t.scaledToLinearV B v i = 0 ∧ (t ≠ .BT2100PQ → t.linearToScaledV B v i = 0) := by
  rw [lane_scaledToLinear, lane_linearToScaled, h0]
  exact ⟨dec_zero hB t, fun ht => enc_zero hB ht⟩

/-- **C30** is false for PQ: black is encoded as a tiny positive value. -/
theorem C30_pq_zero (hB : Exact B.ar) {v : B.V} {i : Fin B.LEN} (h0 : v i = 0) :
    0 < ColorTransfer.BT2100PQ.linearToScaledV B v i ∧ ColorTransfer.BT2100PQ.linearToScaledV B v i ≤ 1e-6 := by
  rw [lane_linearToScaled, h0]
  exact enc_pq_zero hB

/-- White is 1 for all transfer functions but PQ (whose unit is cd/m²) and HLG. -/
theorem C30_one (hB : Exact B.ar) {t : ColorTransfer} (h1 : t ≠ .BT2100PQ) (h2 : t ≠ .BT2100HLG) {v : B.V}
    {i : Fin B.LEN} (h : v i = 1) : t.linearToScaledV B v i = 1 := by
  rw [lane_linearToScaled, h]
  exact enc_one hB h1 h2

/-! ## C31: primaries -/

/-- **C31**: RGB to XYZ and back changes no component by more than 1e-6 of the largest. -/
theorem C31_inverse (hB : Exact B.ar) (p : ColorPrimaries) {r g b : B.V} {i : Fin B.LEN} {M : ℝ}
    (hr : |r i| ≤ M) (hg : |g i| ≤ M) (hb : |b i| ≤ M) :
    let xyz := rgbToXyz B p.rgbToXyzMat r g b
    let q := xyzToRgb B p.xyzToRgbMat xyz.1 xyz.2.1 xyz.2.2
    |q.1 i - r i| ≤ 1e-6 * M ∧ |q.2.1 i - g i| ≤ 1e-6 * M ∧ |q.2.2 i - b i| ≤ 1e-6 * M := by
  obtain ⟨h1, h2, h3⟩ := primaries_inverse hB p (r i, g i, b i)
  have hM : (1e-6 : ℝ) * sup3 (r i, g i, b i) ≤ 1e-6 * M :=
    mul_le_mul_of_nonneg_left (max_le hr (max_le hg hb)) (by norm_num)
  exact ⟨le_trans h1 hM, le_trans h2 hM, le_trans h3 hM⟩

/-- **C31**: the same for converting linear light between any two primaries and back. -/
theorem C31_round_trip (hB : Exact B.ar) (s d : ColorPrimaries) {r g b : B.V} {i : Fin B.LEN} {M : ℝ}
    (hr : |r i| ≤ M) (hg : |g i| ≤ M) (hb : |b i| ≤ M) :
    let change (s d : ColorPrimaries) (c : B.V × B.V × B.V) :=
      let xyz := rgbToXyz B s.rgbToXyzMat c.1 c.2.1 c.2.2
      xyzToRgb B d.xyzToRgbMat xyz.1 xyz.2.1 xyz.2.2
    let q := change d s (change s d (r, g, b))
    |q.1 i - r i| ≤ 1e-6 * M ∧ |q.2.1 i - g i| ≤ 1e-6 * M ∧ |q.2.2 i - b i| ≤ 1e-6 * M := by
  obtain ⟨h1, h2, h3⟩ := primaries_round_trip hB s d (r i, g i, b i)
  have hM : (1e-6 : ℝ) * sup3 (r i, g i, b i) ≤ 1e-6 * M :=
    mul_le_mul_of_nonneg_left (max_le hr (max_le hg hb)) (by norm_num)
  exact ⟨le_trans h1 hM, le_trans h2 hM, le_trans h3 hM⟩

/-! ## C41: YUV as in the standards -/

/-- **C41** (partial: false for BT.2020, see below). -/
theorem C41_standard_yuv_partial (hB : Exact B.ar) {cs : ColorSpace} (hcs : cs ≠ .BT2020) {k : ℝ × ℝ × ℝ}
    (hk : lumaWeights cs = some k) (t : ColorTransfer) (mat : Mat ℝ) (r g b : B.V) (i : Fin B.LEN) :
    let yuv := cs.rgbToYuv B t mat r g b
    (yuv.1 i, yuv.2.1 i, yuv.2.2 i) = standardYuv k (r i) (g i) (b i) := by
  cases cs <;> simp only [lumaWeights, Option.some.injEq, reduceCtorEq] at hk <;> subst hk
  · refine Eq.trans (matrix_standard hB (kr := lit 0.299) (kg := lit 0.587) (kb := lit 0.114)
      (by simp only [lit_real]; norm_num) (by simp only [lit_real]; norm_num)
      (by simp only [lit_real]; norm_num) (r i) (g i) (b i)) ?_
    simp only [standardYuv, lit_real]
    norm_num [Rat.cast_ofScientific]
  · refine Eq.trans (matrix_standard hB (kr := lit 0.2126) (kg := lit 0.7152) (kb := lit 0.0722)
      (by simp only [lit_real]; norm_num) (by simp only [lit_real]; norm_num)
      (by simp only [lit_real]; norm_num) (r i) (g i) (b i)) ?_
    simp only [standardYuv, lit_real]
    norm_num [Rat.cast_ofScientific]
  · exact absurd rfl hcs

example : lumaWeights .BT709 = some (0.2126, 0.7152, 0.0722) := rfl

/-- **C41** is false for BT.2020: the luma of green is 0.322 instead of 0.678. -/
theorem C41_bt2020_green (hB : Exact B.ar) (t : ColorTransfer) (mat : Mat ℝ) {r g b : B.V} {i : Fin B.LEN}
    (hr : r i = 0) (hg : g i = 1) (hb : b i = 0) :
    (ColorSpace.BT2020.rgbToYuv B t mat r g b).1 i = 0.322 ∧
    ∀ k, lumaWeights .BT2020 = some k → (standardYuv k (r i) (g i) (b i)).1 = 0.678 := by
  have e : lane3 (ColorSpace.BT2020.rgbToYuv B t mat r g b) i = matMul B.ar BT2020_RGB_TO_YUV (r i, g i, b i) := rfl
  constructor
  · refine Eq.trans (congrArg Prod.fst e) ?_
    rw [hr, hg, hb]
    simp only [matMul, BT2020_RGB_TO_YUV, makeRgbToYuv, dot_real hB, lit_real]
    norm_num [Rat.cast_ofScientific]
  · intro k hk
    simp only [lumaWeights, Option.some.injEq] at hk
    subst hk
    simp only [standardYuv, hr, hg, hb]
    norm_num

/-- **C41** for BT.2020, exactly: how far the luma and chroma of the code are from the standard. -/
theorem C41_bt2020_encode (hB : Exact B.ar) (t : ColorTransfer) (mat : Mat ℝ) {k : ℝ × ℝ × ℝ}
    (hk : lumaWeights .BT2020 = some k) (r g b : B.V) (i : Fin B.LEN) :
    let yuv := ColorSpace.BT2020.rgbToYuv B t mat r g b
    let std := standardYuv k (r i) (g i) (b i)
    yuv.1 i = std.1 - 0.356 * g i ∧ yuv.2.1 i = std.2.1 + 0.178 / 0.9407 * g i ∧
      yuv.2.2 i = std.2.2 + 0.178 / 0.7373 * g i := by
  have e : lane3 (ColorSpace.BT2020.rgbToYuv B t mat r g b) i = matMul B.ar BT2020_RGB_TO_YUV (r i, g i, b i) := rfl
  intro yuv std
  simp only [lumaWeights, Option.some.injEq] at hk
  subst hk
  change (lane3 yuv i).1 = _ ∧ (lane3 yuv i).2.1 = _ ∧ (lane3 yuv i).2.2 = _
  rw [e]
  simp only [std, standardYuv, matMul, BT2020_RGB_TO_YUV, makeRgbToYuv, dot_real hB, lit_real, mul_real, div_real, sub_real]
  norm_num only [Rat.cast_ofScientific]
  refine ⟨?_, ?_, ?_⟩ <;> ring

/-- **C41** for BT.2020 (partial: false for green, see below).  Red and blue of a picture encoded as in the standard are
recovered. -/
theorem C41_bt2020_decode_partial (hB : Exact B.ar) (t : ColorTransfer) (mat : Mat ℝ) {k : ℝ × ℝ × ℝ}
    (hk : lumaWeights .BT2020 = some k) {y u v : B.V} {i : Fin B.LEN} {r g b : ℝ}
    (h : (y i, u i, v i) = standardYuv k r g b) :
    let rgb := ColorSpace.BT2020.yuvToRgb B t mat y u v
    rgb.1 i = r ∧ rgb.2.2 i = b := by
  have e : lane3 (ColorSpace.BT2020.yuvToRgb B t mat y u v) i = yuvToRgbMatrix B.ar BT2020_YUV_TO_RGB (y i, u i, v i) := rfl
  intro rgb
  simp only [lumaWeights, Option.some.injEq] at hk
  subst hk
  change (lane3 rgb i).1 = _ ∧ (lane3 rgb i).2.2 = _
  rw [e, h]
  simp only [standardYuv, yuvToRgbMatrix, BT2020_YUV_TO_RGB, makeYuvToRgb, hB.add, hB.mul, lit_real, mul_real, div_real,
    sub_real, neg_real]
  norm_num only [Rat.cast_ofScientific]
  refine ⟨?_, ?_⟩ <;> ring

/-- **C41** for BT.2020: green as decoded. -/
theorem C41_bt2020_decode_green (hB : Exact B.ar) (t : ColorTransfer) (mat : Mat ℝ) {k : ℝ × ℝ × ℝ}
    (hk : lumaWeights .BT2020 = some k) {y u v : B.V} {i : Fin B.LEN} {r g b : ℝ}
    (h : (y i, u i, v i) = standardYuv k r g b) :
    (ColorSpace.BT2020.yuvToRgb B t mat y u v).2.1 i =
      g - (1 / 0.322 - 1 / 0.678) * (0.0593 * (b - y i) + 0.2627 * (r - y i)) := by
  have e : lane3 (ColorSpace.BT2020.yuvToRgb B t mat y u v) i = yuvToRgbMatrix B.ar BT2020_YUV_TO_RGB (y i, u i, v i) := rfl
  simp only [lumaWeights, Option.some.injEq] at hk
  subst hk
  change (lane3 (ColorSpace.BT2020.yuvToRgb B t mat y u v) i).2.1 = _
  have hy : y i = (standardYuv (0.2627, 0.678, 0.0593) r g b).1 := congrArg Prod.fst h
  rw [e, h, hy]
  simp only [standardYuv, yuvToRgbMatrix, BT2020_YUV_TO_RGB, makeYuvToRgb, hB.add, hB.mul, lit_real, mul_real, div_real,
    sub_real, neg_real]
  norm_num only [Rat.cast_ofScientific]
  ring

/-- Pure red, for example, gets a green of less than -0.29. -/
example : lumaWeights .BT2020 = some (0.2627, 0.678, 0.0593) ∧
    (0 : ℝ) - (1 / 0.322 - 1 / 0.678) * (0.0593 * (0 - 0.2627) + 0.2627 * (1 - 0.2627)) < -0.29 := ⟨rfl, by norm_num⟩

/-! ## C42: primaries as in the standards -/

/-- **C42**: the white `(1, 1, 1)` of every set of primaries is D65 with luminance 1. -/
theorem C42_white (hB : Exact B.ar) (p : ColorPrimaries) {w : B.V} {i : Fin B.LEN} (hw : w i = 1) :
    let xyz := rgbToXyz B p.rgbToXyzMat w w w
    HasChromaticity 1e-6 d65 (xyz.1 i, xyz.2.1 i, xyz.2.2 i) ∧ |xyz.2.1 i - 1| ≤ 1e-6 := by
  have e : lane3 (rgbToXyz B p.rgbToXyzMat w w w) i = rowMul B.ar (w i, w i, w i) p.rgbToXyzMat := rfl
  intro xyz
  change HasChromaticity _ _ (lane3 xyz i) ∧ |(lane3 xyz i).2.1 - (1 : ℝ)| ≤ _
  rw [e, hw]
  cases p <;>
  · simp only [HasChromaticity, d65, rowMul, ColorPrimaries.rgbToXyzMat, ST240_RGB_TO_XYZ, BT709_RGB_TO_XYZ,
      BT2020_RGB_TO_XYZ, dot_real hB, lit_real, abs_le]
    norm_num [Rat.cast_ofScientific]

/-- **C42**: green and blue have the chromaticities of the standard; red (partial: false for ST 240, see below) too. -/
theorem C42_primaries_partial (hB : Exact B.ar) (p : ColorPrimaries) {w z : B.V} {i : Fin B.LEN} (hw : w i = 1)
    (hz : z i = 0) :
    let red := rgbToXyz B p.rgbToXyzMat w z z
    let green := rgbToXyz B p.rgbToXyzMat z w z
    let blue := rgbToXyz B p.rgbToXyzMat z z w
    (p ≠ .ST240 → HasChromaticity 1e-6 (chromaticities p).1 (red.1 i, red.2.1 i, red.2.2 i)) ∧
    HasChromaticity 1e-6 (chromaticities p).2.1 (green.1 i, green.2.1 i, green.2.2 i) ∧
    HasChromaticity 1e-6 (chromaticities p).2.2 (blue.1 i, blue.2.1 i, blue.2.2 i) := by
  have e (r g b : B.V) : lane3 (rgbToXyz B p.rgbToXyzMat r g b) i = rowMul B.ar (r i, g i, b i) p.rgbToXyzMat := rfl
  change (_ → HasChromaticity _ _ (lane3 _ i)) ∧ HasChromaticity _ _ (lane3 _ i) ∧ HasChromaticity _ _ (lane3 _ i)
  rw [e, e, e, hw, hz]
  cases p <;>
  · simp only [HasChromaticity, chromaticities, rowMul, ColorPrimaries.rgbToXyzMat, ST240_RGB_TO_XYZ, BT709_RGB_TO_XYZ,
      BT2020_RGB_TO_XYZ, dot_real hB, lit_real, abs_le]
    norm_num [Rat.cast_ofScientific]

/-- **C42** is false for ST 240: the `y` of its red is 0.329 instead of 0.340. -/
theorem C42_st240_red (hB : Exact B.ar) {w z : B.V} {i : Fin B.LEN} (hw : w i = 1) (hz : z i = 0) :
    let red := rgbToXyz B ColorPrimaries.ST240.rgbToXyzMat w z z
    ¬ HasChromaticity 1e-2 (chromaticities .ST240).1 (red.1 i, red.2.1 i, red.2.2 i) := by
  have e : lane3 (rgbToXyz B ColorPrimaries.ST240.rgbToXyzMat w z z) i =
    rowMul B.ar (w i, z i, z i) ColorPrimaries.ST240.rgbToXyzMat := rfl
  change ¬ HasChromaticity _ _ (lane3 _ i)
  rw [e, hw, hz]
  simp only [HasChromaticity, chromaticities, rowMul, ColorPrimaries.rgbToXyzMat, ST240_RGB_TO_XYZ, dot_real hB,
    lit_real, abs_le]
  norm_num [Rat.cast_ofScientific]

/-! ## The hypotheses can be met -/

/-- A vector of any backend holds any value. -/
example (x : ℝ) : ∃ (B : Backend ℝ) (_ : Exact B.ar) (v : B.V) (i : Fin B.LEN), v i = x :=
  ⟨exactBackend, exactBackend_exact, fun _ => x, ⟨0, by decide⟩, rfl⟩

example : exactBackend.LEN = 1 := rfl

/-- Mid-grey, exactly. -/
example : ColorSpace.BT709.rgbToYuv exactBackend .SDR BT709_RGB_TO_XYZ (fun _ => 0.5) (fun _ => 0.5) (fun _ => 0.5) =
    (fun _ => 0.5, fun _ => 0, fun _ => 0) :=
  (C27_grey_partial exactBackend_exact (.inr rfl) .SDR .SDR _ BT709_RGB_TO_XYZ _).1

end Ezk.Props

import Verif.Proofs.IctcpBack
import Verif.Props.Exact

/-!
# C54: ICtCp as in BT.2100

The formulas of the code in exact arithmetic, compared with those of the standard for the primaries of BT.2020.  Light is what
the transfer function makes of the signal (see C49); for the PQ system it is in cd/m².
-/

namespace Ezk.Props
open FOps Spec

variable {B : Backend ℝ}

/-- **C54**, from light to ICtCp in the PQ system: within 4·10⁻⁵ (intensity) and 3·10⁻⁴ (chroma), a third of the step of a
10-bit signal. -/
theorem C54_pq_encode (hB : Exact B.ar) (t : ColorTransfer) (r g b : B.V) (i : Fin B.LEN)
    (hr : 0 ≤ t.scaledToLinearV B r i ∧ t.scaledToLinearV B r i ≤ 10000)
    (hg : 0 ≤ t.scaledToLinearV B g i ∧ t.scaledToLinearV B g i ≤ 10000)
    (hb : 0 ≤ t.scaledToLinearV B b i ∧ t.scaledToLinearV B b i ≤ 10000) :
    let ictcp := ColorSpace.ICtCpPQ.rgbToYuv B t ColorPrimaries.BT2020.rgbToXyzMat r g b
    let std := Standard.ictcpPq (t.scaledToLinearV B r i, t.scaledToLinearV B g i, t.scaledToLinearV B b i)
    |ictcp.1 i - std.1| ≤ 4 / 10 ^ 5 ∧ |ictcp.2.1 i - std.2.1| ≤ 3 / 10 ^ 4 ∧ |ictcp.2.2 i - std.2.2| ≤ 3 / 10 ^ 4 := by
  intro ictcp std
  have e : lane3 ictcp i = rgbToYuv B.ar .ICtCpPQ t .BT2020 (r i, g i, b i) := lane_pqRgbToYuv B t .BT2020 r g b i
  change |(lane3 ictcp i).1 - _| ≤ _ ∧ |(lane3 ictcp i).2.1 - _| ≤ _ ∧ |(lane3 ictcp i).2.2 - _| ≤ _
  rw [e]
  simp only [lane_scaledToLinear] at hr hg hb
  simp only [rgbToYuv, map3, std, lane_scaledToLinear]
  clear e ictcp std
  generalize decodeTransfer B.ar t (r i) = R at *
  generalize decodeTransfer B.ar t (g i) = G at *
  generalize decodeTransfer B.ar t (b i) = L at *
  obtain ⟨n1, n2, n3⟩ := lms_near hB hr.1 hg.1 hb.1
  obtain ⟨⟨p1, q1⟩, ⟨p2, q2⟩, p3, q3⟩ := lms_range hr.1 hg.1 hb.1 hr.2 hg.2 hb.2
  have a1 := pq_rel_std hB p1 q1 n1 (by norm_num) (by norm_num)
  have a2 := pq_rel_std hB p2 q2 n2 (by norm_num) (by norm_num)
  have a3 := pq_rel_std hB p3 q3 n3 (by norm_num) (by norm_num)
  simp only [Standard.ictcpPq, Standard.ictcpOfPq, ictcpPq]
  simp only [encodeTransfer] at a1 a2 a3
  generalize pqEncode B.ar (toLms B.ar (rowMul B.ar (R, G, L) ColorPrimaries.BT2020.rgbToXyzMat)).1 = c1 at *
  generalize pqEncode B.ar (toLms B.ar (rowMul B.ar (R, G, L) ColorPrimaries.BT2020.rgbToXyzMat)).2.1 = c2 at *
  generalize pqEncode B.ar (toLms B.ar (rowMul B.ar (R, G, L) ColorPrimaries.BT2020.rgbToXyzMat)).2.2 = c3 at *
  generalize Standard.toSignal .BT2100PQ (Standard.lms (R, G, L)).1 = s1 at *
  generalize Standard.toSignal .BT2100PQ (Standard.lms (R, G, L)).2.1 = s2 at *
  generalize Standard.toSignal .BT2100PQ (Standard.lms (R, G, L)).2.2 = s3 at *
  simp only [dot_real hB, hB.add, hB.mul, hB.div, lit_real]
  rw [abs_le] at a1 a2 a3
  obtain ⟨a1, b1⟩ := a1
  obtain ⟨a2, b2⟩ := a2
  obtain ⟨a3, b3⟩ := a3
  norm_num [Rat.cast_ofScientific] at *
  refine ⟨?_, ?_, ?_⟩ <;> rw [abs_le] <;> constructor <;> linarith

theorem hlg_signal {l : ℝ} (h0 : 0 ≤ l) (h1 : l ≤ 1.001) :
    0 ≤ Standard.toSignal .BT2100HLG l ∧ Standard.toSignal .BT2100HLG l ≤ 1.099 := by
  simp only [Standard.toSignal]
  split
  · rename_i hl
    refine ⟨Real.sqrt_nonneg _, ?_⟩
    rw [Real.sqrt_le_left (by norm_num)]; norm_num at hl ⊢; linarith
  · rename_i hl
    rw [not_le] at hl
    have hb : Standard.b = 0.28466892 := by unfold Standard.b Standard.a; norm_num
    have hc := abs_le.mp hlg_c
    have ha : Standard.a = 0.17883277 := rfl
    rw [hb, ha]
    have w0 : 0 < 12 * l - 0.28466892 := by norm_num; linarith
    have e1 : -1 ≤ Real.log (12 * l - 0.28466892) := by
      rw [Real.le_log_iff_exp_le w0]
      have : Real.exp (-1) ≤ 1 / 2 := by
        rw [Real.exp_neg, inv_le_comm₀ (Real.exp_pos _) (by norm_num)]
        have := Real.exp_one_gt_d9
        norm_num at *; linarith
      norm_num at *; linarith
    have e2 : Real.log (12 * l - 0.28466892) ≤ 3 := by
      rw [Real.log_le_iff_le_exp w0]
      have : (12 : ℝ) ≤ Real.exp 3 := by
        have h2 := Real.exp_one_gt_d9
        have : Real.exp 3 = Real.exp 1 ^ 3 := by rw [← Real.exp_nat_mul]; norm_num
        rw [this]
        exact le_trans (by norm_num) (pow_le_pow_left₀ (by norm_num) h2.le 3)
      norm_num at *; linarith
    norm_num at *
    constructor <;> linarith [hc.1, hc.2]

/-- **C54**, from light to ICtCp in the HLG system: within 6·10⁻⁵ (intensity) and 3·10⁻⁴ (chroma). -/
theorem C54_hlg_encode (hB : Exact B.ar) (t : ColorTransfer) (r g b : B.V) (i : Fin B.LEN)
    (hr : 0 ≤ t.scaledToLinearV B r i ∧ t.scaledToLinearV B r i ≤ 1)
    (hg : 0 ≤ t.scaledToLinearV B g i ∧ t.scaledToLinearV B g i ≤ 1)
    (hb : 0 ≤ t.scaledToLinearV B b i ∧ t.scaledToLinearV B b i ≤ 1) :
    let ictcp := ColorSpace.ICtCpHLG.rgbToYuv B t ColorPrimaries.BT2020.rgbToXyzMat r g b
    let std := Standard.ictcpHlg (t.scaledToLinearV B r i, t.scaledToLinearV B g i, t.scaledToLinearV B b i)
    |ictcp.1 i - std.1| ≤ 6 / 10 ^ 5 ∧ |ictcp.2.1 i - std.2.1| ≤ 3 / 10 ^ 4 ∧ |ictcp.2.2 i - std.2.2| ≤ 3 / 10 ^ 4 := by
  intro ictcp std
  have e : lane3 ictcp i = rgbToYuv B.ar .ICtCpHLG t .BT2020 (r i, g i, b i) := lane_hlgRgbToYuv B t .BT2020 r g b i
  change |(lane3 ictcp i).1 - _| ≤ _ ∧ |(lane3 ictcp i).2.1 - _| ≤ _ ∧ |(lane3 ictcp i).2.2 - _| ≤ _
  rw [e]
  simp only [lane_scaledToLinear] at hr hg hb
  simp only [rgbToYuv, map3, std, lane_scaledToLinear]
  clear e ictcp std
  generalize decodeTransfer B.ar t (r i) = R at *
  generalize decodeTransfer B.ar t (g i) = G at *
  generalize decodeTransfer B.ar t (b i) = L at *
  obtain ⟨n1, n2, n3⟩ := lms_near hB hr.1 hg.1 hb.1
  obtain ⟨⟨p1, q1⟩, ⟨p2, q2⟩, p3, q3⟩ := lms_range hr.1 hg.1 hb.1 hr.2 hg.2 hb.2
  have a1 := hlg_rel_std hB p1 n1 (by norm_num) (by norm_num)
  have a2 := hlg_rel_std hB p2 n2 (by norm_num) (by norm_num)
  have a3 := hlg_rel_std hB p3 n3 (by norm_num) (by norm_num)
  obtain ⟨r1, t1⟩ := hlg_signal p1 (q1.trans (by norm_num))
  obtain ⟨r2, t2⟩ := hlg_signal p2 (q2.trans (by norm_num))
  obtain ⟨r3, t3⟩ := hlg_signal p3 (q3.trans (by norm_num))
  simp only [Standard.ictcpHlg, Standard.ictcpOfHlg, ictcpHlg]
  simp only [encodeTransfer] at a1 a2 a3
  clear n1 n2 n3 p1 q1 p2 q2 p3 q3
  generalize hlgEncode B.ar (toLms B.ar (rowMul B.ar (R, G, L) ColorPrimaries.BT2020.rgbToXyzMat)).1 = c1 at *
  generalize hlgEncode B.ar (toLms B.ar (rowMul B.ar (R, G, L) ColorPrimaries.BT2020.rgbToXyzMat)).2.1 = c2 at *
  generalize hlgEncode B.ar (toLms B.ar (rowMul B.ar (R, G, L) ColorPrimaries.BT2020.rgbToXyzMat)).2.2 = c3 at *
  generalize Standard.toSignal .BT2100HLG (Standard.lms (R, G, L)).1 = s1 at *
  generalize Standard.toSignal .BT2100HLG (Standard.lms (R, G, L)).2.1 = s2 at *
  generalize Standard.toSignal .BT2100HLG (Standard.lms (R, G, L)).2.2 = s3 at *
  simp only [hB.add, hB.sub, hB.mul, lit_real]
  rw [abs_le] at a1 a2 a3
  obtain ⟨a1, b1⟩ := a1
  obtain ⟨a2, b2⟩ := a2
  obtain ⟨a3, b3⟩ := a3
  norm_num [Rat.cast_ofScientific] at *
  refine ⟨?_, ?_, ?_⟩ <;> rw [abs_le] <;> constructor <;> linarith

/-- Greys have no chroma in the standard. -/
theorem grey_ictcp (l : ℝ) : (Standard.ictcpPq (l, l, l)).2 = (0, 0) ∧ (Standard.ictcpHlg (l, l, l)).2 = (0, 0) ∧
    (Standard.ictcpPq (l, l, l)).1 = Standard.toSignal .BT2100PQ l ∧
    (Standard.ictcpHlg (l, l, l)).1 = Standard.toSignal .BT2100HLG l := by
  have e : Standard.lms (l, l, l) = (l, l, l) := by
    simp only [Standard.lms, Prod.mk.injEq]
    refine ⟨?_, ?_, ?_⟩ <;> ring
  simp only [Standard.ictcpPq, Standard.ictcpHlg, e, Standard.ictcpOfPq, Standard.ictcpOfHlg, Prod.mk.injEq]
  refine ⟨⟨?_, ?_⟩, ⟨?_, ?_⟩, ?_, ?_⟩ <;> ring

/-- **C54**: greys are neutral, to 3·10⁻⁴ (a third of a 10-bit step), and their intensity is their signal. -/
theorem C54_grey (hB : Exact B.ar) (t : ColorTransfer) (v : B.V) (i : Fin B.LEN)
    (hv : 0 ≤ t.scaledToLinearV B v i ∧ t.scaledToLinearV B v i ≤ 10000) :
    let ictcp := ColorSpace.ICtCpPQ.rgbToYuv B t ColorPrimaries.BT2020.rgbToXyzMat v v v
    |ictcp.1 i - Standard.toSignal .BT2100PQ (t.scaledToLinearV B v i)| ≤ 4 / 10 ^ 5 ∧ |ictcp.2.1 i| ≤ 3 / 10 ^ 4 ∧
      |ictcp.2.2 i| ≤ 3 / 10 ^ 4 := by
  intro ictcp
  obtain ⟨h1, h2, h3⟩ := C54_pq_encode hB t v v v i hv hv hv
  obtain ⟨e1, -, e2, -⟩ := grey_ictcp (t.scaledToLinearV B v i)
  rw [e2] at h1
  rw [e1, sub_zero] at h2 h3
  exact ⟨h1, h2, h3⟩

/-- What ICtCp stands for is turned into the signal last: the transfer function applied to the light. -/
theorem C54_signal_of_light {cs : ColorSpace} (hcs : cs = .ICtCpPQ ∨ cs = .ICtCpHLG) (t : ColorTransfer) (mat : Mat ℝ) (y u v : B.V) :
    let light := cs.yuvToRgb B .Linear mat y u v
    cs.yuvToRgb B t mat y u v =
      (t.linearToScaledV B light.1, t.linearToScaledV B light.2.1, t.linearToScaledV B light.2.2) := by
  rcases hcs with rfl | rfl <;> cases t <;> rfl

theorem pq_signal {l : ℝ} (h0 : 0 ≤ l) (h1 : l ≤ 10000) :
    0 ≤ Standard.toSignal .BT2100PQ l ∧ Standard.toSignal .BT2100PQ l ≤ 1 := by
  rw [std_pqF]
  have l0 : 0 ≤ l / 10000 := by positivity
  have y0 : 0 ≤ (l / 10000) ^ (0.1593017578125 : ℝ) := Real.rpow_nonneg l0 _
  have y1 : (l / 10000) ^ (0.1593017578125 : ℝ) ≤ 1 := Real.rpow_le_one l0 (by rw [div_le_one (by norm_num)]; exact h1) (by norm_num)
  generalize (l / 10000) ^ (0.1593017578125 : ℝ) = y at *
  have F0 : 0 ≤ stdF 18.8515625 y := by unfold stdF; positivity
  have F1 : stdF 18.8515625 y ≤ 1 := by unfold stdF; rw [div_le_one (by positivity)]; norm_num; linarith
  exact ⟨Real.rpow_nonneg F0 _, Real.rpow_le_one F0 F1 (by norm_num)⟩

/-- **C54**, from ICtCp of the standard's PQ system to light: within 0.2% of the brightest component and 0.031 cd/m². -/
theorem C54_pq_decode (hB : Exact B.ar) {y u v : B.V} {i : Fin B.LEN} {r g b x : ℝ} (hr : 0 ≤ r ∧ r ≤ x) (hg : 0 ≤ g ∧ g ≤ x)
    (hb : 0 ≤ b ∧ b ≤ x) (hx : x ≤ 10000) (h : (y i, u i, v i) = Standard.ictcpPq (r, g, b)) :
    let light := ColorSpace.ICtCpPQ.yuvToRgb B .Linear ColorPrimaries.BT2020.xyzToRgbMat y u v
    |light.1 i - r| ≤ 2 / 10 ^ 3 * x + 0.031 ∧ |light.2.1 i - g| ≤ 2 / 10 ^ 3 * x + 0.031 ∧
      |light.2.2 i - b| ≤ 2 / 10 ^ 3 * x + 0.031 := by
  intro light
  have e : lane3 light i = yuvToRgb B.ar .ICtCpPQ .Linear .BT2020 (y i, u i, v i) := lane_pqYuvToRgb B .Linear .BT2020 y u v i
  change |(lane3 light i).1 - _| ≤ _ ∧ |(lane3 light i).2.1 - _| ≤ _ ∧ |(lane3 light i).2.2 - _| ≤ _
  rw [e, h]
  obtain ⟨⟨p1, q1⟩, ⟨p2, q2⟩, p3, q3⟩ := lms_range hr.1 hg.1 hb.1 hr.2 hg.2 hb.2
  obtain ⟨s1, t1⟩ := pq_signal p1 (q1.trans hx)
  obtain ⟨s2, t2⟩ := pq_signal p2 (q2.trans hx)
  obtain ⟨s3, t3⟩ := pq_signal p3 (q3.trans hx)
  obtain ⟨c1, c2, c3⟩ := pq_cones hB s1 s2 s3 t1 t2 t3
  have d1 := (dec_pq_std hB p1 (q1.trans hx) c1).trans (c := 3 / 10 ^ 4 * x + 5 / 1000) (by linarith)
  have d2 := (dec_pq_std hB p2 (q2.trans hx) c2).trans (c := 3 / 10 ^ 4 * x + 5 / 1000) (by linarith)
  have d3 := (dec_pq_std hB p3 (q3.trans hx) c3).trans (c := 3 / 10 ^ 4 * x + 5 / 1000) (by linarith)
  have := rgb_near hB hr.1 hg.1 hb.1 hr.2 hg.2 hb.2 d1 d2 d3
  have k : 175 / 10 ^ 6 * x + 6013 / 1000 * (3 / 10 ^ 4 * x + 5 / 1000) ≤ 2 / 10 ^ 3 * x + 0.031 := by
    have : 0 ≤ x := hr.1.trans hr.2
    norm_num; linarith
  exact ⟨this.1.trans k, this.2.1.trans k, this.2.2.trans k⟩

/-- **C54**, from ICtCp of the standard's HLG system to light: within 2·10⁻⁴ of the brightest component and 7·10⁻⁶ of white. -/
theorem C54_hlg_decode (hB : Exact B.ar) {y u v : B.V} {i : Fin B.LEN} {r g b x : ℝ} (hr : 0 ≤ r ∧ r ≤ x) (hg : 0 ≤ g ∧ g ≤ x)
    (hb : 0 ≤ b ∧ b ≤ x) (hx : x ≤ 1) (h : (y i, u i, v i) = Standard.ictcpHlg (r, g, b)) :
    let light := ColorSpace.ICtCpHLG.yuvToRgb B .Linear ColorPrimaries.BT2020.xyzToRgbMat y u v
    |light.1 i - r| ≤ 2 / 10 ^ 4 * x + 7 / 10 ^ 6 ∧ |light.2.1 i - g| ≤ 2 / 10 ^ 4 * x + 7 / 10 ^ 6 ∧
      |light.2.2 i - b| ≤ 2 / 10 ^ 4 * x + 7 / 10 ^ 6 := by
  intro light
  have e : lane3 light i = yuvToRgb B.ar .ICtCpHLG .Linear .BT2020 (y i, u i, v i) := lane_hlgYuvToRgb B .Linear .BT2020 y u v i
  change |(lane3 light i).1 - _| ≤ _ ∧ |(lane3 light i).2.1 - _| ≤ _ ∧ |(lane3 light i).2.2 - _| ≤ _
  rw [e, h]
  obtain ⟨⟨p1, q1⟩, ⟨p2, q2⟩, p3, q3⟩ := lms_range hr.1 hg.1 hb.1 hr.2 hg.2 hb.2
  obtain ⟨s1, t1⟩ := hlg_signal p1 (q1.trans (hx.trans (by norm_num)))
  obtain ⟨s2, t2⟩ := hlg_signal p2 (q2.trans (hx.trans (by norm_num)))
  obtain ⟨s3, t3⟩ := hlg_signal p3 (q3.trans (hx.trans (by norm_num)))
  obtain ⟨c1, c2, c3⟩ := hlg_cones hB s1 s2 s3 (t1.trans (by norm_num)) (t2.trans (by norm_num)) (t3.trans (by norm_num))
  have d1 := (dec_hlg_std hB p1 (c1.trans (by norm_num))).trans (c := 3 / 10 ^ 6 * x + 1 / 10 ^ 6) (by linarith)
  have d2 := (dec_hlg_std hB p2 (c2.trans (by norm_num))).trans (c := 3 / 10 ^ 6 * x + 1 / 10 ^ 6) (by linarith)
  have d3 := (dec_hlg_std hB p3 (c3.trans (by norm_num))).trans (c := 3 / 10 ^ 6 * x + 1 / 10 ^ 6) (by linarith)
  have := rgb_near hB hr.1 hg.1 hb.1 hr.2 hg.2 hb.2 d1 d2 d3
  have k : 175 / 10 ^ 6 * x + 6013 / 1000 * (3 / 10 ^ 6 * x + 1 / 10 ^ 6) ≤ 2 / 10 ^ 4 * x + 7 / 10 ^ 6 := by
    have : 0 ≤ x := hr.1.trans hr.2
    norm_num; linarith
  exact ⟨this.1.trans k, this.2.1.trans k, this.2.2.trans k⟩

/-- The cone responses of the code are positive and hardly exceed those of the standard. -/
theorem code_lms_range (hB : Exact B.ar) {r g b x : ℝ} (r0 : 0 ≤ r) (g0 : 0 ≤ g) (b0 : 0 ≤ b) (hr : r ≤ x) (hg : g ≤ x) (hb : b ≤ x) :
    let s := toLms B.ar (rowMul B.ar (r, g, b) ColorPrimaries.BT2020.rgbToXyzMat)
    (0 ≤ s.1 ∧ s.1 ≤ 10004 / 10000 * x) ∧ (0 ≤ s.2.1 ∧ s.2.1 ≤ 10004 / 10000 * x) ∧ 0 ≤ s.2.2 ∧ s.2.2 ≤ 10004 / 10000 * x := by
  intro s
  obtain ⟨n1, n2, n3⟩ := lms_near hB r0 g0 b0
  obtain ⟨⟨p1, q1⟩, ⟨p2, q2⟩, p3, q3⟩ := lms_range r0 g0 b0 hr hg hb
  rw [abs_le] at n1 n2 n3
  change (0 ≤ (toLms B.ar (rowMul B.ar (r, g, b) ColorPrimaries.BT2020.rgbToXyzMat)).1 ∧ _) ∧ _
  simp only [s]
  refine ⟨⟨?_, ?_⟩, ⟨?_, ?_⟩, ?_, ?_⟩ <;> linarith [n1.1, n1.2, n2.1, n2.2, n3.1, n3.2]

/-- **C26** for ICtCp of the PQ system: light comes back to within 0.2% of the brightest component and 0.031 cd/m². -/
theorem C26_ictcp_pq (hB : Exact B.ar) (t : ColorTransfer) (r g b : B.V) (i : Fin B.LEN) {x : ℝ} (hx : x ≤ 10000)
    (hr : 0 ≤ t.scaledToLinearV B r i ∧ t.scaledToLinearV B r i ≤ x)
    (hg : 0 ≤ t.scaledToLinearV B g i ∧ t.scaledToLinearV B g i ≤ x)
    (hb : 0 ≤ t.scaledToLinearV B b i ∧ t.scaledToLinearV B b i ≤ x) :
    let ictcp := ColorSpace.ICtCpPQ.rgbToYuv B t ColorPrimaries.BT2020.rgbToXyzMat r g b
    let light := ColorSpace.ICtCpPQ.yuvToRgb B .Linear ColorPrimaries.BT2020.xyzToRgbMat ictcp.1 ictcp.2.1 ictcp.2.2
    |light.1 i - t.scaledToLinearV B r i| ≤ 2 / 10 ^ 3 * x + 0.031 ∧
      |light.2.1 i - t.scaledToLinearV B g i| ≤ 2 / 10 ^ 3 * x + 0.031 ∧
      |light.2.2 i - t.scaledToLinearV B b i| ≤ 2 / 10 ^ 3 * x + 0.031 := by
  intro ictcp light
  have e1 : lane3 ictcp i = rgbToYuv B.ar .ICtCpPQ t .BT2020 (r i, g i, b i) := lane_pqRgbToYuv B t .BT2020 r g b i
  have e2 : lane3 light i = yuvToRgb B.ar .ICtCpPQ .Linear .BT2020 (lane3 ictcp i) := lane_pqYuvToRgb B .Linear .BT2020 _ _ _ i
  change |(lane3 light i).1 - _| ≤ _ ∧ |(lane3 light i).2.1 - _| ≤ _ ∧ |(lane3 light i).2.2 - _| ≤ _
  rw [e2, e1]
  simp only [lane_scaledToLinear] at hr hg hb ⊢
  simp only [rgbToYuv, map3]
  clear e1 e2
  generalize decodeTransfer B.ar t (r i) = R at *
  generalize decodeTransfer B.ar t (g i) = G at *
  generalize decodeTransfer B.ar t (b i) = L at *
  have x0 : 0 ≤ x := hr.1.trans hr.2
  obtain ⟨⟨p1, q1⟩, ⟨p2, q2⟩, p3, q3⟩ := code_lms_range hB hr.1 hg.1 hb.1 hr.2 hg.2 hb.2
  have sig : ∀ {l : ℝ}, 0 ≤ l → l ≤ 10004 / 10000 * x → 0 ≤ encodeTransfer B.ar .BT2100PQ l ∧ encodeTransfer B.ar .BT2100PQ l ≤ 1.1 := by
    intro l l0 l1
    have a := enc_pq_mono hB l0
    have b := (enc_pq_zero hB).1
    have c := enc_pq_mono hB (show l ≤ 10004 by linarith)
    have d := std_enc_pq hB (x := 10000) (by norm_num) le_rfl
    have e := (pq_signal (l := 10000) (by norm_num) le_rfl).2
    have f := pq_rel hB (l := 10000) (m := 10004) (d := 4 / 10 ^ 4) (by norm_num) (by norm_num) (by norm_num)
    rcases f with f | ⟨f, -⟩
    · rw [abs_le] at d f
      norm_num at *
      constructor <;> linarith [d.2, f.2]
    · norm_num at f
  obtain ⟨s1, t1⟩ := sig p1 q1
  obtain ⟨s2, t2⟩ := sig p2 q2
  obtain ⟨s3, t3⟩ := sig p3 q3
  obtain ⟨c1, c2, c3⟩ := pq_cones_code hB s1 s2 s3 t1 t2 t3
  have d1 := (dec_pq_enc hB p1 (by linarith) c1).trans (c := 301 / 10 ^ 6 * x + 5 / 1000) (by linarith)
  have d2 := (dec_pq_enc hB p2 (by linarith) c2).trans (c := 301 / 10 ^ 6 * x + 5 / 1000) (by linarith)
  have d3 := (dec_pq_enc hB p3 (by linarith) c3).trans (c := 301 / 10 ^ 6 * x + 5 / 1000) (by linarith)
  have := rgb_back hB hr.1 hg.1 hb.1 hr.2 hg.2 hb.2 d1 d2 d3
  have k : 3 / 10 ^ 7 * x + 6013 / 1000 * (301 / 10 ^ 6 * x + 5 / 1000) ≤ 2 / 10 ^ 3 * x + 0.031 := by
    norm_num; linarith
  exact ⟨this.1.trans k, this.2.1.trans k, this.2.2.trans k⟩

/-- **C26** for ICtCp of the HLG system: light comes back to within 2·10⁻⁵ of the brightest component and 7·10⁻⁶ of white. -/
theorem C26_ictcp_hlg (hB : Exact B.ar) (t : ColorTransfer) (r g b : B.V) (i : Fin B.LEN) {x : ℝ} (hx : x ≤ 1)
    (hr : 0 ≤ t.scaledToLinearV B r i ∧ t.scaledToLinearV B r i ≤ x)
    (hg : 0 ≤ t.scaledToLinearV B g i ∧ t.scaledToLinearV B g i ≤ x)
    (hb : 0 ≤ t.scaledToLinearV B b i ∧ t.scaledToLinearV B b i ≤ x) :
    let ictcp := ColorSpace.ICtCpHLG.rgbToYuv B t ColorPrimaries.BT2020.rgbToXyzMat r g b
    let light := ColorSpace.ICtCpHLG.yuvToRgb B .Linear ColorPrimaries.BT2020.xyzToRgbMat ictcp.1 ictcp.2.1 ictcp.2.2
    |light.1 i - t.scaledToLinearV B r i| ≤ 2 / 10 ^ 5 * x + 7 / 10 ^ 6 ∧
      |light.2.1 i - t.scaledToLinearV B g i| ≤ 2 / 10 ^ 5 * x + 7 / 10 ^ 6 ∧
      |light.2.2 i - t.scaledToLinearV B b i| ≤ 2 / 10 ^ 5 * x + 7 / 10 ^ 6 := by
  intro ictcp light
  have e1 : lane3 ictcp i = rgbToYuv B.ar .ICtCpHLG t .BT2020 (r i, g i, b i) := lane_hlgRgbToYuv B t .BT2020 r g b i
  have e2 : lane3 light i = yuvToRgb B.ar .ICtCpHLG .Linear .BT2020 (lane3 ictcp i) := lane_hlgYuvToRgb B .Linear .BT2020 _ _ _ i
  change |(lane3 light i).1 - _| ≤ _ ∧ |(lane3 light i).2.1 - _| ≤ _ ∧ |(lane3 light i).2.2 - _| ≤ _
  rw [e2, e1]
  simp only [lane_scaledToLinear] at hr hg hb ⊢
  simp only [rgbToYuv, map3]
  clear e1 e2
  generalize decodeTransfer B.ar t (r i) = R at *
  generalize decodeTransfer B.ar t (g i) = G at *
  generalize decodeTransfer B.ar t (b i) = L at *
  have x0 : 0 ≤ x := hr.1.trans hr.2
  obtain ⟨⟨p1, q1⟩, ⟨p2, q2⟩, p3, q3⟩ := code_lms_range hB hr.1 hg.1 hb.1 hr.2 hg.2 hb.2
  have sig : ∀ {l : ℝ}, 0 ≤ l → l ≤ 10004 / 10000 * x → (-1 / 10 ≤ encodeTransfer B.ar .BT2100HLG l ∧ encodeTransfer B.ar .BT2100HLG l ≤ 1.1) ∧
      ∀ v, |v - encodeTransfer B.ar .BT2100HLG l| ≤ 3 / 10 ^ 7 → |v - Standard.toSignal .BT2100HLG l| ≤ 4 / 10 ^ 7 := by
    intro l l0 l1
    have a := abs_le.mp (std_enc_hlg hB l0)
    have b : Standard.toSignal .BT2100HLG l ≤ 1.099 := (hlg_signal l0 (by norm_num; linarith)).2
    have c := (hlg_signal l0 (by norm_num; linarith)).1
    refine ⟨by norm_num at *; constructor <;> linarith [a.1, a.2], fun v hv => ?_⟩
    rw [abs_le] at *
    norm_num at *
    constructor <;> linarith [a.1, a.2, hv.1, hv.2]
  obtain ⟨⟨s1, t1⟩, w1⟩ := sig p1 q1
  obtain ⟨⟨s2, t2⟩, w2⟩ := sig p2 q2
  obtain ⟨⟨s3, t3⟩, w3⟩ := sig p3 q3
  obtain ⟨c1, c2, c3⟩ := hlg_cones_code hB s1 s2 s3 t1 t2 t3
  have d1 := (dec_hlg_std hB p1 (w1 _ c1)).trans (c := 31 / 10 ^ 7 * x + 1 / 10 ^ 6) (by linarith)
  have d2 := (dec_hlg_std hB p2 (w2 _ c2)).trans (c := 31 / 10 ^ 7 * x + 1 / 10 ^ 6) (by linarith)
  have d3 := (dec_hlg_std hB p3 (w3 _ c3)).trans (c := 31 / 10 ^ 7 * x + 1 / 10 ^ 6) (by linarith)
  have := rgb_back hB hr.1 hg.1 hb.1 hr.2 hg.2 hb.2 d1 d2 d3
  have k : 3 / 10 ^ 7 * x + 6013 / 1000 * (31 / 10 ^ 7 * x + 1 / 10 ^ 6) ≤ 2 / 10 ^ 5 * x + 7 / 10 ^ 6 := by
    norm_num; linarith
  exact ⟨this.1.trans k, this.2.1.trans k, this.2.2.trans k⟩

/-- A colour that meets the hypotheses: 100, 50 and 0 cd/m². -/
example : ∃ (B : Backend ℝ) (_ : Exact B.ar) (y u v : B.V) (i : Fin B.LEN),
    (y i, u i, v i) = Standard.ictcpPq (100, 50, 0) ∧
      |(ColorSpace.ICtCpPQ.yuvToRgb B .Linear ColorPrimaries.BT2020.xyzToRgbMat y u v).1 i - 100| ≤ 0.24 := by
  refine ⟨exactBackend, exactBackend_exact, fun _ => (Standard.ictcpPq (100, 50, 0)).1, fun _ => (Standard.ictcpPq (100, 50, 0)).2.1,
    fun _ => (Standard.ictcpPq (100, 50, 0)).2.2, ⟨0, by decide⟩, rfl, ?_⟩
  refine (C54_pq_decode exactBackend_exact (r := 100) (g := 50) (b := 0) (x := 100) (by norm_num) (by norm_num) (by norm_num)
    (by norm_num) rfl).1.trans (by norm_num)

example : ∃ (B : Backend ℝ) (_ : Exact B.ar) (y u v : B.V) (i : Fin B.LEN),
    (y i, u i, v i) = Standard.ictcpHlg (1, 0, 1 / 2) ∧
      |(ColorSpace.ICtCpHLG.yuvToRgb B .Linear ColorPrimaries.BT2020.xyzToRgbMat y u v).1 i - 1| ≤ 0.001 := by
  refine ⟨exactBackend, exactBackend_exact, fun _ => (Standard.ictcpHlg (1, 0, 1 / 2)).1, fun _ => (Standard.ictcpHlg (1, 0, 1 / 2)).2.1,
    fun _ => (Standard.ictcpHlg (1, 0, 1 / 2)).2.2, ⟨0, by decide⟩, rfl, ?_⟩
  refine (C54_hlg_decode exactBackend_exact (r := 1) (g := 0) (b := 1 / 2) (x := 1) (by norm_num) (by norm_num) (by norm_num)
    (by norm_num) rfl).1.trans (by norm_num)

/-- Light 0.3, 0.6 and 1 with linear signals. -/
example : ∃ (B : Backend ℝ) (_ : Exact B.ar) (r g b : B.V) (i : Fin B.LEN),
    (0 ≤ ColorTransfer.Linear.scaledToLinearV B r i ∧ ColorTransfer.Linear.scaledToLinearV B r i ≤ 1) ∧
    (0 ≤ ColorTransfer.Linear.scaledToLinearV B g i ∧ ColorTransfer.Linear.scaledToLinearV B g i ≤ 1) ∧
    (0 ≤ ColorTransfer.Linear.scaledToLinearV B b i ∧ ColorTransfer.Linear.scaledToLinearV B b i ≤ 1) ∧ r i ≠ g i := by
  refine ⟨exactBackend, exactBackend_exact, fun _ => 0.3, fun _ => 0.6, fun _ => 1, ⟨0, by decide⟩, ?_⟩
  simp only [lane_scaledToLinear, decodeTransfer]
  norm_num

end Ezk.Props

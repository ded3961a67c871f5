import Verif.Model.Color
import Mathlib.Analysis.SpecialFunctions.Pow.Real
import Mathlib.Analysis.SpecialFunctions.Log.Basic

/-!
# The transfer functions of the standards

Written down from the standards, over the reals: IEC 61966-2-1 (sRGB), ITU-R BT.709/BT.2020 and H.273 (`SDR`), SMPTE ST 2084
(`BT2100PQ`), ITU-R BT.2100 (`BT2100HLG`).  Linear light is 1 at the brightest, except for PQ where it is in cd/m².
-/

namespace Ezk.Standard

/-- `α` of BT.709 as given by H.273. -/
noncomputable def α : ℝ := 1.099296826809442
/-- `β` of BT.709 as given by H.273. -/
noncomputable def β : ℝ := 0.018053968510807

noncomputable def m1 : ℝ := 2610 / 16384
noncomputable def m2 : ℝ := 2523 / 4096 * 128
noncomputable def c1 : ℝ := 3424 / 4096
noncomputable def c2 : ℝ := 2413 / 4096 * 32
noncomputable def c3 : ℝ := 2392 / 4096 * 32

noncomputable def a : ℝ := 0.17883277
noncomputable def b : ℝ := 1 - 4 * a
noncomputable def c : ℝ := 0.5 - a * Real.log (4 * a)

/-- From the signal to light. -/
noncomputable def toLight : ColorTransfer → ℝ → ℝ
  | .Linear, v => v
  | .Gamma22, v => v ^ (2.2 : ℝ)
  | .Gamma28, v => v ^ (2.8 : ℝ)
  | .SRGB, v => if v ≤ 0.04045 then v / 12.92 else ((v + 0.055) / 1.055) ^ (2.4 : ℝ)
  | .SDR, v => if v < 4.5 * β then v / 4.5 else ((v + (α - 1)) / α) ^ (1 / 0.45 : ℝ)
  | .BT2100PQ, v => 10000 * (max (v ^ (1 / m2) - c1) 0 / (c2 - c3 * v ^ (1 / m2))) ^ (1 / m1)
  | .BT2100HLG, v => if v ≤ 1 / 2 then v ^ 2 / 3 else (Real.exp ((v - c) / a) + b) / 12

/-- From light to the signal. -/
noncomputable def toSignal : ColorTransfer → ℝ → ℝ
  | .Linear, l => l
  | .Gamma22, l => l ^ (1 / 2.2 : ℝ)
  | .Gamma28, l => l ^ (1 / 2.8 : ℝ)
  | .SRGB, l => if l ≤ 0.0031308 then 12.92 * l else 1.055 * l ^ (1 / 2.4 : ℝ) - 0.055
  | .SDR, l => if l < β then 4.5 * l else α * l ^ (0.45 : ℝ) - (α - 1)
  | .BT2100PQ, l => ((c1 + c2 * (l / 10000) ^ m1) / (1 + c3 * (l / 10000) ^ m1)) ^ m2
  | .BT2100HLG, l => if l ≤ 1 / 12 then Real.sqrt (3 * l) else a * Real.log (12 * l - b) + c

/-! ## ICtCp, BT.2100 table 7 -/

/-- `L`, `M`, `S` of linear `R`, `G`, `B` with the primaries of BT.2020. -/
noncomputable def lms (p : ℝ × ℝ × ℝ) : ℝ × ℝ × ℝ :=
  ((1688 * p.1 + 2146 * p.2.1 + 262 * p.2.2) / 4096, (683 * p.1 + 2951 * p.2.1 + 462 * p.2.2) / 4096,
    (99 * p.1 + 309 * p.2.1 + 3688 * p.2.2) / 4096)

/-- `I`, `CT`, `CP` of `L'`, `M'`, `S'` for the PQ system. -/
noncomputable def ictcpOfPq (p : ℝ × ℝ × ℝ) : ℝ × ℝ × ℝ :=
  ((p.1 + p.2.1) / 2, (6610 * p.1 - 13613 * p.2.1 + 7003 * p.2.2) / 4096, (17933 * p.1 - 17390 * p.2.1 - 543 * p.2.2) / 4096)

/-- `I`, `CT`, `CP` of `L'`, `M'`, `S'` for the HLG system. -/
noncomputable def ictcpOfHlg (p : ℝ × ℝ × ℝ) : ℝ × ℝ × ℝ :=
  ((p.1 + p.2.1) / 2, (3625 * p.1 - 7465 * p.2.1 + 3840 * p.2.2) / 4096, (9500 * p.1 - 9212 * p.2.1 - 288 * p.2.2) / 4096)

/-- `I`, `CT`, `CP` of linear light with the primaries of BT.2020, of the PQ system. -/
noncomputable def ictcpPq (p : ℝ × ℝ × ℝ) : ℝ × ℝ × ℝ :=
  ictcpOfPq (toSignal .BT2100PQ (lms p).1, toSignal .BT2100PQ (lms p).2.1, toSignal .BT2100PQ (lms p).2.2)

/-- `I`, `CT`, `CP` of linear light with the primaries of BT.2020, of the HLG system. -/
noncomputable def ictcpHlg (p : ℝ × ℝ × ℝ) : ℝ × ℝ × ℝ :=
  ictcpOfHlg (toSignal .BT2100HLG (lms p).1, toSignal .BT2100HLG (lms p).2.1, toSignal .BT2100HLG (lms p).2.2)

end Ezk.Standard

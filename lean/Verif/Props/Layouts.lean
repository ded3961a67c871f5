import Verif.Props.Chroma

/-!
# C40: formats that store the same samples in different places
-/

namespace Ezk.Props
open FOps Spec

variable {F : Type} [FOps F]

section
variable {c : Cpu F} {src1 src2 dst1 dst2 : Img} {sps1 sps2 dps1 dps2 : List Plane} {m1 m1' m2 m2' : Mem}

/-- **C40** (partial: not for 4:4:4 sources whose planes have different strides, and not if one of the sources already
has the destination's format and colour). Two YUV sources of the same depth showing the same picture give the same
destination, wherever their formats store the samples: I420 and NV12, I422 and YUYV, also I444 with replicated chroma. -/
theorem C40_same_samples_partial (r1 : Run c src1 dst1 sps1 dps1 m1 m1') (r2 : Run c src2 dst2 sps2 dps2 m2 m2')
    (y1 : isYuv src1.format = true) (y2 : isYuv src2.format = true) (eb : sampleBits src1.format = sampleBits src2.format)
    (ec : src1.color = src2.color) (efd : dst1.format = dst2.format) (ecd : dst1.color = dst2.color)
    (ew : dst1.width = dst2.width) (eh : dst1.height = dst2.height)
    (n1 : ¬ (src1.format = dst1.format ∧ src1.color = dst1.color))
    (n2 : ¬ (src2.format = dst1.format ∧ src2.color = dst1.color)) {V : Pic Nat}
    (hV1 : Depicts src1.format sps1 src1.width src1.height m1 V)
    (hV2 : Depicts src2.format sps2 src2.width src2.height m2 V) {ch : Chan} {x y : Nat}
    (hx : x < dst1.width) (hy : y < dst1.height) :
    sample dst1.format dps1 m1' ch x y = sample dst2.format dps2 m2' ch x y := by
  cases hl : sampleLoc dst1.format ch x y with
  | none => rw [sample, sample, ← efd, hl]; rfl
  | some l =>
    rw [r1.sample hV1 hx hy hl, r2.sample hV2 (ew ▸ hx) (eh ▸ hy) (efd ▸ hl), ← efd, ← ew, ← ec, ← ecd]
    rw [← ec] at n2
    have hn : ∀ ar : Nat → Arith F, normalize ar src1.format V = normalize ar src2.format V := by
      intro ar; funext c x y; simp only [normalize, maxSample, eb]
    have hrd : ∀ ar : Nat → Arith F, readPic ar src1.format src1.color V = readPic ar src2.format src1.color V := by
      intro ar
      cases src1.color with
      | RGB i =>
        rw [readPic, readPic]
        funext c x y
        simp only [withAlpha, hn]
        have e1 : hasAlpha src1.format = false := by revert y1; cases src1.format <;> simp [isYuv, hasAlpha]
        have e2 : hasAlpha src2.format = false := by revert y2; cases src2.format <;> simp [isYuv, hasAlpha]
        rw [e1, e2]
      | YUV i => rw [readPic, readPic, if_pos y1, if_pos y2, hn]
    rw [floatBlk, floatBlk, if_neg n1, if_neg n2, hrd]

/-- **C40** (partial: not for 4:4:4 sources whose planes have different strides, and not if one of the destinations
already has the source's format and colour). The other direction: a source converted to two YUV destinations with the same depth and the same
sub-sampling stores the same samples in both. -/
theorem C40_same_destinations_partial (r1 : Run c src1 dst1 sps1 dps1 m1 m1') (r2 : Run c src2 dst2 sps2 dps2 m2 m2')
    (y1 : isYuv dst1.format = true) (y2 : isYuv dst2.format = true)
    (eb : sampleBits dst1.format = sampleBits dst2.format) (ebb : sampleBytes dst1.format = sampleBytes dst2.format)
    (ehs : hsub dst1.format = hsub dst2.format) (evs : vsub dst1.format = vsub dst2.format)
    (ef : src1.format = src2.format) (ec : src1.color = src2.color) (ecd : dst1.color = dst2.color)
    (ew : dst1.width = dst2.width) (eh : dst1.height = dst2.height)
    (n1 : ¬ (src1.format = dst1.format ∧ src1.color = dst1.color))
    (n2 : ¬ (src1.format = dst2.format ∧ src1.color = dst1.color)) {V : Pic Nat}
    (hV1 : Depicts src1.format sps1 src1.width src1.height m1 V)
    (hV2 : Depicts src2.format sps2 src2.width src2.height m2 V) {ch : Chan} {x y : Nat}
    (hx : x < dst1.width) (hy : y < dst1.height) :
    sample dst1.format dps1 m1' ch x y = sample dst2.format dps2 m2' ch x y := by
  by_cases hch : ch = .Y ∨ ch = .U ∨ ch = .V
  · obtain ⟨l1, hl1⟩ : ∃ l, sampleLoc dst1.format ch x y = some l := by
      revert y1; rcases hch with rfl | rfl | rfl <;> cases dst1.format <;> simp [isYuv, sampleLoc]
    obtain ⟨l2, hl2⟩ : ∃ l, sampleLoc dst2.format ch x y = some l := by
      revert y2; rcases hch with rfl | rfl | rfl <;> cases dst2.format <;> simp [isYuv, sampleLoc]
    rw [r1.sample hV1 hx hy hl1, r2.sample hV2 (ew ▸ hx) (eh ▸ hy) hl2, ← ew, ← ec, ← ecd, ← ef]
    have ecx : cellX dst1.format ch x = cellX dst2.format ch x := by simp only [cellX, ehs]
    have ecy : cellY dst1.format ch y = cellY dst2.format ch y := by simp only [cellY, evs]
    have hwr : ∀ (b : Blk F) (p : Pic F), writeBlk b dst1.format dst1.color p = writeBlk b dst2.format dst1.color p := by
      intro b p
      cases dst1.color with
      | RGB i => rfl
      | YUV i =>
        rw [writeBlk, writeBlk, if_pos y1, if_pos y2]
        funext c x y
        cases c <;> simp only [encodeBlk, chromaBlk, chromaOf, ehs, evs]
    rw [floatBlk, floatBlk, if_neg n1, if_neg n2, hwr, ← ecx, ← ecy]
    simp only [quantize, y1, y2, ebb, maxSample, eb]
  · have h1 : sampleLoc dst1.format ch x y = none := by
      revert y1; cases ch <;> simp at hch <;> cases dst1.format <;> simp [isYuv, sampleLoc]
    have h2 : sampleLoc dst2.format ch x y = none := by
      revert y2; cases ch <;> simp at hch <;> cases dst2.format <;> simp [isYuv, sampleLoc]
    rw [sample, sample, h1, h2]; rfl

end

/-- A 4×2 I420 image and an NV12 image with padding, of the same colour. -/
def planarSource : Img := .raw .I420 4 2 [⟨⟨0, 8⟩, 4⟩, ⟨⟨10, 2⟩, 2⟩, ⟨⟨20, 2⟩, 2⟩] (.YUV ⟨.SDR, .BT709, .BT709, false⟩)
def semiPlanarSource : Img := .raw .NV12 4 2 [⟨⟨0, 12⟩, 6⟩, ⟨⟨20, 5⟩, 5⟩] (.YUV ⟨.SDR, .BT709, .BT709, false⟩)

example (ar : Arith F) (m1 m2 m1' m2' : Mem)
    (r1 : Run ⟨scalarBackend ar, ar⟩ planarSource demoDst [⟨⟨0, 8⟩, 4⟩, ⟨⟨10, 2⟩, 2⟩, ⟨⟨20, 2⟩, 2⟩] demoDstPlanes m1 m1')
    (r2 : Run ⟨scalarBackend ar, ar⟩ semiPlanarSource demoDst [⟨⟨0, 12⟩, 6⟩, ⟨⟨20, 5⟩, 5⟩] demoDstPlanes m2 m2')
    (hV2 : Depicts .NV12 [⟨⟨0, 12⟩, 6⟩, ⟨⟨20, 5⟩, 5⟩] 4 2 m2 (shown .I420 [⟨⟨0, 8⟩, 4⟩, ⟨⟨10, 2⟩, 2⟩, ⟨⟨20, 2⟩, 2⟩] m1)) :
    sample .I420 demoDstPlanes m1' .V 2 0 = sample .I420 demoDstPlanes m2' .V 2 0 :=
  C40_same_samples_partial r1 r2 rfl rfl rfl rfl rfl rfl rfl rfl (by simp [planarSource, demoDst, Img.color])
    (by simp [semiPlanarSource, demoDst, Img.color]) (shown_depicts (by decide) m1) hV2 (by decide) (by decide)

end Ezk.Props

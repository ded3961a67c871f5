import Verif.Props.Convert

/-!
# Properties of chroma sub-sampling
-/

namespace Ezk.Props
open FOps Spec

variable {F : Type} [FOps F]

section
variable {c : Cpu F} {src1 src2 dst1 dst2 : Img} {sps1 sps2 dps1 dps2 : List Plane} {m1 m1' m2 m2' : Mem}

/-- The samples of two images of the same format agree at a pixel. -/
def SamePixel (f : PixelFormat) (ps1 ps2 : List Plane) (m1 m2 : Mem) (x y : Nat) : Prop :=
  ∀ c, sample f ps1 m1 c x y = sample f ps2 m2 c x y

/-- **C33** (partial: not for 4:4:4 sources whose planes have different strides). A luma sample depends on the source
only through the pixel at its own position. -/
theorem C33_luma_local_partial (r1 : Run c src1 dst1 sps1 dps1 m1 m1') (r2 : Run c src2 dst2 sps2 dps2 m2 m2')
    (ef : src1.format = src2.format) (ec : src1.color = src2.color) (efd : dst1.format = dst2.format)
    (ecd : dst1.color = dst2.color) (ew : dst1.width = dst2.width) (eh : dst1.height = dst2.height)
    {x y : Nat} (hx : x < dst1.width) (hy : y < dst1.height) (h : SamePixel src1.format sps1 sps2 m1 m2 x y) :
    sample dst1.format dps1 m1' .Y x y = sample dst2.format dps2 m2' .Y x y := by
  cases hl : sampleLoc dst1.format .Y x y with
  | none => rw [sample, sample, ← efd, hl]; rfl
  | some l =>
    have hV : ∀ c, shown src1.format sps1 m1 c x y = shown src1.format sps2 m2 c x y := fun c => by rw [shown, h c]; rfl
    rw [r1.sample (shown_depicts r1.returned.vsrc.fits.1 m1) hx hy hl,
      r2.sample (shown_depicts r2.returned.vsrc.fits.1 m2) (ew ▸ hx) (eh ▸ hy) (efd ▸ hl), ← efd, ← ew, ← ec, ← ecd, ← ef]
    congr 1
    have e : cellX dst1.format .Y x = x ∧ cellY dst1.format .Y y = y := by simp [cellX, cellY]
    rw [e.1, e.2]
    have key : ∀ V W : Pic Nat, (∀ c, V c x y = W c x y) →
        floatBlk (cpuBlk c dst1.width) src1.format src1.color dst1.format dst1.color V .Y x y =
        floatBlk (cpuBlk c dst1.width) src1.format src1.color dst1.format dst1.color W .Y x y := by
      intro V W hVW
      rw [floatBlk, floatBlk]
      split
      · rw [normalize, normalize, hVW]
      · have hp := adaptPic_congr (ar := (cpuBlk c dst1.width).ar) src1.color dst1.color
          (readPic_congr (ar := (cpuBlk c dst1.width).ar) src1.format src1.color hVW)
        generalize adaptPic (cpuBlk c dst1.width).ar src1.color dst1.color
          (readPic (cpuBlk c dst1.width).ar src1.format src1.color V) = p at hp
        generalize adaptPic (cpuBlk c dst1.width).ar src1.color dst1.color
          (readPic (cpuBlk c dst1.width).ar src1.format src1.color W) = q at hp
        cases dst1.color with
        | RGB i => exact hp .Y
        | YUV i =>
          rw [writeBlk, writeBlk]
          split
          · simp only [encodeBlk, yuvAt, hp]
          · exact hp .Y
    simp only [quantize, key _ _ hV]

end

/-- A conversion of the demo images meets the hypotheses. -/
theorem demo_run (ar : Arith F) (m : Mem) :
    ∃ m', Run ⟨scalarBackend ar, ar⟩ demoSrc demoDst [⟨⟨0, 28⟩, 14⟩] demoDstPlanes m m' := by
  obtain ⟨m', h⟩ := (C12_ok_iff_partial (c := ⟨scalarBackend ar, ar⟩) (src := demoSrc) (dst := demoDst) (m := m)
    (scalar_lawful ar) (fun _ h => by cases h; exact demo_uniform)).2 (by decide)
  exact ⟨m', scalar_lawful ar, rfl, rfl, demo_disjoint, demo_separate, demo_uniform, h⟩

/-- Two sources that differ in all pixels but (3, 1). -/
example (ar : Arith F) (m1 m2 : Mem) (h : ∀ k < 3, m1 (23 + k) = m2 (23 + k)) : ∃ m1' m2',
    Run ⟨scalarBackend ar, ar⟩ demoSrc demoDst [⟨⟨0, 28⟩, 14⟩] demoDstPlanes m1 m1' ∧
    Run ⟨scalarBackend ar, ar⟩ demoSrc demoDst [⟨⟨0, 28⟩, 14⟩] demoDstPlanes m2 m2' ∧
    sample .I420 demoDstPlanes m1' .Y 3 1 = sample .I420 demoDstPlanes m2' .Y 3 1 := by
  obtain ⟨m1', r1⟩ := demo_run ar m1
  obtain ⟨m2', r2⟩ := demo_run ar m2
  refine ⟨m1', m2', r1, r2, C33_luma_local_partial r1 r2 rfl rfl rfl rfl rfl rfl (by decide) (by decide) ?_⟩
  intro c
  cases c
  case R => exact congrArg (fun b : UInt8 => some b.toNat) (h 0 (by decide))
  case G => exact congrArg (fun b : UInt8 => some b.toNat) (h 1 (by decide))
  case B => exact congrArg (fun b : UInt8 => some b.toNat) (h 2 (by decide))
  all_goals rfl

section
variable {c : Cpu F} {src1 src2 dst1 dst2 : Img} {sps1 sps2 dps1 dps2 : List Plane} {m1 m1' m2 m2' : Mem}

/-- **C33** (partial: not for 4:4:4 sources whose planes have different strides, and not for 4:2:0 destinations with an
ICtCp colour space). A chroma sample depends on the source only through the pixels of its own cell. -/
theorem C33_chroma_local_partial (r1 : Run c src1 dst1 sps1 dps1 m1 m1') (r2 : Run c src2 dst2 sps2 dps2 m2 m2')
    (ef : src1.format = src2.format) (ec : src1.color = src2.color) (efd : dst1.format = dst2.format)
    (ecd : dst1.color = dst2.color) (ew : dst1.width = dst2.width) (eh : dst1.height = dst2.height)
    (hb : ¬ BadChroma src1.format src1.color dst1.format dst1.color) {ch : Chan} (hch : ch = .U ∨ ch = .V)
    {x y : Nat} (hx : x < dst1.width) (hy : y < dst1.height)
    (h : ∀ x' y', x' / hsub dst1.format = x / hsub dst1.format → y' / vsub dst1.format = y / vsub dst1.format →
      SamePixel src1.format sps1 sps2 m1 m2 x' y') :
    sample dst1.format dps1 m1' ch x y = sample dst2.format dps2 m2' ch x y := by
  cases hl : sampleLoc dst1.format ch x y with
  | none => rw [sample, sample, ← efd, hl]; rfl
  | some l =>
    rw [r1.depicts hb (shown_depicts r1.returned.vsrc.fits.1 m1) ch x y l hx hy hl,
      r2.depicts (by rwa [← efd, ← ec, ← ecd, ← ef]) (shown_depicts r2.returned.vsrc.fits.1 m2) ch x y l (ew ▸ hx) (eh ▸ hy)
        (efd ▸ hl), ← efd, ← ew, ← ec, ← ecd, ← ef]
    congr 1
    have hV : ∀ x' y', x' / hsub dst1.format = x / hsub dst1.format → y' / vsub dst1.format = y / vsub dst1.format →
        ∀ c, shown src1.format sps1 m1 c x' y' = shown src1.format sps2 m2 c x' y' :=
      fun x' y' h1 h2 c => by rw [shown, h x' y' h1 h2 c]; rfl
    generalize hVe : shown src1.format sps1 m1 = V at hV
    generalize hWe : shown src1.format sps2 m2 = W at hV
    generalize columnArith c dst1.width = ar
    have key : convertedF ar src1.format src1.color dst1.format dst1.color V ch x y =
        convertedF ar src1.format src1.color dst1.format dst1.color W ch x y := by
      rw [convertedF, convertedF]
      split
      · rw [normalize, normalize, hV x y rfl rfl]
      · have hp := fun x' y' h1 h2 => adaptPic_congr (ar := ar) src1.color dst1.color
          (readPic_congr (ar := ar) src1.format src1.color (hV x' y' h1 h2))
        generalize adaptPic ar src1.color dst1.color (readPic ar src1.format src1.color V) = p at hp
        generalize adaptPic ar src1.color dst1.color (readPic ar src1.format src1.color W) = q at hp
        cases dst1.color with
        | RGB i => exact hp x y rfl rfl ch
        | YUV i =>
          rw [writePic, writePic]
          split
          · have hcell : chromaOf ar dst1.format i p x y = chromaOf ar dst1.format i q x y := by
              rw [chromaOf, chromaOf]
              split
              · simp only [yuvAt, hp x y rfl rfl]
              · rename_i hne
                have h2 : hsub dst1.format = 2 := by
                  revert hne; cases dst1.format <;> simp [hsub]
                rw [h2] at hp
                split
                · simp only [chroma422, yuvAt, hp (x / 2 * 2) y (by omega) rfl, hp (x / 2 * 2 + 1) y (by omega) rfl]
                · rename_i hne
                  have h3 : vsub dst1.format = 2 := by
                    revert hne; cases dst1.format <;> simp [vsub]
                  rw [h3] at hp
                  simp only [chroma420, yuvAt, hp (x / 2 * 2) (y / 2 * 2) (by omega) (by omega),
                    hp (x / 2 * 2 + 1) (y / 2 * 2) (by omega) (by omega),
                    hp (x / 2 * 2) (y / 2 * 2 + 1) (by omega) (by omega),
                    hp (x / 2 * 2 + 1) (y / 2 * 2 + 1) (by omega) (by omega)]
            rcases hch with rfl | rfl <;> simp only [encode, hcell]
          · exact hp x y rfl rfl ch
    simp only [converted, quantize, key]

/-- **C33** is false for 4:2:0 destinations with an ICtCp colour space, whatever the arithmetic: their chroma ignores
the lower row of each cell (and everything else outside of the upper row). -/
theorem C33_ictcp_ignores_lower_row (r1 : Run c src1 dst1 sps1 dps1 m1 m1') (r2 : Run c src2 dst2 sps2 dps2 m2 m2')
    (ef : src1.format = src2.format) (ec : src1.color = src2.color) (efd : dst1.format = dst2.format)
    (ecd : dst1.color = dst2.color) (ew : dst1.width = dst2.width) (eh : dst1.height = dst2.height)
    (hb : BadChroma src1.format src1.color dst1.format dst1.color) {ch : Chan} (hch : ch = .U ∨ ch = .V)
    {x y : Nat} (hx : x < dst1.width) (hy : y < dst1.height)
    (h : ∀ x', SamePixel src1.format sps1 sps2 m1 m2 x' (y / 2 * 2)) :
    sample dst1.format dps1 m1' ch x y = sample dst2.format dps2 m2' ch x y := by
  obtain ⟨hne, hvs, i, hi, him⟩ := hb
  cases hl : sampleLoc dst1.format ch x y with
  | none => rw [sample, sample, ← efd, hl]; rfl
  | some l =>
    have hV : ∀ x' c, shown src1.format sps1 m1 c x' (y / 2 * 2) = shown src1.format sps2 m2 c x' (y / 2 * 2) :=
      fun x' c => by rw [shown, h x' c]; rfl
    rw [r1.sample (shown_depicts r1.returned.vsrc.fits.1 m1) hx hy hl,
      r2.sample (shown_depicts r2.returned.vsrc.fits.1 m2) (ew ▸ hx) (eh ▸ hy) (efd ▸ hl), ← efd, ← ew, ← ec, ← ecd, ← ef]
    congr 1
    have hyuv : isYuv dst1.format = true := by revert hvs; cases dst1.format <;> simp [vsub, isYuv]
    have ey : cellY dst1.format ch y / 2 * 2 = y / 2 * 2 := by
      rcases hch with rfl | rfl <;> simp [cellY, hvs]
    have key : ∀ V W : Pic Nat, (∀ x' c, V c x' (y / 2 * 2) = W c x' (y / 2 * 2)) → ∀ x',
        floatBlk (cpuBlk c dst1.width) src1.format src1.color dst1.format dst1.color V ch x' (cellY dst1.format ch y) =
        floatBlk (cpuBlk c dst1.width) src1.format src1.color dst1.format dst1.color W ch x' (cellY dst1.format ch y) := by
      intro V W hVW x'
      rw [floatBlk, floatBlk, if_neg hne, if_neg hne, hi, writeBlk, writeBlk, if_pos hyuv, if_pos hyuv]
      have hp := fun x' => adaptPic_congr (ar := (cpuBlk c dst1.width).ar) src1.color (.YUV i)
          (readPic_congr (ar := (cpuBlk c dst1.width).ar) src1.format src1.color (hVW x'))
      have hch' : ∀ x', chromaBlk (cpuBlk c dst1.width) dst1.format i
          (adaptPic (cpuBlk c dst1.width).ar src1.color (.YUV i) (readPic (cpuBlk c dst1.width).ar src1.format src1.color V))
            x' (cellY dst1.format ch y) = chromaBlk (cpuBlk c dst1.width) dst1.format i
          (adaptPic (cpuBlk c dst1.width).ar src1.color (.YUV i) (readPic (cpuBlk c dst1.width).ar src1.format src1.color W))
            x' (cellY dst1.format ch y) := by
        intro x'
        rw [chromaBlk, chromaBlk, if_pos ⟨hvs, him⟩, if_pos ⟨hvs, him⟩]
        simp only [ictcpChroma, ey, yuvAt, hp]
      rcases hch with rfl | rfl <;> simp only [encodeBlk, hch']
    simp only [quantize, key _ _ hV]

end

section
variable {c : Cpu F} {src dst : Img} {sps dps : List Plane} {m m' : Mem}

/-- **C33** (partial: not for 4:4:4 sources whose planes have different strides). 4:2:0 destinations of a matrix colour
space: the chroma of the mean colour of the four pixels. -/
theorem C33_chroma420_mean_partial (r : Run c src dst sps dps m m') {V : Pic Nat}
    (hV : Depicts src.format sps src.width src.height m V)
    (hne : ¬ (src.format = dst.format ∧ src.color = dst.color)) (hv : vsub dst.format = 2)
    {i : YuvColorInfo} (hi : dst.color = .YUV i) (hm : isMatrix i.space = true)
    {j k : Nat} (hj : 2 * j + 1 < dst.width) (hk : 2 * k + 1 < dst.height) :
    let a := columnArith c dst.width
    let b := a (2 * j)
    -- the colours of the source, in the destination's transfer function and primaries
    let rgb := adaptPic a src.color dst.color (readPic a src.format src.color V)
    let mean (ch : Chan) : F := b.mul (b.add (b.add (rgb ch (2 * j) (2 * k)) (rgb ch (2 * j) (2 * k + 1)))
      (b.add (rgb ch (2 * j + 1) (2 * k)) (rgb ch (2 * j + 1) (2 * k + 1)))) (lit 0.25)
    let yuv := rgbToYuv b i.space i.transfer i.primaries (mean .R, mean .G, mean .B)
    sample dst.format dps m' .U (2 * j) (2 * k) =
      some (quantize a dst.format (fun _ _ _ => compressChroma b i.fullRange yuv.2.1) .U (2 * j) (2 * k)) ∧
    sample dst.format dps m' .V (2 * j) (2 * k) =
      some (quantize a dst.format (fun _ _ _ => compressChroma b i.fullRange yuv.2.2) .V (2 * j) (2 * k)) := by
  have hb : ¬ BadChroma src.format src.color dst.format dst.color := by
    rintro ⟨_, _, i', h1, h2⟩
    rw [hi] at h1; cases h1
    rw [hm] at h2; cases h2
  have hyuv : isYuv dst.format = true := by revert hv; cases dst.format <;> simp [vsub, isYuv]
  have hh : ¬ hsub dst.format = 1 := by revert hv; cases dst.format <;> simp [hsub, vsub]
  have hv' : ¬ vsub dst.format = 1 := by omega
  have d := r.depicts hb hV
  have ej : 2 * j / 2 * 2 = 2 * j := by omega
  have ek : 2 * k / 2 * 2 = 2 * k := by omega
  refine ⟨?_, ?_⟩
  · obtain ⟨l, hl⟩ : ∃ l, sampleLoc dst.format .U (2 * j) (2 * k) = some l := by
      revert hyuv; cases dst.format <;> simp [isYuv, sampleLoc]
    rw [d .U (2 * j) (2 * k) l (by omega) (by omega) hl, converted, convertedF, if_neg hne]
    simp only [quantize, hi, writePic, hyuv, if_true, encode, chromaOf, if_neg hh, if_neg hv', chroma420, hm, ej, ek, mean4]
  · obtain ⟨l, hl⟩ : ∃ l, sampleLoc dst.format .V (2 * j) (2 * k) = some l := by
      revert hyuv; cases dst.format <;> simp [isYuv, sampleLoc]
    rw [d .V (2 * j) (2 * k) l (by omega) (by omega) hl, converted, convertedF, if_neg hne]
    simp only [quantize, hi, writePic, hyuv, if_true, encode, chromaOf, if_neg hh, if_neg hv', chroma420, hm, ej, ek, mean4]

/-- **C33** (partial: not for 4:4:4 sources whose planes have different strides). 4:2:2 destinations: the mean of the
chroma of the two pixels. -/
theorem C33_chroma422_mean_partial (r : Run c src dst sps dps m m') {V : Pic Nat}
    (hV : Depicts src.format sps src.width src.height m V)
    (hne : ¬ (src.format = dst.format ∧ src.color = dst.color)) (hh : hsub dst.format = 2) (hv : vsub dst.format = 1)
    {i : YuvColorInfo} (hi : dst.color = .YUV i) {j y : Nat} (hj : 2 * j + 1 < dst.width) (hy : y < dst.height) :
    let a := columnArith c dst.width
    let b := a (2 * j)
    let rgb := adaptPic a src.color dst.color (readPic a src.format src.color V)
    let yuv (x : Nat) := rgbToYuv (a x) i.space i.transfer i.primaries (rgb .R x y, rgb .G x y, rgb .B x y)
    sample dst.format dps m' .U (2 * j) y = some (quantize a dst.format (fun _ _ _ => compressChroma b i.fullRange
      (b.div (b.add (yuv (2 * j)).2.1 (yuv (2 * j + 1)).2.1) (lit 2.0))) .U (2 * j) y) ∧
    sample dst.format dps m' .V (2 * j) y = some (quantize a dst.format (fun _ _ _ => compressChroma b i.fullRange
      (b.div (b.add (yuv (2 * j)).2.2 (yuv (2 * j + 1)).2.2) (lit 2.0))) .V (2 * j) y) := by
  have hb : ¬ BadChroma src.format src.color dst.format dst.color := by
    rintro ⟨_, h, _⟩; omega
  have hyuv : isYuv dst.format = true := by revert hh; cases dst.format <;> simp [hsub, isYuv]
  have hh' : ¬ hsub dst.format = 1 := by omega
  have d := r.depicts hb hV
  have ej : 2 * j / 2 * 2 = 2 * j := by omega
  refine ⟨?_, ?_⟩
  · obtain ⟨l, hl⟩ : ∃ l, sampleLoc dst.format .U (2 * j) y = some l := by
      revert hyuv; cases dst.format <;> simp [isYuv, sampleLoc]
    rw [d .U (2 * j) y l (by omega) hy hl, converted, convertedF, if_neg hne]
    simp only [quantize, hi, writePic, hyuv, if_true, encode, chromaOf, if_neg hh', if_pos hv, chroma422, yuvAt, ej]
  · obtain ⟨l, hl⟩ : ∃ l, sampleLoc dst.format .V (2 * j) y = some l := by
      revert hyuv; cases dst.format <;> simp [isYuv, sampleLoc]
    rw [d .V (2 * j) y l (by omega) hy hl, converted, convertedF, if_neg hne]
    simp only [quantize, hi, writePic, hyuv, if_true, encode, chromaOf, if_neg hh', if_pos hv, chroma422, yuvAt, ej]

end
end Ezk.Props

import Verif.Props.Layouts
import Verif.Props.Accuracy
import Verif.Props.Lossless

/-!
# C78: the order of the channels makes no difference
-/

namespace Ezk.Props
open FOps Spec

variable {F : Type} [FOps F]

section
variable {c : Cpu F} {src1 src2 dst1 dst2 : Img} {sps1 sps2 dps1 dps2 : List Plane} {m1 m1' m2 m2' : Mem}

/-- Pictures with the same colours. -/
def SameColours (p q : Pic F) : Prop := ∀ c, c ≠ .A → p c = q c

theorem SameColours.adapt {ar : Nat → Arith F} {sc dc : ColorInfo} {p q : Pic F} (h : SameColours p q) :
    SameColours (adaptPic ar sc dc p) (adaptPic ar sc dc q) := by
  intro c hc
  funext x y
  rw [adaptPic, adaptPic]
  split
  · rw [h c hc]
  · cases c <;> simp only [changeColor, h .R nofun, h .G nofun, h .B nofun] <;> rw [h _ hc]

theorem SameColours.write {blk : Blk F} {f : PixelFormat} {dc : ColorInfo} {p q : Pic F} (h : SameColours p q) :
    SameColours (writeBlk blk f dc p) (writeBlk blk f dc q) := by
  intro c hc
  cases dc with
  | RGB i => exact h c hc
  | YUV i =>
    rw [writeBlk, writeBlk]
    split
    · have e : yuvAt blk.ar i p = yuvAt blk.ar i q := by
        funext x y; simp only [yuvAt, h .R nofun, h .G nofun, h .B nofun]
      funext x y
      cases c <;> simp only [encodeBlk, chromaBlk, chromaOf, chroma422, chroma420, ictcpChroma, e, h .R nofun, h .G nofun,
        h .B nofun]
      exact absurd rfl hc
    · exact h c hc

/-- The picture read from an RGB image. -/
theorem read_rgb {ar : Nat → Arith F} {f : PixelFormat} (hf : isYuv f = false) (sc : ColorInfo) (V : Pic Nat) :
    readPic ar f sc V = withAlpha f (Spec.normalize ar f V) := by
  cases sc <;> simp [readPic, hf]

/-- The colours stored in a destination come from the colours of the source, without regard to alpha. -/
theorem same_colours {blk : Blk F} {f1 f2 : PixelFormat} (h1 : isYuv f1 = false) (h2 : isYuv f2 = false) (sc : ColorInfo) (df : PixelFormat)
    (dc : ColorInfo) {V1 V2 : Pic Nat} (hV : ∀ c, c ≠ .A → V1 c = V2 c) :
    SameColours (floatBlk blk f1 sc df dc V1) (floatBlk blk f2 sc df dc V2) := by
  have hn : SameColours (Spec.normalize blk.ar f1 V1) (Spec.normalize blk.ar f2 V2) := by
    intro c hc
    funext x y
    simp only [Spec.normalize, maxSample, (rgb8 h1).2, (rgb8 h2).2, hV c hc]
  have hr : SameColours (readPic blk.ar f1 sc V1) (readPic blk.ar f2 sc V2) := by
    intro c hc
    funext x y
    rw [read_rgb h1, read_rgb h2, withAlpha, withAlpha, if_neg (fun h => hc h.1), if_neg (fun h => hc h.1), hn c hc]
  have through : ∀ {f : PixelFormat} {V : Pic Nat}, isYuv f = false → isYuv df = false → sc = dc →
      SameColours (Spec.normalize blk.ar f V) (writeBlk blk df dc (adaptPic blk.ar sc dc (readPic blk.ar f sc V))) := by
    intro f V hf hd he c hc
    subst he
    have e : ∀ p : Pic F, writeBlk blk df sc p = p := fun p => by cases sc <;> simp [writeBlk, hd]
    rw [e, adaptPic, if_pos ⟨rfl, rfl⟩, read_rgb hf]
    funext x y
    rw [withAlpha, if_neg (fun h => hc h.1)]
  rw [floatBlk, floatBlk]
  split
  · rename_i a1
    split
    · exact hn
    · intro c hc
      rw [through h1 (a1.1 ▸ h1) a1.2 c hc]
      exact hr.adapt.write c hc
  · split
    · rename_i a2
      intro c hc
      rw [through h2 (a2.1 ▸ h2) a2.2 c hc]
      exact hr.adapt.write c hc
    · exact hr.adapt.write

/-- **C78**, sources. Two RGB images of any channel orders, with or without alpha, whose pixels have the same red, green and blue give
destinations with the same samples, apart from alpha. -/
theorem C78_sources (r1 : Run c src1 dst1 sps1 dps1 m1 m1') (r2 : Run c src2 dst2 sps2 dps2 m2 m2')
    (h1 : isYuv src1.format = false) (h2 : isYuv src2.format = false) (ec : src1.color = src2.color)
    (efd : dst1.format = dst2.format) (ecd : dst1.color = dst2.color) (ew : dst1.width = dst2.width) (eh : dst1.height = dst2.height)
    (hV : ∀ c, c = .R ∨ c = .G ∨ c = .B → ∀ x y, x < dst1.width → y < dst1.height →
      sample src1.format sps1 m1 c x y = sample src2.format sps2 m2 c x y)
    {ch : Chan} (hch : ch ≠ .A) {x y : Nat} (hx : x < dst1.width) (hy : y < dst1.height) :
    sample dst1.format dps1 m1' ch x y = sample dst2.format dps2 m2' ch x y := by
  have hr1 := r1.returned
  have hr2 := r2.returned
  cases hl : sampleLoc dst1.format ch x y with
  | none => rw [sample, sample, ← efd, hl]; rfl
  | some l =>
    have d1 := shown_depicts (w := src1.width) (h := src1.height) hr1.vsrc.fits.1 m1
    have d2 : Depicts src2.format sps2 src2.width src2.height m2
        (fun c => if c = .A then shown src2.format sps2 m2 .A else shown src1.format sps1 m1 c) := by
      intro c x y l hx hy hl
      have d2 := shown_depicts (w := src2.width) (h := src2.height) hr2.vsrc.fits.1 m2 c x y l hx hy hl
      by_cases hc : c = .A
      · subst hc; simpa using d2
      · have hrgb : c = .R ∨ c = .G ∨ c = .B := by
          revert hl; cases c <;> simp at hc <;> revert h2 <;> cases src2.format <;> simp [isYuv, sampleLoc]
        have e := hV c hrgb x y (by have := hr2.width; omega) (by have := hr2.height; omega)
        simp only [if_neg hc]
        rw [d2]
        congr 1
        rw [shown, shown, e]
    rw [r1.sample d1 hx hy hl, r2.sample d2 (ew ▸ hx) (eh ▸ hy) (efd ▸ hl), ← efd, ← ew, ← ec, ← ecd]
    congr 1
    have key := same_colours (blk := cpuBlk c dst1.width) h1 h2 src1.color dst1.format dst1.color
      (V1 := shown src1.format sps1 m1) (V2 := fun c => if c = .A then shown src2.format sps2 m2 .A else shown src1.format sps1 m1 c)
      (fun c hc => by simp only [if_neg hc]) ch hch
    simp only [quantize, key]

/-- Colours (and alpha, where both have it) of RGB destinations. -/
theorem same_written {blk : Blk F} (sf : PixelFormat) (sc dc : ColorInfo) {d1 d2 : PixelFormat} (h1 : isYuv d1 = false)
    (h2 : isYuv d2 = false) (V : Pic Nat) {ch : Chan} (hch : ch = .A → hasAlpha d1 = true ∧ hasAlpha d2 = true) :
    floatBlk blk sf sc d1 dc V ch = floatBlk blk sf sc d2 dc V ch := by
  have e : ∀ {d : PixelFormat}, isYuv d = false → ∀ p : Pic F, writeBlk blk d dc p = p := fun hd p => by cases dc <;> simp [writeBlk, hd]
  have through : ∀ {d : PixelFormat}, isYuv d = false → (ch = .A → hasAlpha d = true) →
      floatBlk blk sf sc d dc V ch = adaptPic blk.ar sc dc (readPic blk.ar sf sc V) ch := by
    intro d hd ha
    rw [floatBlk]
    split
    · rename_i a
      obtain ⟨rfl, rfl⟩ := a
      rw [adaptPic, if_pos ⟨rfl, rfl⟩, read_rgb hd]
      funext x y
      rw [withAlpha, if_neg]
      rintro ⟨h, h'⟩
      rw [ha h] at h'
      cases h'
    · rw [e hd]
  rw [through h1 (fun h => (hch h).1), through h2 (fun h => (hch h).2)]

theorem rgb_cells {f : PixelFormat} (h : isYuv f = false) : hsub f = 1 ∧ vsub f = 1 := by
  revert h; cases f <;> simp [isYuv, hsub, vsub]

theorem rgb_some {f : PixelFormat} (h : isYuv f = false) (ch : Chan) (x y : Nat) :
    (sampleLoc f ch x y).isSome = (ch == .R || ch == .G || ch == .B || (ch == .A && hasAlpha f)) := by
  revert h; cases f <;> cases ch <;> simp [isYuv, sampleLoc, hasAlpha] <;> rfl

theorem rgb_located {f g : PixelFormat} (h1 : isYuv f = false) (h2 : isYuv g = false) {ch : Chan}
    (hch : ch = .A → hasAlpha f = true ∧ hasAlpha g = true) (x y : Nat) :
    (sampleLoc f ch x y).isSome = (sampleLoc g ch x y).isSome := by
  rw [rgb_some h1, rgb_some h2]
  by_cases hc : ch = .A
  · rw [(hch hc).1, (hch hc).2]
  · have : (ch == .A) = false := by simpa using hc
    rw [this]; rfl

/-- **C78**, destinations. An image converted to two RGB images of any channel orders, with or without alpha, gives the same red, green
and blue, and the same alpha if both have alpha. -/
theorem C78_destinations (r1 : Run c src1 dst1 sps1 dps1 m1 m1') (r2 : Run c src2 dst2 sps2 dps2 m2 m2')
    (h1 : isYuv dst1.format = false) (h2 : isYuv dst2.format = false) (ef : src1.format = src2.format) (ec : src1.color = src2.color)
    (ecd : dst1.color = dst2.color) (ew : dst1.width = dst2.width) (eh : dst1.height = dst2.height)
    {V : Pic Nat} (hV1 : Depicts src1.format sps1 src1.width src1.height m1 V)
    (hV2 : Depicts src2.format sps2 src2.width src2.height m2 V) {ch : Chan}
    (hch : ch = .A → hasAlpha dst1.format = true ∧ hasAlpha dst2.format = true) {x y : Nat}
    (hx : x < dst1.width) (hy : y < dst1.height) :
    sample dst1.format dps1 m1' ch x y = sample dst2.format dps2 m2' ch x y := by
  have hs := rgb_located h1 h2 hch x y
  cases hl : sampleLoc dst1.format ch x y with
  | none =>
    rw [hl] at hs
    cases hl2 : sampleLoc dst2.format ch x y with
    | none => rw [sample, sample, hl, hl2]; rfl
    | some l => rw [hl2] at hs; cases hs
  | some l =>
    rw [hl] at hs
    cases hl2 : sampleLoc dst2.format ch x y with
    | none => rw [hl2] at hs; cases hs
    | some l2 =>
      rw [r1.sample hV1 hx hy hl, r2.sample hV2 (ew ▸ hx) (eh ▸ hy) hl2]
      have key := same_written (blk := cpuBlk c dst1.width) src1.format src1.color dst1.color h1 h2 V hch
      congr 1
      rw [← ef, ← ec, ← ecd, ← ew]
      simp only [quantize, h1, h2, key, maxSample, (rgb8 h1).2, (rgb8 h2).2, if_true, cellX, cellY, (rgb_cells h1).1, (rgb_cells h2).1,
        (rgb_cells h1).2, (rgb_cells h2).2]

end

/-- A BGR image and an RGBA image that is transparent, with the same colours, become the same NV12 image in ICtCp. -/
example (simd scalar : F32.Libm) : ∃ m1' m2',
    sample .NV12 [⟨⟨100, 12⟩, 6⟩, ⟨⟨120, 6⟩, 6⟩] m1' .U 3 1 = sample .NV12 [⟨⟨100, 12⟩, 6⟩, ⟨⟨120, 6⟩, 6⟩] m2' .U 3 1 := by
  let dst : Img := .raw .NV12 6 2 [⟨⟨100, 12⟩, 6⟩, ⟨⟨120, 6⟩, 6⟩] (.YUV ⟨.BT2100PQ, .BT2020, .ICtCpPQ, false⟩)
  obtain ⟨m1', r1⟩ := run_exists (c := Platform.avx2.ieee simd scalar) (platform_lawful _ _ _)
    (src := .raw .BGR 6 2 [⟨⟨0, 36⟩, 18⟩] (.RGB ⟨.SRGB, .BT709⟩)) (dst := dst) (sps := [⟨⟨0, 36⟩, 18⟩])
    (dps := [⟨⟨100, 12⟩, 6⟩, ⟨⟨120, 6⟩, 6⟩]) rfl rfl (planesDisjoint_of (by decide)) (separate_of (by decide))
    (uniform_of (by decide)) (by decide) (fun a => if a % 3 = 0 then 9 else 40)
  obtain ⟨m2', r2⟩ := run_exists (c := Platform.avx2.ieee simd scalar) (platform_lawful _ _ _)
    (src := .raw .RGBA 6 2 [⟨⟨0, 48⟩, 24⟩] (.RGB ⟨.SRGB, .BT709⟩)) (dst := dst) (sps := [⟨⟨0, 48⟩, 24⟩])
    (dps := [⟨⟨100, 12⟩, 6⟩, ⟨⟨120, 6⟩, 6⟩]) rfl rfl (planesDisjoint_of (by decide)) (separate_of (by decide))
    (uniform_of (by decide)) (by decide) (fun a => if a % 4 = 2 then 9 else if a % 4 = 3 then 0 else 40)
  have key : ∀ c, c = Chan.R ∨ c = .G ∨ c = .B → ∀ x < 6, ∀ y < 2,
      sample .BGR [⟨⟨0, 36⟩, 18⟩] (fun a => if a % 3 = 0 then 9 else 40) c x y =
        sample .RGBA [⟨⟨0, 48⟩, 24⟩] (fun a => if a % 4 = 2 then 9 else if a % 4 = 3 then 0 else 40) c x y := by
    rintro c (rfl | rfl | rfl) <;> decide +kernel
  exact ⟨m1', m2', C78_sources (ch := .U) (x := 3) (y := 1) r1 r2 rfl rfl rfl rfl rfl rfl rfl (fun c hc x y hx hy => key c hc x hx y hy) nofun (by decide)
    (by decide)⟩

/-- A 12-bit YUV image becomes the same colours in RGBA and BGR. -/
example (simd scalar : F32.Libm) (m : Mem) : ∃ m1' m2',
    sample .RGBA [⟨⟨100, 32⟩, 16⟩] m1' .G 3 1 = sample .BGR [⟨⟨100, 24⟩, 12⟩] m2' .G 3 1 := by
  obtain ⟨m1', r1⟩ := run_exists (c := Platform.avx512.ieee simd scalar) (platform_lawful _ _ _) (src := i012At 0)
    (dst := .raw .RGBA 4 2 [⟨⟨100, 32⟩, 16⟩] (.RGB ⟨.BT2100PQ, .BT2020⟩)) (sps := i012Planes 0)
    (dps := [⟨⟨100, 32⟩, 16⟩]) rfl rfl (planesDisjoint_of (by decide)) (separate_of (by decide))
    (uniform_of (by decide)) (by decide) m
  obtain ⟨m2', r2⟩ := run_exists (c := Platform.avx512.ieee simd scalar) (platform_lawful _ _ _) (src := i012At 0)
    (dst := .raw .BGR 4 2 [⟨⟨100, 24⟩, 12⟩] (.RGB ⟨.BT2100PQ, .BT2020⟩)) (sps := i012Planes 0)
    (dps := [⟨⟨100, 24⟩, 12⟩]) rfl rfl (planesDisjoint_of (by decide)) (separate_of (by decide))
    (uniform_of (by decide)) (by decide) m
  have hV := shown_depicts (f := .I012) (ps := i012Planes 0) (w := 4) (h := 2) (by decide) m
  exact ⟨m1', m2', C78_destinations (ch := .G) (x := 3) (y := 1) r1 r2 rfl rfl rfl rfl rfl rfl rfl hV hV nofun (by decide) (by decide)⟩

end Ezk.Props

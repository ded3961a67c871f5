import Verif.Proofs.Traversal
import Verif.Model.Convert

/-!
# `convert` as a whole: from images to the sources and visitors it builds
-/

namespace Ezk
open FOps Spec

variable {F : Type} [FOps F]

/-- The image passes `bounds_check` and has the planes `ps`. -/
structure Valid (t : Img) (ps : List Plane) : Prop where
  planes : t.planes = .ok ps
  fits : Fits t.format ps t.width t.height

theorem Valid.check {t : Img} {ps : List Plane} (hv : Valid t ps) : t.boundsCheck = .ok (.ok ()) := by
  unfold Img.boundsCheck
  rw [hv.planes]
  exact (boundsCheck_ok _ _ _ _).2 hv.fits

theorem valid_of_check {t : Img} (h : t.boundsCheck = .ok (.ok ())) : ∃ ps, Valid t ps := by
  unfold Img.boundsCheck at h
  cases hp : t.planes with
  | error e => rw [hp] at h; cases h
  | ok ps =>
    rw [hp] at h
    have h : t.format.boundsCheck ps t.width t.height = .ok (.ok ()) := h
    exact ⟨ps, hp, (boundsCheck_ok _ _ _ _).1 h⟩

theorem openPlanes_ok {t : Img} {ps : List Plane} (hv : Valid t ps) {n : Nat} (hn : n = planeCount t.format) :
    openPlanes n t = .ok (.ok (ps.take n)) := by
  rw [openPlanes, hv.check, ok_bind, hv.planes]
  dsimp only
  rw [ok_bind, readPlanes_eq, if_pos (by rw [hn]; exact hv.fits.1)]
  rfl

theorem openPlanes_error {t : Img} {e : BoundsCheckError} (h : t.boundsCheck = .ok (.error e)) (n : Nat) :
    openPlanes n t = .ok (.error (.boundsCheck e)) := by
  rw [openPlanes, h]; rfl

theorem openPlanes_fault {t : Img} {e : Fault} (h : t.boundsCheck = .error e) (n : Nat) :
    openPlanes n t = .error e := by
  rw [openPlanes, h]; rfl

theorem planes3 {f : PixelFormat} {ps : List Plane} {w h : Nat} (hf : Fits f ps w h) (hn : planeCount f = 3) :
    ∃ a b c rest, ps = a :: b :: c :: rest := by
  have := hf.1
  match ps with
  | a :: b :: c :: rest => exact ⟨a, b, c, rest, rfl⟩
  | [] | [_] | [_, _] => rw [hn] at this; simp at this

theorem planes2 {f : PixelFormat} {ps : List Plane} {w h : Nat} (hf : Fits f ps w h) (hn : planeCount f = 2) :
    ∃ a b rest, ps = a :: b :: rest := by
  have := hf.1
  match ps with
  | a :: b :: rest => exact ⟨a, b, rest, rfl⟩
  | [] | [_] => rw [hn] at this; simp at this

theorem planes1 {f : PixelFormat} {ps : List Plane} {w h : Nat} (hf : Fits f ps w h) (hn : planeCount f = 1) :
    ∃ a rest, ps = a :: rest := by
  have := hf.1
  match ps with
  | a :: rest => exact ⟨a, rest, rfl⟩
  | [] => rw [hn] at this; simp at this

section
variable {t : Img} {a b c : Plane} {rest : List Plane}

theorem I420Reader.new_ok (hv : Valid t (a :: b :: c :: rest)) (hn : planeCount t.format = 3) (P : Prim) :
    I420Reader.new (F := F) P t = .ok (.ok ⟨I420Reader.read ⟨P, a, b, c, maxValueForBits t.format.bitsPerComponent⟩⟩) := by
  rw [I420Reader.new, openPlanes_ok hv hn.symm]; rfl
theorem I422Reader.new_ok (hv : Valid t (a :: b :: c :: rest)) (hn : planeCount t.format = 3) (P : Prim) :
    I422Reader.new (F := F) P t = .ok (.ok ⟨I422Reader.read ⟨P, a, b, c, maxValueForBits t.format.bitsPerComponent⟩⟩) := by
  rw [I422Reader.new, openPlanes_ok hv hn.symm]; rfl
theorem I444Reader.new_ok (hv : Valid t (a :: b :: c :: rest)) (hn : planeCount t.format = 3) (P : Prim) :
    I444Reader.new (F := F) P t = .ok (.ok ⟨I444Reader.read ⟨P, a, b, c, maxValueForBits t.format.bitsPerComponent⟩⟩) := by
  rw [I444Reader.new, openPlanes_ok hv hn.symm]; rfl
theorem NV12Reader.new_ok (hv : Valid t (a :: b :: rest)) (hn : planeCount t.format = 2) (P : Prim) :
    NV12Reader.new (F := F) P t = .ok (.ok ⟨NV12Reader.read ⟨P, a, b, maxValueForBits t.format.bitsPerComponent⟩⟩) := by
  rw [NV12Reader.new, openPlanes_ok hv hn.symm]; rfl
theorem YUYVReader.new_ok (hv : Valid t (a :: rest)) (hn : planeCount t.format = 1) (P : Prim) :
    YUYVReader.new (F := F) P t = .ok (.ok ⟨YUYVReader.read ⟨P, a, maxValueForBits t.format.bitsPerComponent⟩⟩) := by
  rw [YUYVReader.new, openPlanes_ok hv hn.symm]; rfl
theorem RgbReader.new_ok (hv : Valid t (a :: rest)) (hn : planeCount t.format = 1) (rev : Bool) :
    RgbReader.new (F := F) rev t = .ok (.ok ⟨RgbReader.read ⟨rev, a, maxValueForBits t.format.bitsPerComponent⟩⟩) := by
  rw [RgbReader.new, openPlanes_ok hv hn.symm]; rfl
theorem RgbaReader.new_ok (hv : Valid t (a :: rest)) (hn : planeCount t.format = 1) (rev : Bool) :
    RgbaReader.new (F := F) rev t = .ok (.ok ⟨RgbaReader.read ⟨rev, a, maxValueForBits t.format.bitsPerComponent⟩⟩) := by
  rw [RgbaReader.new, openPlanes_ok hv hn.symm]; rfl

theorem i420Write_ok (hv : Valid t (a :: b :: c :: rest)) (hn : planeCount t.format = 3) (P : Prim) (s : I420Src F) :
    i420Write P t s = .ok (.ok ⟨t.width, t.height, i420Visitor P a b c (maxValueForBits t.format.bitsPerComponent) s⟩) := by
  rw [i420Write, openPlanes_ok hv hn.symm]; rfl
theorem i422Write_ok (hv : Valid t (a :: b :: c :: rest)) (hn : planeCount t.format = 3) (P : Prim) (s : I422Src F) :
    i422Write P t s = .ok (.ok ⟨t.width, t.height, i422Visitor P a b c (maxValueForBits t.format.bitsPerComponent) s⟩) := by
  rw [i422Write, openPlanes_ok hv hn.symm]; rfl
theorem i444Write_ok (hv : Valid t (a :: b :: c :: rest)) (hn : planeCount t.format = 3) (P : Prim) (s : I444Src F) :
    i444Write P t s = .ok (.ok ⟨t.width, t.height, i444Visitor P a b c (maxValueForBits t.format.bitsPerComponent) s⟩) := by
  rw [i444Write, openPlanes_ok hv hn.symm]; rfl
theorem nv12Write_ok (hv : Valid t (a :: b :: rest)) (hn : planeCount t.format = 2) (P : Prim) (s : I420Src F) :
    nv12Write P t s = .ok (.ok ⟨t.width, t.height, nv12Visitor P a b (maxValueForBits t.format.bitsPerComponent) s⟩) := by
  rw [nv12Write, openPlanes_ok hv hn.symm]; rfl
theorem yuyvWrite_ok (hv : Valid t (a :: rest)) (hn : planeCount t.format = 1) (P : Prim) (s : I422Src F) :
    yuyvWrite P t s = .ok (.ok ⟨t.width, t.height, yuyvVisitor P a (maxValueForBits t.format.bitsPerComponent) s⟩) := by
  rw [yuyvWrite, openPlanes_ok hv hn.symm]; rfl
theorem rgbWrite_ok (hv : Valid t (a :: rest)) (hn : planeCount t.format = 1) (rev : Bool) (s : RgbaSrc F) :
    rgbWrite rev t s = .ok (.ok ⟨t.width, t.height, rgbVisitor rev a (maxValueForBits t.format.bitsPerComponent) s⟩) := by
  rw [rgbWrite, openPlanes_ok hv hn.symm]; rfl
theorem rgbaWrite_ok (hv : Valid t (a :: rest)) (hn : planeCount t.format = 1) (rev : Bool) (s : RgbaSrc F) :
    rgbaWrite rev t s = .ok (.ok ⟨t.width, t.height, rgbaVisitor rev a (maxValueForBits t.format.bitsPerComponent) s⟩) := by
  rw [rgbaWrite, openPlanes_ok hv hn.symm]; rfl
end

/-! ## Chroma is constant on cells -/

/-- Both columns of a pixel pair use the same arithmetic. -/
def PairBlk (blk : Blk F) : Prop := ∀ X, blk.ar X = blk.ar (X / 2 * 2)

theorem cpuBlk_pair (c : Cpu F) {w : Nat} (hw : w % 2 = 0) : PairBlk (cpuBlk c w) := by
  intro X
  have hev := vectored_even (L := c.vec.LEN) hw
  rw [cpuBlk_ar, cpuBlk_ar]
  by_cases h : X < w - w % (c.vec.LEN * 2)
  · rw [if_pos h, if_pos (by omega)]
  · rw [if_neg h, if_neg (by omega)]

/-- Samples of one cell are the same sample. -/
theorem Seen.cellConst {f : PixelFormat} {ps : List Plane} {w h : Nat} {m : Mem} {V : Pic Nat} (hs : Seen f ps w h m V)
    (hf : Fits f ps w h) {c : Chan} (hc : c = .U ∨ c = .V) {X Y : Nat} (hX : X < w) (hY : Y < h)
    (h4 : isYuv f = true) : V c X Y = V c (X / hsub f * hsub f) (Y / vsub f * vsub f) := by
  have hX' : X / hsub f * hsub f ≤ X := Nat.div_mul_le_self _ _
  have hY' : Y / vsub f * vsub f ≤ Y := Nat.div_mul_le_self _ _
  obtain ⟨l, hl⟩ : ∃ l, sampleLoc f c X Y = some l := by
    rcases hc with rfl | rfl <;> cases f <;> first | exact ⟨_, rfl⟩ | cases h4
  have hl' : sampleLoc f c (X / hsub f * hsub f) (Y / vsub f * vsub f) = some l := by
    rw [← hl]
    rcases hc with rfl | rfl <;> cases f <;>
      simp only [sampleLoc, hsub, vsub, Option.some.injEq, Loc.mk.injEq, Nat.div_one, Nat.mul_one, and_true, true_and] <;>
      omega
  have hpl : l.plane < planeCount f := by
    clear hl'
    rcases hc with rfl | rfl <;> cases f <;> simp only [sampleLoc, Option.some.injEq, reduceCtorEq] at hl <;>
      subst hl <;> simp [planeCount]
  have hn := hf.1
  obtain ⟨p, hp⟩ : ∃ p, ps[l.plane]? = some p := ⟨ps[l.plane]'(by omega), List.getElem?_eq_getElem _⟩
  obtain ⟨p0, hp0⟩ : ∃ p, ps[0]? = some p := ⟨ps[0]'(by omega), List.getElem?_eq_getElem _⟩
  have e1 := hs c X Y l p p0 hX hY hl hp hp0
  have e2 := hs c _ _ l p p0 (Nat.lt_of_le_of_lt hX' hX) (Nat.lt_of_le_of_lt hY' hY) hl' hp hp0
  rw [← e1, ← e2]
  by_cases h4 : is444 f = true
  · have : Y / vsub f * vsub f = Y := by
      have : vsub f = 1 := by cases f <;> simp [is444] at h4 <;> rfl
      rw [this]; omega
    rw [this]
  · simp only [h4, false_and, Bool.false_eq_true]

theorem normalize_const22 {f : PixelFormat} {ps : List Plane} {w h : Nat} {m : Mem} {V : Pic Nat}
    (hs : Seen f ps w h m V) (hf : Fits f ps w h) {blk : Blk F} (hb : PairBlk blk) (hh : hsub f = 2) (hv : vsub f = 2)
    (hy : isYuv f = true) : Const22 (normalize blk.ar f V) w h := by
  intro X Y hX hY
  have e := fun c hc => hs.cellConst hf (c := c) hc hX hY hy
  simp only [hh, hv] at e
  simp only [normalize]
  rw [hb X, ← e .U (Or.inl rfl), ← e .V (Or.inr rfl)]
  exact ⟨rfl, rfl⟩

theorem normalize_const21 {f : PixelFormat} {ps : List Plane} {w h : Nat} {m : Mem} {V : Pic Nat}
    (hs : Seen f ps w h m V) (hf : Fits f ps w h) {blk : Blk F} (hb : PairBlk blk) (hh : hsub f = 2) (hv : vsub f = 1)
    (hy : isYuv f = true) : Const21 (normalize blk.ar f V) w h := by
  intro X Y hX hY
  have e := fun c hc => hs.cellConst hf (c := c) hc hX hY hy
  simp only [hh, hv, Nat.div_one, Nat.mul_one] at e
  simp only [normalize]
  rw [hb X, ← e .U (Or.inl rfl), ← e .V (Or.inr rfl)]
  exact ⟨rfl, rfl⟩

/-! ## The reading half -/

theorem bindE_ok {ε α β : Type} (a : α) (k : α → Exec (Except ε β)) : bindE (.ok (.ok a)) k = k a := rfl

/-- The colour information suits the format. -/
def ColorOk (f : PixelFormat) (c : ColorInfo) : Prop := isYuv f = true → ∃ i, c = .YUV i

/-- The families of formats. -/
theorem families (f : PixelFormat) :
    (f = .I420 ∨ f = .I010 ∨ f = .I012) ∨ (f = .I422 ∨ f = .I210 ∨ f = .I212) ∨ (f = .I444 ∨ f = .I410 ∨ f = .I412) ∨
    f = .NV12 ∨ f = .YUYV ∨ (f = .RGBA ∨ f = .BGRA) ∨ (f = .RGB ∨ f = .BGR) := by
  cases f <;> simp

theorem readAny_sound {src : Img} {ps : List Plane} (hv : Valid src ps) (hcol : ColorOk src.format src.color) :
    ∃ R : RgbaSrc F, readAnyToRgba src = .ok (.ok R) ∧
      ∀ (m : Mem) (V : Pic Nat) (blk : Blk F), PairBlk blk → Seen src.format ps src.width src.height m V →
        ReadSafe src.format ps src.width src.height →
        RgbaSound R m src.width src.height blk (readPic blk.ar src.format src.color V) := by
  have hfit := hv.fits
  rcases families src.format with hf | hf | hf | hf | hf | hf | hf
  · have hy : isYuv src.format = true := by rcases hf with e | e | e <;> rw [e] <;> rfl
    have hn : planeCount src.format = 3 := by rcases hf with e | e | e <;> rw [e] <;> rfl
    obtain ⟨i, hi⟩ := hcol hy
    obtain ⟨a, b, c, rest, rfl⟩ := planes3 hfit hn
    refine ⟨i420ToRgb i ⟨I420Reader.read ⟨primOf src.format, a, b, c, maxValueForBits src.format.bitsPerComponent⟩⟩, ?_, ?_⟩
    · have := I420Reader.new_ok (F := F) hv hn (primOf src.format)
      rcases hf with e | e | e <;> rw [e] at this <;> simp only [readAnyToRgba, e] <;>
        exact (congrArg (fun r => bindE r _) this).trans (by rw [hi]; rfl)
    · intro m V blk hb hs hr
      rw [hi, readPic]
      rw [if_pos hy]
      exact i420ToRgb_sound i (i420_sound hf hfit hs) (normalize_const22 hs hfit hb (by rcases hf with e | e | e <;> rw [e] <;> rfl) (by rcases hf with e | e | e <;> rw [e] <;> rfl) hy)
  · have hy : isYuv src.format = true := by rcases hf with e | e | e <;> rw [e] <;> rfl
    have hn : planeCount src.format = 3 := by rcases hf with e | e | e <;> rw [e] <;> rfl
    obtain ⟨i, hi⟩ := hcol hy
    obtain ⟨a, b, c, rest, rfl⟩ := planes3 hfit hn
    refine ⟨i422ToRgb i ⟨I422Reader.read ⟨primOf src.format, a, b, c, maxValueForBits src.format.bitsPerComponent⟩⟩, ?_, ?_⟩
    · have := I422Reader.new_ok (F := F) hv hn (primOf src.format)
      rcases hf with e | e | e <;> rw [e] at this <;> simp only [readAnyToRgba, e] <;>
        exact (congrArg (fun r => bindE r _) this).trans (by rw [hi]; rfl)
    · intro m V blk hb hs hr
      rw [hi, readPic]
      rw [if_pos hy]
      exact i422ToRgb_sound i (i422_sound hf hfit hs) (normalize_const21 hs hfit hb (by rcases hf with e | e | e <;> rw [e] <;> rfl) (by rcases hf with e | e | e <;> rw [e] <;> rfl) hy)
  · have hy : isYuv src.format = true := by rcases hf with e | e | e <;> rw [e] <;> rfl
    have hn : planeCount src.format = 3 := by rcases hf with e | e | e <;> rw [e] <;> rfl
    obtain ⟨i, hi⟩ := hcol hy
    obtain ⟨a, b, c, rest, rfl⟩ := planes3 hfit hn
    refine ⟨i444ToRgb i ⟨I444Reader.read ⟨primOf src.format, a, b, c, maxValueForBits src.format.bitsPerComponent⟩⟩, ?_, ?_⟩
    · have := I444Reader.new_ok (F := F) hv hn (primOf src.format)
      rcases hf with e | e | e <;> rw [e] at this <;> simp only [readAnyToRgba, e] <;>
        exact (congrArg (fun r => bindE r _) this).trans (by rw [hi]; rfl)
    · intro m V blk hb hs hr
      rw [hi, readPic]
      rw [if_pos hy]
      exact i444ToRgb_sound i (i444_sound hf hfit hr hs)
  · have hy : isYuv src.format = true := by have e := hf; rw [e]; rfl
    have hn : planeCount src.format = 2 := by have e := hf; rw [e]; rfl
    obtain ⟨i, hi⟩ := hcol hy
    obtain ⟨a, b, rest, rfl⟩ := planes2 hfit hn
    refine ⟨i420ToRgb i ⟨NV12Reader.read ⟨primOf src.format, a, b, maxValueForBits src.format.bitsPerComponent⟩⟩, ?_, ?_⟩
    · have := NV12Reader.new_ok (F := F) hv hn (primOf src.format)
      rw [hf] at this
      simp only [readAnyToRgba, hf]
      exact (congrArg (fun r => bindE r _) this).trans (by rw [hi]; rfl)
    · intro m V blk hb hs hr
      rw [hi, readPic]
      rw [if_pos hy]
      refine i420ToRgb_sound i ?_ (normalize_const22 hs hfit hb (by rw [hf]; rfl) (by rw [hf]; rfl) hy)
      rw [hf] at hs hfit ⊢
      exact nv12_sound hfit hs
  · have hy : isYuv src.format = true := by have e := hf; rw [e]; rfl
    have hn : planeCount src.format = 1 := by have e := hf; rw [e]; rfl
    obtain ⟨i, hi⟩ := hcol hy
    obtain ⟨a, rest, rfl⟩ := planes1 hfit hn
    refine ⟨i422ToRgb i ⟨YUYVReader.read ⟨primOf src.format, a, maxValueForBits src.format.bitsPerComponent⟩⟩, ?_, ?_⟩
    · have := YUYVReader.new_ok (F := F) hv hn (primOf src.format)
      rw [hf] at this
      simp only [readAnyToRgba, hf]
      exact (congrArg (fun r => bindE r _) this).trans (by rw [hi]; rfl)
    · intro m V blk hb hs hr
      rw [hi, readPic]
      rw [if_pos hy]
      refine i422ToRgb_sound i ?_ (normalize_const21 hs hfit hb (by rw [hf]; rfl) (by rw [hf]; rfl) hy)
      rw [hf] at hs hfit ⊢
      exact yuyv_sound hfit hs
  · have hn : planeCount src.format = 1 := by rcases hf with e | e <;> rw [e] <;> rfl
    obtain ⟨a, rest, rfl⟩ := planes1 hfit hn
    refine ⟨⟨RgbaReader.read ⟨isReverse src.format, a, maxValueForBits src.format.bitsPerComponent⟩⟩, ?_, ?_⟩
    · have := RgbaReader.new_ok (F := F) hv hn (isReverse src.format)
      rcases hf with e | e <;> rw [e] at this ⊢ <;> simp only [readAnyToRgba, e] <;> exact this
    · intro m V blk hb hs hr
      have := rgba_sound (blk := blk) hf hfit hs
      have hy : isYuv src.format = false := by rcases hf with e | e <;> rw [e] <;> rfl
      cases hc : src.color
      · rw [readPic]; exact this
      · rw [readPic, hy]; exact this
  · have hn : planeCount src.format = 1 := by rcases hf with e | e <;> rw [e] <;> rfl
    obtain ⟨a, rest, rfl⟩ := planes1 hfit hn
    refine ⟨⟨RgbReader.read ⟨isReverse src.format, a, maxValueForBits src.format.bitsPerComponent⟩⟩, ?_, ?_⟩
    · have := RgbReader.new_ok (F := F) hv hn (isReverse src.format)
      rcases hf with e | e <;> rw [e] at this ⊢ <;> simp only [readAnyToRgba, e] <;> exact this
    · intro m V blk hb hs hr
      have := rgb_sound (blk := blk) hf hfit hs
      have hy : isYuv src.format = false := by rcases hf with e | e <;> rw [e] <;> rfl
      cases hc : src.color
      · rw [readPic]; exact this
      · rw [readPic, hy]; exact this

/-! ## The writing half -/

/-- Like `writePic`, with the chroma of ICtCp 4:2:0 as the code computes it. -/
def writeBlk (blk : Blk F) (f : PixelFormat) (c : ColorInfo) (p : Pic F) : Pic F :=
  match c with
  | .YUV i => if isYuv f then encodeBlk blk f i p else p
  | .RGB _ => p

theorem rgbaToAny_sound {dst : Img} {ps : List Plane} (hv : Valid dst ps) (hcol : ColorOk dst.format dst.color)
    (R : RgbaSrc F) :
    ∃ v : Visitor F, rgbaToAny dst R = .ok (.ok ⟨dst.width, dst.height, v⟩) ∧
      ∀ (m : Mem) (blk : Blk F) (p : Pic F), RgbaSound R m dst.width dst.height blk p →
        VisitSound v dst.format ps m dst.width dst.height blk (writeBlk blk dst.format dst.color p) := by
  have hfit := hv.fits
  rcases families dst.format with hf | hf | hf | hf | hf | hf | hf
  · have hy : isYuv dst.format = true := by rcases hf with e | e | e <;> rw [e] <;> rfl
    have hn : planeCount dst.format = 3 := by rcases hf with e | e | e <;> rw [e] <;> rfl
    obtain ⟨i, hi⟩ := hcol hy
    obtain ⟨a, b, c, rest, rfl⟩ := planes3 hfit hn
    refine ⟨i420Visitor (primOf dst.format) a b c (maxValueForBits dst.format.bitsPerComponent) (rgbToI420 i R), ?_, ?_⟩
    · have := i420Write_ok hv hn (primOf dst.format) (rgbToI420 i R)
      rcases hf with e | e | e <;> rw [e] at this ⊢ <;> simp only [rgbaToAny, e, hi] <;> exact this
    · intro m blk p hs
      rw [hi, writeBlk]
      rw [if_pos hy]
      exact i420Visitor_sound hn (by rcases hf with e | e | e <;> rw [e] <;> rfl) (by rcases hf with e | e | e <;> rw [e] <;> rfl) hfit (rgbToI420_sound i (by rcases hf with e | e | e <;> rw [e] <;> rfl) hs)
  · have hy : isYuv dst.format = true := by rcases hf with e | e | e <;> rw [e] <;> rfl
    have hn : planeCount dst.format = 3 := by rcases hf with e | e | e <;> rw [e] <;> rfl
    obtain ⟨i, hi⟩ := hcol hy
    obtain ⟨a, b, c, rest, rfl⟩ := planes3 hfit hn
    refine ⟨i422Visitor (primOf dst.format) a b c (maxValueForBits dst.format.bitsPerComponent) (rgbToI422 i R), ?_, ?_⟩
    · have := i422Write_ok hv hn (primOf dst.format) (rgbToI422 i R)
      rcases hf with e | e | e <;> rw [e] at this ⊢ <;> simp only [rgbaToAny, e, hi] <;> exact this
    · intro m blk p hs
      rw [hi, writeBlk]
      rw [if_pos hy]
      exact i422Visitor_sound hn (by rcases hf with e | e | e <;> rw [e] <;> rfl) (by rcases hf with e | e | e <;> rw [e] <;> rfl) hfit (rgbToI422_sound i (by rcases hf with e | e | e <;> rw [e] <;> rfl) (by rcases hf with e | e | e <;> rw [e] <;> rfl) hs)
  · have hy : isYuv dst.format = true := by rcases hf with e | e | e <;> rw [e] <;> rfl
    have hn : planeCount dst.format = 3 := by rcases hf with e | e | e <;> rw [e] <;> rfl
    obtain ⟨i, hi⟩ := hcol hy
    obtain ⟨a, b, c, rest, rfl⟩ := planes3 hfit hn
    refine ⟨i444Visitor (primOf dst.format) a b c (maxValueForBits dst.format.bitsPerComponent) (rgbToI444 i R), ?_, ?_⟩
    · have := i444Write_ok hv hn (primOf dst.format) (rgbToI444 i R)
      rcases hf with e | e | e <;> rw [e] at this ⊢ <;> simp only [rgbaToAny, e, hi] <;> exact this
    · intro m blk p hs
      rw [hi, writeBlk]
      rw [if_pos hy]
      exact i444Visitor_sound hn (by rcases hf with e | e | e <;> rw [e] <;> rfl) (by rcases hf with e | e | e <;> rw [e] <;> rfl) hfit (rgbToI444_sound i (by rcases hf with e | e | e <;> rw [e] <;> rfl) hs)
  · have hy : isYuv dst.format = true := by have e := hf; rw [e]; rfl
    have hn : planeCount dst.format = 2 := by have e := hf; rw [e]; rfl
    obtain ⟨i, hi⟩ := hcol hy
    obtain ⟨a, b, rest, rfl⟩ := planes2 hfit hn
    refine ⟨nv12Visitor (primOf dst.format) a b (maxValueForBits dst.format.bitsPerComponent) (rgbToI420 i R), ?_, ?_⟩
    · have := nv12Write_ok hv hn (primOf dst.format) (rgbToI420 i R)
      rw [hf] at this ⊢
      simp only [rgbaToAny, hf, hi]
      exact this
    · intro m blk p hs
      rw [hi, writeBlk]
      rw [if_pos hy]
      have := rgbToI420_sound (f := dst.format) i (by have e := hf; rw [e]; rfl) hs
      rw [hf] at this hfit ⊢
      exact nv12Visitor_sound hfit this
  · have hy : isYuv dst.format = true := by have e := hf; rw [e]; rfl
    have hn : planeCount dst.format = 1 := by have e := hf; rw [e]; rfl
    obtain ⟨i, hi⟩ := hcol hy
    obtain ⟨a, rest, rfl⟩ := planes1 hfit hn
    refine ⟨yuyvVisitor (primOf dst.format) a (maxValueForBits dst.format.bitsPerComponent) (rgbToI422 i R), ?_, ?_⟩
    · have := yuyvWrite_ok hv hn (primOf dst.format) (rgbToI422 i R)
      rw [hf] at this ⊢
      simp only [rgbaToAny, hf, hi]
      exact this
    · intro m blk p hs
      rw [hi, writeBlk]
      rw [if_pos hy]
      have := rgbToI422_sound (f := dst.format) i (by have e := hf; rw [e]; rfl) (by have e := hf; rw [e]; rfl) hs
      rw [hf] at this hfit ⊢
      exact yuyvVisitor_sound hfit this
  · have hn : planeCount dst.format = 1 := by rcases hf with e | e <;> rw [e] <;> rfl
    obtain ⟨a, rest, rfl⟩ := planes1 hfit hn
    refine ⟨rgbaVisitor (isReverse dst.format) a (maxValueForBits dst.format.bitsPerComponent) R, ?_, ?_⟩
    · have := rgbaWrite_ok hv hn (isReverse dst.format) R
      rcases hf with e | e <;> rw [e] at this ⊢ <;> simp only [rgbaToAny, e] <;> exact this
    · intro m blk p hs
      have := rgbaVisitor_sound (blk := blk) hf hfit hs
      have hy : isYuv dst.format = false := by rcases hf with e | e <;> rw [e] <;> rfl
      cases hc : dst.color
      · rw [writeBlk]; exact this
      · rw [writeBlk, hy]; exact this
  · have hn : planeCount dst.format = 1 := by rcases hf with e | e <;> rw [e] <;> rfl
    obtain ⟨a, rest, rfl⟩ := planes1 hfit hn
    refine ⟨rgbVisitor (isReverse dst.format) a (maxValueForBits dst.format.bitsPerComponent) R, ?_, ?_⟩
    · have := rgbWrite_ok hv hn (isReverse dst.format) R
      rcases hf with e | e <;> rw [e] at this ⊢ <;> simp only [rgbaToAny, e] <;> exact this
    · intro m blk p hs
      have := rgbVisitor_sound (blk := blk) hf hfit hs
      have hy : isYuv dst.format = false := by rcases hf with e | e <;> rw [e] <;> rfl
      cases hc : dst.color
      · rw [writeBlk]; exact this
      · rw [writeBlk, hy]; exact this

/-! ## Same format and colour -/

theorem VisitSound.congr {v : Visitor F} {f : PixelFormat} {ps : List Plane} {m : Mem} {w h : Nat} {blk : Blk F}
    {p q : Pic F} (hs : VisitSound v f ps m w h blk p) (e : cellByte blk f p = cellByte blk f q) :
    VisitSound v f ps m w h blk q := by
  intro B x y hc
  obtain ⟨sts, ws, h1, h2, h3, h4⟩ := hs B x y hc
  exact ⟨sts, ws, h1, h2, e ▸ h3, h4⟩

theorem cellByte_withAlpha (blk : Blk F) (f : PixelFormat) (p : Pic F) :
    cellByte blk f (withAlpha f p) = cellByte blk f p := by
  funext i row col
  have key : withAlpha f p (cellOf f i row col).1 = p (cellOf f i row col).1 := by
    funext X Y
    rw [withAlpha, if_neg]
    rintro ⟨h1, h2⟩
    cases f <;> simp [hasAlpha] at h2 <;> simp only [cellOf] at h1 <;> revert h1 <;> (repeat' split) <;> simp
  simp only [cellByte, key]

theorem convertSame_sound {src dst : Img} {sps dps : List Plane} (hs : Valid src sps) (hd : Valid dst dps)
    (hfm : src.format = dst.format) (hw : src.width = dst.width) (hh : src.height = dst.height) :
    ∃ v : Visitor F, convertSameJob src dst = .ok (.ok ⟨dst.width, dst.height, v⟩) ∧
      ∀ (m : Mem) (V : Pic Nat) (blk : Blk F), Seen dst.format sps dst.width dst.height m V →
        ReadSafe dst.format sps dst.width dst.height →
        VisitSound v dst.format dps m dst.width dst.height blk (normalize blk.ar dst.format V) := by
  have sfit := hs.fits
  have dfit := hd.fits
  rw [hw, hh, hfm] at sfit
  rcases families dst.format with hf | hf | hf | hf | hf | hf | hf
  · have hn : planeCount dst.format = 3 := by rcases hf with e | e | e <;> rw [e] <;> rfl
    obtain ⟨a, b, c, rest, rfl⟩ := planes3 sfit hn
    obtain ⟨a', b', c', rest', rfl⟩ := planes3 dfit hn
    refine ⟨i420Visitor (primOf dst.format) a' b' c' (maxValueForBits dst.format.bitsPerComponent)
      ⟨I420Reader.read ⟨primOf dst.format, a, b, c, maxValueForBits dst.format.bitsPerComponent⟩⟩, ?_, ?_⟩
    · have h1 := I420Reader.new_ok (F := F) hs (hfm ▸ hn) (primOf dst.format)
      have h2 := i420Write_ok (F := F) hd hn (primOf dst.format)
      rw [hfm] at h1
      rw [convertSameJob, if_neg (by rw [hfm]; simp), hfm]
      rcases hf with e | e | e <;> rw [e] at h1 h2 ⊢ <;> exact (congrArg (fun r => bindE r _) h1).trans (h2 _)
    · intro m V blk hs hr
      exact i420Visitor_sound hn (by rcases hf with e | e | e <;> rw [e] <;> rfl) (by rcases hf with e | e | e <;> rw [e] <;> rfl) dfit (i420_sound hf sfit hs)
  · have hn : planeCount dst.format = 3 := by rcases hf with e | e | e <;> rw [e] <;> rfl
    obtain ⟨a, b, c, rest, rfl⟩ := planes3 sfit hn
    obtain ⟨a', b', c', rest', rfl⟩ := planes3 dfit hn
    refine ⟨i422Visitor (primOf dst.format) a' b' c' (maxValueForBits dst.format.bitsPerComponent)
      ⟨I422Reader.read ⟨primOf dst.format, a, b, c, maxValueForBits dst.format.bitsPerComponent⟩⟩, ?_, ?_⟩
    · have h1 := I422Reader.new_ok (F := F) hs (hfm ▸ hn) (primOf dst.format)
      have h2 := i422Write_ok (F := F) hd hn (primOf dst.format)
      rw [hfm] at h1
      rw [convertSameJob, if_neg (by rw [hfm]; simp), hfm]
      rcases hf with e | e | e <;> rw [e] at h1 h2 ⊢ <;> exact (congrArg (fun r => bindE r _) h1).trans (h2 _)
    · intro m V blk hs hr
      exact i422Visitor_sound hn (by rcases hf with e | e | e <;> rw [e] <;> rfl) (by rcases hf with e | e | e <;> rw [e] <;> rfl) dfit (i422_sound hf sfit hs)
  · have hn : planeCount dst.format = 3 := by rcases hf with e | e | e <;> rw [e] <;> rfl
    obtain ⟨a, b, c, rest, rfl⟩ := planes3 sfit hn
    obtain ⟨a', b', c', rest', rfl⟩ := planes3 dfit hn
    refine ⟨i444Visitor (primOf dst.format) a' b' c' (maxValueForBits dst.format.bitsPerComponent)
      ⟨I444Reader.read ⟨primOf dst.format, a, b, c, maxValueForBits dst.format.bitsPerComponent⟩⟩, ?_, ?_⟩
    · have h1 := I444Reader.new_ok (F := F) hs (hfm ▸ hn) (primOf dst.format)
      have h2 := i444Write_ok (F := F) hd hn (primOf dst.format)
      rw [hfm] at h1
      rw [convertSameJob, if_neg (by rw [hfm]; simp), hfm]
      rcases hf with e | e | e <;> rw [e] at h1 h2 ⊢ <;> exact (congrArg (fun r => bindE r _) h1).trans (h2 _)
    · intro m V blk hs hr
      exact i444Visitor_sound hn (by rcases hf with e | e | e <;> rw [e] <;> rfl) (by rcases hf with e | e | e <;> rw [e] <;> rfl) dfit (i444_sound hf sfit hr hs)
  · have hn : planeCount dst.format = 2 := by have e := hf; rw [e]; rfl
    obtain ⟨a, b, rest, rfl⟩ := planes2 sfit hn
    obtain ⟨a', b', rest', rfl⟩ := planes2 dfit hn
    refine ⟨nv12Visitor (primOf dst.format) a' b' (maxValueForBits dst.format.bitsPerComponent)
      ⟨NV12Reader.read ⟨primOf dst.format, a, b, maxValueForBits dst.format.bitsPerComponent⟩⟩, ?_, ?_⟩
    · have h1 := NV12Reader.new_ok (F := F) hs (hfm ▸ hn) (primOf dst.format)
      have h2 := nv12Write_ok (F := F) hd hn (primOf dst.format)
      rw [hfm] at h1
      rw [convertSameJob, if_neg (by rw [hfm]; simp), hfm]
      rw [hf] at h1 h2 ⊢; exact (congrArg (fun r => bindE r _) h1).trans (h2 _)
    · intro m V blk hs hr
      rw [hf] at hs sfit dfit ⊢
      exact nv12Visitor_sound dfit (nv12_sound sfit hs)
  · have hn : planeCount dst.format = 1 := by have e := hf; rw [e]; rfl
    obtain ⟨a, rest, rfl⟩ := planes1 sfit hn
    obtain ⟨a', rest', rfl⟩ := planes1 dfit hn
    refine ⟨yuyvVisitor (primOf dst.format) a' (maxValueForBits dst.format.bitsPerComponent)
      ⟨YUYVReader.read ⟨primOf dst.format, a, maxValueForBits dst.format.bitsPerComponent⟩⟩, ?_, ?_⟩
    · have h1 := YUYVReader.new_ok (F := F) hs (hfm ▸ hn) (primOf dst.format)
      have h2 := yuyvWrite_ok (F := F) hd hn (primOf dst.format)
      rw [hfm] at h1
      rw [convertSameJob, if_neg (by rw [hfm]; simp), hfm]
      rw [hf] at h1 h2 ⊢; exact (congrArg (fun r => bindE r _) h1).trans (h2 _)
    · intro m V blk hs hr
      rw [hf] at hs sfit dfit ⊢
      exact yuyvVisitor_sound dfit (yuyv_sound sfit hs)
  · have hn : planeCount dst.format = 1 := by rcases hf with e | e <;> rw [e] <;> rfl
    obtain ⟨a, rest, rfl⟩ := planes1 sfit hn
    obtain ⟨a', rest', rfl⟩ := planes1 dfit hn
    refine ⟨rgbaVisitor (isReverse dst.format) a' (maxValueForBits dst.format.bitsPerComponent)
      ⟨RgbaReader.read ⟨isReverse dst.format, a, maxValueForBits dst.format.bitsPerComponent⟩⟩, ?_, ?_⟩
    · have h1 := RgbaReader.new_ok (F := F) hs (hfm ▸ hn) (isReverse dst.format)
      have h2 := rgbaWrite_ok (F := F) hd hn (isReverse dst.format)
      rw [hfm] at h1
      rw [convertSameJob, if_neg (by rw [hfm]; simp), hfm]
      rcases hf with e | e <;> rw [e] at h1 h2 ⊢ <;> exact (congrArg (fun r => bindE r _) h1).trans (h2 _)
    · intro m V blk hs hr
      exact (rgbaVisitor_sound hf dfit (rgba_sound hf sfit hs)).congr (cellByte_withAlpha ..)
  · have hn : planeCount dst.format = 1 := by rcases hf with e | e <;> rw [e] <;> rfl
    obtain ⟨a, rest, rfl⟩ := planes1 sfit hn
    obtain ⟨a', rest', rfl⟩ := planes1 dfit hn
    refine ⟨rgbVisitor (isReverse dst.format) a' (maxValueForBits dst.format.bitsPerComponent)
      ⟨RgbReader.read ⟨isReverse dst.format, a, maxValueForBits dst.format.bitsPerComponent⟩⟩, ?_, ?_⟩
    · have h1 := RgbReader.new_ok (F := F) hs (hfm ▸ hn) (isReverse dst.format)
      have h2 := rgbWrite_ok (F := F) hd hn (isReverse dst.format)
      rw [hfm] at h1
      rw [convertSameJob, if_neg (by rw [hfm]; simp), hfm]
      rcases hf with e | e <;> rw [e] at h1 h2 ⊢ <;> exact (congrArg (fun r => bindE r _) h1).trans (h2 _)
    · intro m V blk hs hr
      exact (rgbVisitor_sound hf dfit (rgb_sound hf sfit hs)).congr (cellByte_withAlpha ..)

end Ezk

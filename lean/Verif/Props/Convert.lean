import Verif.Proofs.AsRead

/-!
# Properties of `convert`

`sps`, `dps` are the planes that the images hand out (`ImageRef::planes`).  `PlanesDisjoint` and `Separate` are what
Rust's borrow rules guarantee for `&mut [u8]` and `&[u8]`.  `UniformStrides` excludes 4:4:4 sources with planes of
different strides: for those the claims are false, as shown below.
-/

namespace Ezk.Props
open FOps Spec

variable {F : Type} [FOps F]

/-! ## C10: memory safety -/

/-- **C10** (partial: not for 4:4:4 sources whose planes have different strides). `convert` never reads or writes
through a raw pointer outside of a plane, whatever the images are (valid or not). -/
theorem C10_memory_safe_partial {c : Cpu F} (hc : c.vec.Lawful) (src dst : Img)
    (hu : ∀ sps, src.planes = .ok sps → UniformStrides src.format sps) (m : Mem) :
    convert c src dst m ≠ .error .ub := by
  intro h
  cases hv : verdict src dst with
  | error e =>
    rw [convert_of_fault hv] at h
    injection h with h
    exact verdict_panics src dst (by rw [hv, h])
  | ok r =>
    cases r with
    | error e => rw [convert_of_verdict hv] at h; cases h
    | ok _ =>
      obtain ⟨⟨sps, v1⟩, ⟨dps, v2⟩, _⟩ := verdict_ok hv
      have hr := returned_of_verdict hv v1.planes v2.planes
      obtain ⟨m', h1, _⟩ := convert_frame hc hr.vsrc hr.vdst hr.width hr.height hr.evenW hr.evenH hr.colors
        (readSafe_of_uniform hr.sfits (hu _ v1.planes)) m
      rw [h1] at h; cases h

/-- A 2×2 I444 source with a padded Y plane (stride 4) and packed U and V planes. -/
def skewedSource : Img := .raw .I444 2 2 [⟨⟨0, 8⟩, 4⟩, ⟨⟨8, 4⟩, 2⟩, ⟨⟨12, 4⟩, 2⟩] (.YUV ⟨.SDR, .BT709, .BT709, true⟩)

/-- A 2×2 RGB destination. -/
def rgbTarget : Img := .raw .RGB 2 2 [⟨⟨100, 12⟩, 6⟩] (.RGB ⟨.SDR, .BT709⟩)

/-- **C10** is false for 4:4:4 sources in general: `skewedSource` passes `bounds_check`, and converting it reads past
the end of its U plane, because `I444Reader` uses the stride of Y for the second row of U and V. -/
theorem C10_skewed_source_ub (ar sar : Arith F) (m : Mem) :
    skewedSource.boundsCheck = .ok (.ok ()) ∧ rgbTarget.boundsCheck = .ok (.ok ()) ∧
      convert ⟨scalarBackend ar, sar⟩ skewedSource rgbTarget m = .error .ub := by
  refine ⟨by decide, by decide, by with_unfolding_all rfl⟩

/-- A 4×2 RGB source with 2 bytes of padding per row and a 4×2 I420 destination, also padded, used below to show that
the hypotheses of the theorems can be met. -/
def demoSrc : Img := .raw .RGB 4 2 [⟨⟨0, 28⟩, 14⟩] (.RGB ⟨.SRGB, .BT709⟩)
def demoDst : Img := .raw .I420 4 2 [⟨⟨100, 10⟩, 5⟩, ⟨⟨200, 3⟩, 3⟩, ⟨⟨300, 7⟩, 4⟩] (.YUV ⟨.BT2100PQ, .BT2020, .BT2020, false⟩)
def demoDstPlanes : List Plane := [⟨⟨100, 10⟩, 5⟩, ⟨⟨200, 3⟩, 3⟩, ⟨⟨300, 7⟩, 4⟩]

theorem demo_disjoint : PlanesDisjoint demoDst.format demoDstPlanes := by
  intro i j p q hi hj hij hp hq a h1 h2 h3 h4
  have hi : i < 3 := hi
  have hj : j < 3 := hj
  obtain rfl | rfl | rfl : i = 0 ∨ i = 1 ∨ i = 2 := by omega
  all_goals
    obtain rfl | rfl | rfl : j = 0 ∨ j = 1 ∨ j = 2 := by omega
    all_goals first
      | exact hij rfl
      | (simp only [demoDstPlanes, List.getElem?_cons_zero, List.getElem?_cons_succ, Option.some.injEq] at hp hq
         subst hp hq
         dsimp only at h1 h2 h3 h4
         omega)

theorem demo_separate : Separate demoSrc.format [⟨⟨0, 28⟩, 14⟩] demoDst.format demoDstPlanes := by
  intro i j p q hi hj hp hq a h1 h2 h3 h4
  have hi : i < 1 := hi
  have hj : j < 3 := hj
  obtain rfl : i = 0 := by omega
  obtain rfl | rfl | rfl : j = 0 ∨ j = 1 ∨ j = 2 := by omega
  all_goals
    simp only [demoDstPlanes, List.getElem?_cons_zero, List.getElem?_cons_succ, Option.some.injEq] at hp hq
    subst hp hq
    dsimp only at h1 h2 h3 h4
    omega

theorem demo_uniform : UniformStrides demoSrc.format [⟨⟨0, 28⟩, 14⟩] := fun h => by simp [demoSrc, Img.format, isYuv] at h

example (ar : Arith F) (m : Mem) : convert ⟨scalarBackend ar, ar⟩ demoSrc demoDst m ≠ .error .ub :=
  C10_memory_safe_partial (scalar_lawful ar) demoSrc demoDst (fun _ h => by cases h; exact demo_uniform) m

/-! ## C11: no panic -/

/-- **C11** (partial: not for 4:4:4 sources whose planes have different strides). Valid images of the same even size:
`convert` returns `Ok` or `InvalidColorInfo`. -/
theorem C11_no_panic_partial {c : Cpu F} (hc : c.vec.Lawful) (src dst : Img) (hs : src.boundsCheck = .ok (.ok ()))
    (hd : dst.boundsCheck = .ok (.ok ())) (hw : src.width = dst.width) (hh : src.height = dst.height)
    (ew : src.width % 2 = 0) (eh : src.height % 2 = 0)
    (hu : ∀ sps, src.planes = .ok sps → UniformStrides src.format sps) (m : Mem) :
    ∃ r m', convert c src dst m = .ok (r, m') ∧ (r = .ok () ∨ r = .error .invalidColorInfo) := by
  have cs : checkBounds src = .ok (.ok ()) := by rw [checkBounds, hs]; rfl
  have cd : checkBounds dst = .ok (.ok ()) := by rw [checkBounds, hd]; rfl
  have cc : ∀ t, checkColor t = .ok (.ok ()) ∨ checkColor t = .ok (.error .invalidColorInfo) := by
    intro t; rw [checkColor]; split <;> simp
  have hv : verdict src dst = .ok (.ok ()) ∨ verdict src dst = .ok (.error .invalidColorInfo) := by
    rw [verdict, if_neg (by omega), if_neg (by omega), cs, cd]
    split
    · exact Or.inl rfl
    · rcases cc src with h1 | h1 <;> rcases cc dst with h2 | h2 <;> rw [h1, h2] <;>
        first | exact Or.inl rfl | exact Or.inr rfl
  rcases hv with hv | hv
  · obtain ⟨sps, v1⟩ := valid_of_check hs
    obtain ⟨dps, v2⟩ := valid_of_check hd
    have hr := returned_of_verdict hv v1.planes v2.planes
    obtain ⟨m', h1, _⟩ := convert_frame hc hr.vsrc hr.vdst hr.width hr.height hr.evenW hr.evenH hr.colors
      (readSafe_of_uniform hr.sfits (hu _ v1.planes)) m
    exact ⟨_, _, h1, Or.inl rfl⟩
  · exact ⟨_, _, convert_of_verdict hv, Or.inr rfl⟩

example (ar : Arith F) (m : Mem) :
    ∃ r m', convert ⟨scalarBackend ar, ar⟩ demoSrc demoDst m = .ok (r, m') ∧ (r = .ok () ∨ r = .error .invalidColorInfo) :=
  C11_no_panic_partial (scalar_lawful ar) demoSrc demoDst (by decide) (by decide) rfl rfl rfl rfl
    (fun _ h => by cases h; exact demo_uniform) m

/-- A 2×2 I444 source whose Y plane has a much larger stride. -/
def verySkewedSource : Img :=
  .raw .I444 2 2 [⟨⟨0, 20⟩, 10⟩, ⟨⟨20, 4⟩, 2⟩, ⟨⟨24, 4⟩, 2⟩] (.YUV ⟨.SDR, .BT709, .BT709, true⟩)

/-- **C11** is false for 4:4:4 sources in general: this one is valid and the conversion panics. -/
theorem C11_skewed_source_panics (ar sar : Arith F) (m : Mem) :
    verySkewedSource.boundsCheck = .ok (.ok ()) ∧ rgbTarget.boundsCheck = .ok (.ok ()) ∧
      convert ⟨scalarBackend ar, sar⟩ verySkewedSource rgbTarget m = .error (.panic .index) := by
  refine ⟨by decide, by decide, by with_unfolding_all rfl⟩

/-! ## C12, C13: results -/

/-- **C12**: what `convert` returns is the verdict. -/
theorem C12_returns_verdict {c : Cpu F} {src dst : Img} {m m' : Mem} {r : Except ConvertError Unit}
    (h : convert c src dst m = .ok (r, m')) : verdict src dst = .ok r :=
  (convert_report h).1

/-- **C12**: if the verdict is an error then `convert` returns it; if finding out panics then `convert` panics. -/
theorem C12_error_iff {c : Cpu F} {src dst : Img} {m : Mem} (e : ConvertError) :
    (∃ m', convert c src dst m = .ok (.error e, m')) ↔ verdict src dst = .ok (.error e) :=
  ⟨fun ⟨_, h⟩ => (convert_report h).1, fun h => ⟨m, convert_of_verdict h⟩⟩

/-- **C12**: otherwise it returns `Ok`. -/
theorem C12_ok_iff_partial {c : Cpu F} (hc : c.vec.Lawful) {src dst : Img} {m : Mem}
    (hu : ∀ sps, src.planes = .ok sps → UniformStrides src.format sps) :
    (∃ m', convert c src dst m = .ok (.ok (), m')) ↔ verdict src dst = .ok (.ok ()) := by
  refine ⟨fun ⟨_, h⟩ => (convert_report h).1, fun hv => ?_⟩
  obtain ⟨⟨sps, v1⟩, ⟨dps, v2⟩, _⟩ := verdict_ok hv
  have hr := returned_of_verdict hv v1.planes v2.planes
  obtain ⟨m', h1, _⟩ := convert_frame hc hr.vsrc hr.vdst hr.width hr.height hr.evenW hr.evenH hr.colors
    (readSafe_of_uniform hr.sfits (hu _ v1.planes)) m
  exact ⟨m', h1⟩

/-- **C12**: `MismatchedImageSize` iff the sizes differ. -/
theorem C12_mismatch_iff {c : Cpu F} {src dst : Img} {m : Mem} :
    (∃ m', convert c src dst m = .ok (.error .mismatchedImageSize, m')) ↔
      src.width ≠ dst.width ∨ src.height ≠ dst.height := by
  rw [C12_error_iff, verdict]
  have cb : ∀ t vs, firstProblem (checkBounds t :: vs) = .ok (.error .mismatchedImageSize) →
      firstProblem vs = .ok (.error .mismatchedImageSize) := by
    intro t vs h
    rw [checkBounds] at h
    rcases hb : t.boundsCheck with e | e | u <;> rw [hb] at h
    · cases h
    · cases h
    · exact h
  have cc : ∀ t vs, firstProblem (checkColor t :: vs) = .ok (.error .mismatchedImageSize) →
      firstProblem vs = .ok (.error .mismatchedImageSize) := by
    intro t vs h
    rw [checkColor] at h
    cases hy : isYuv t.format <;> cases ht : t.color <;> rw [hy, ht] at h <;> first | exact h | cases h
  constructor
  · intro h
    refine Decidable.byContradiction fun hn => ?_
    rw [if_neg hn] at h
    by_cases ho : src.width % 2 = 1 ∨ src.height % 2 = 1
    · rw [if_pos ho] at h; cases h
    · rw [if_neg ho] at h
      by_cases hsame : src.format = dst.format ∧ src.color = dst.color
      · rw [if_pos hsame] at h
        cases cb _ _ (cb _ _ h)
      · rw [if_neg hsame] at h
        cases cb _ _ (cc _ _ (cc _ _ (cb _ _ h)))
  · intro h
    rw [if_pos h]

/-- **C12**: `OddImageDimensions` iff the sizes agree and one of them is odd. -/
theorem C12_odd_iff {c : Cpu F} {src dst : Img} {m : Mem} :
    (∃ m', convert c src dst m = .ok (.error .oddImageDimensions, m')) ↔
      src.width = dst.width ∧ src.height = dst.height ∧ (src.width % 2 = 1 ∨ src.height % 2 = 1) := by
  rw [C12_error_iff, verdict]
  have cb : ∀ t vs, firstProblem (checkBounds t :: vs) = .ok (.error .oddImageDimensions) →
      firstProblem vs = .ok (.error .oddImageDimensions) := by
    intro t vs h
    rw [checkBounds] at h
    rcases hb : t.boundsCheck with e | e | u <;> rw [hb] at h
    · cases h
    · cases h
    · exact h
  have cc : ∀ t vs, firstProblem (checkColor t :: vs) = .ok (.error .oddImageDimensions) →
      firstProblem vs = .ok (.error .oddImageDimensions) := by
    intro t vs h
    rw [checkColor] at h
    cases hy : isYuv t.format <;> cases ht : t.color <;> rw [hy, ht] at h <;> first | exact h | cases h
  constructor
  · intro h
    by_cases hn : src.width ≠ dst.width ∨ src.height ≠ dst.height
    · rw [if_pos hn] at h; cases h
    · rw [if_neg hn] at h
      refine ⟨by omega, by omega, Decidable.byContradiction fun ho => ?_⟩
      rw [if_neg ho] at h
      by_cases hsame : src.format = dst.format ∧ src.color = dst.color
      · rw [if_pos hsame] at h
        cases cb _ _ (cb _ _ h)
      · rw [if_neg hsame] at h
        cases cb _ _ (cc _ _ (cc _ _ (cb _ _ h)))
  · rintro ⟨h1, h2, h3⟩
    rw [if_neg (by omega), if_pos h3]

example (ar : Arith F) (m : Mem) :
    ∃ m', convert ⟨scalarBackend ar, ar⟩ demoSrc demoDst m = .ok (.ok (), m') :=
  (C12_ok_iff_partial (scalar_lawful ar) (fun _ h => by cases h; exact demo_uniform)).2 (by decide)

/-- A planar source too small in its third plane and with unsuitable colour information: the plane is reported. -/
example : verdict (.raw .I420 4 2 [⟨⟨100, 10⟩, 5⟩, ⟨⟨200, 3⟩, 3⟩, ⟨⟨300, 3⟩, 4⟩] (.RGB ⟨.SDR, .BT709⟩)) demoSrc =
    .error (.panic .overflow) ∨ verdict
      (.raw .I420 4 2 [⟨⟨100, 10⟩, 5⟩, ⟨⟨200, 3⟩, 3⟩, ⟨⟨300, 3⟩, 4⟩] (.RGB ⟨.SDR, .BT709⟩)) demoSrc =
    .ok (.error (.boundsCheck (.invalidPlaneSize 2 4 3))) := Or.inr (by decide)

/-- **C13**: whenever `convert` returns an error, memory is as before. -/
theorem C13_error_leaves_memory {c : Cpu F} {src dst : Img} {m m' : Mem} {e : ConvertError}
    (h : convert c src dst m = .ok (.error e, m')) : m' = m :=
  (convert_report h).2 (by simp)

example (ar : Arith F) (m : Mem) :
    convert ⟨scalarBackend ar, ar⟩ demoSrc (.raw .I420 4 2 demoDstPlanes (.RGB ⟨.SDR, .BT709⟩)) m =
      .ok (.error .invalidColorInfo, m) := convert_of_verdict (by decide)

/-! ## C14: the result -/

/-- **C14** (partial: not for 4:4:4 sources whose planes have different strides, and not for 4:2:0 destinations with an
ICtCp colour space). After a successful conversion the destination shows the specified picture: every sample of every
pixel has the value obtained by decoding, changing the colour, encoding and quantising. -/
theorem C14_every_sample_partial {c : Cpu F} (hc : c.vec.Lawful) {src dst : Img} {sps dps : List Plane} {m m' : Mem}
    (hs : src.planes = .ok sps) (hd : dst.planes = .ok dps) (hdis : PlanesDisjoint dst.format dps)
    (hsep : Separate src.format sps dst.format dps) (hu : UniformStrides src.format sps)
    (hb : ¬ BadChroma src.format src.color dst.format dst.color) {V : Pic Nat}
    (hV : Depicts src.format sps src.width src.height m V) (h : convert c src dst m = .ok (.ok (), m')) :
    Depicts dst.format dps dst.width dst.height m'
      (converted (columnArith c dst.width) src.format src.color dst.format dst.color V) :=
  (returned h hs hd).depicts hc hu hdis hsep hV h hb

example (ar : Arith F) (m m' : Mem) (h : convert ⟨scalarBackend ar, ar⟩ demoSrc demoDst m = .ok (.ok (), m')) :
    Depicts .I420 demoDstPlanes 4 2 m' (converted (columnArith ⟨scalarBackend ar, ar⟩ 4) .RGB (.RGB ⟨.SRGB, .BT709⟩)
      .I420 (.YUV ⟨.BT2100PQ, .BT2020, .BT2020, false⟩) (shown .RGB [⟨⟨0, 28⟩, 14⟩] m)) :=
  C14_every_sample_partial (scalar_lawful ar) (src := demoSrc) (dst := demoDst) rfl rfl demo_disjoint demo_separate
    demo_uniform (by rintro ⟨_, _, i, hi, hm⟩; cases hi; cases hm) (shown_depicts (by decide) m) h

/-! ## C15: the rest of memory -/

/-- **C15**. Whatever `convert` returns, only bytes of samples of the destination change. (No assumption on overlap or
strides is needed.) -/
theorem C15_frame {c : Cpu F} (hc : c.vec.Lawful) {src dst : Img} {sps dps : List Plane} {m m' : Mem}
    {r : Except ConvertError Unit} (hs : src.planes = .ok sps) (hd : dst.planes = .ok dps)
    (h : convert c src dst m = .ok (r, m')) (a : Nat)
    (ha : ¬ SampleByte dst.format dps dst.width dst.height a) : m' a = m a := by
  cases r with
  | error e => rw [C13_error_leaves_memory h]
  | ok _ =>
    have hr := returned h hs hd
    obtain ⟨m1, h1, h2⟩ := convert_frame hc hr.vsrc hr.vdst hr.width hr.height hr.evenW hr.evenH hr.colors
      (readSafe_of_ok hc hr h) m
    rw [h] at h1
    injection h1 with h1
    injection h1 with _ h1
    rw [h1]; exact h2 a ha

/-- **C15**: in particular the source image is unchanged. -/
theorem C15_source_unchanged {c : Cpu F} (hc : c.vec.Lawful) {src dst : Img} {sps dps : List Plane} {m m' : Mem}
    {r : Except ConvertError Unit} (hs : src.planes = .ok sps) (hd : dst.planes = .ok dps)
    (hsep : Separate src.format sps dst.format dps)
    (h : convert c src dst m = .ok (r, m')) {i : Nat} {p : Plane} (hi : i < planeCount src.format)
    (hp : sps[i]? = some p) {a : Nat} (ha : p.slice.Has a) : m' a = m a := by
  cases r with
  | error e => rw [C13_error_leaves_memory h]
  | ok _ =>
    refine C15_frame hc hs hd h a ?_
    have hr := returned h hs hd
    rintro ⟨ch, x, y, l, b, k, hx, hy, hl, hb, hk, rfl⟩
    obtain ⟨b1, b2, b3⟩ := sampleLoc_bounds hl (HasCell.of_even hr.evenW hr.evenH hx hy)
    obtain ⟨q, hq⟩ := exists_plane hr.vdst.fits b1
    rw [locAddr, hq, Option.map_some, Option.some.injEq] at hb
    have hD : InDom dst.format dst.width dst.height l.plane l.row (l.col + k) := ⟨b1, b2, by omega⟩
    have hin := hD.inside hr.vdst.fits hq
    rw [Plane.at] at hin
    exact hsep i l.plane p q hi b1 hp hq (b + k) ha.1 ha.2 (by omega) (by omega)

/-- The fifth byte of the first row of the Y plane is padding. -/
example (ar : Arith F) (m m' : Mem) (h : convert ⟨scalarBackend ar, ar⟩ demoSrc demoDst m = .ok (.ok (), m')) :
    m' 104 = m 104 := by
  refine C15_frame (scalar_lawful ar) (src := demoSrc) (dst := demoDst) rfl rfl h 104 ?_
  rintro ⟨c, x, y, l, b, k, hx, hy, hl, hb, hk, e⟩
  have hx : x < 4 := hx
  have hy : y < 2 := hy
  have hk : k < 1 := hk
  cases c <;> simp only [demoDst, Img.format, sampleLoc, Option.some.injEq, reduceCtorEq] at hl <;> subst hl <;>
    simp only [demoDstPlanes, locAddr, List.getElem?_cons_zero, List.getElem?_cons_succ, Option.map_some,
      Option.some.injEq] at hb <;> omega

/-! ## C16: only the samples of the source matter -/

/-- **C16** (partial: not for 4:4:4 sources whose planes have different strides). Two sources showing the same picture
(whatever their strides, padding, placement, and whatever else is in memory) give destinations with the same samples,
whatever the layout of the destinations. -/
theorem C16_layout_independent_partial {c : Cpu F} (hc : c.vec.Lawful) {src1 src2 dst1 dst2 : Img}
    {sps1 sps2 dps1 dps2 : List Plane} {m1 m2 m1' m2' : Mem}
    (hs1 : src1.planes = .ok sps1) (hs2 : src2.planes = .ok sps2) (hd1 : dst1.planes = .ok dps1)
    (hd2 : dst2.planes = .ok dps2) (hdis1 : PlanesDisjoint dst1.format dps1) (hdis2 : PlanesDisjoint dst2.format dps2)
    (hsep1 : Separate src1.format sps1 dst1.format dps1) (hsep2 : Separate src2.format sps2 dst2.format dps2)
    (hu1 : UniformStrides src1.format sps1) (hu2 : UniformStrides src2.format sps2)
    (ef : src1.format = src2.format) (ec : src1.color = src2.color)
    (efd : dst1.format = dst2.format) (ecd : dst1.color = dst2.color) (ew : src1.width = src2.width)
    (eh : src1.height = src2.height) {V : Pic Nat} (hV1 : Depicts src1.format sps1 src1.width src1.height m1 V)
    (hV2 : Depicts src2.format sps2 src2.width src2.height m2 V) (h1 : convert c src1 dst1 m1 = .ok (.ok (), m1'))
    (h2 : convert c src2 dst2 m2 = .ok (.ok (), m2')) (ch : Chan) (x y : Nat) (hx : x < dst1.width)
    (hy : y < dst1.height) :
    sample dst1.format dps1 m1' ch x y = sample dst2.format dps2 m2' ch x y := by
  have r1 := returned h1 hs1 hd1
  have r2 := returned h2 hs2 hd2
  have p1 := r1.painted hc hu1 hdis1 hsep1 hV1 h1
  have p2 := r2.painted hc hu2 hdis2 hsep2 hV2 h2
  have w12 : dst2.width = dst1.width := by rw [← r1.width, ← r2.width, ew]
  have h12 : dst2.height = dst1.height := by rw [← r1.height, ← r2.height, eh]
  cases hl : sampleLoc dst1.format ch x y with
  | none => rw [sample, sample, ← efd, hl]; rfl
  | some l =>
    rw [painted_sample p1 r1.vdst.fits r1.evenW r1.evenH hx hy hl,
      painted_sample p2 r2.vdst.fits r2.evenW r2.evenH (w12 ▸ hx) (h12 ▸ hy) (efd ▸ hl)]
    rw [w12, ← ef, ← ec, ← efd, ← ecd]

/-- The demo source and an unpadded one elsewhere. -/
example (ar : Arith F) (m1 m2 m1' m2' : Mem)
    (hV2 : Depicts .RGB [⟨⟨0, 28⟩, 14⟩] 4 2 m2 (shown .RGB [⟨⟨0, 24⟩, 12⟩] m1))
    (h1 : convert ⟨scalarBackend ar, ar⟩ (.raw .RGB 4 2 [⟨⟨0, 24⟩, 12⟩] (.RGB ⟨.SRGB, .BT709⟩)) demoDst m1 = .ok (.ok (), m1'))
    (h2 : convert ⟨scalarBackend ar, ar⟩ demoSrc demoDst m2 = .ok (.ok (), m2')) :
    sample .I420 demoDstPlanes m1' .U 3 1 = sample .I420 demoDstPlanes m2' .U 3 1 :=
  C16_layout_independent_partial (scalar_lawful ar) (src1 := .raw .RGB 4 2 [⟨⟨0, 24⟩, 12⟩] (.RGB ⟨.SRGB, .BT709⟩))
    (src2 := demoSrc) (dst1 := demoDst) (dst2 := demoDst) rfl rfl rfl rfl demo_disjoint demo_disjoint
    (by
      intro i j p q hi hj hp hq a h1 h2
      have hi : i < 1 := hi
      obtain rfl : i = 0 := by omega
      simp only [List.getElem?_cons_zero, Option.some.injEq] at hp
      subst hp
      exact demo_separate 0 j ⟨⟨0, 28⟩, 14⟩ q hi hj rfl hq a h1 (by dsimp only at h2 ⊢; omega))
    demo_separate (fun h => by simp [Img.format, isYuv] at h) demo_uniform rfl rfl rfl rfl rfl rfl
    (shown_depicts (by decide) m1) hV2 h1 h2 _ _ _ (by decide) (by decide)

/-! ## C18: vector length -/

/-- **C18** (partial: not for 4:2:0 destinations with an ICtCp colour space). Two CPUs that use the same arithmetic for every column give the same memory, whatever their
vector lengths. -/
theorem C18_width_independent_partial {c1 c2 : Cpu F} (hc1 : c1.vec.Lawful) (hc2 : c2.vec.Lawful) {src dst : Img}
    {sps dps : List Plane} {m m1 m2 : Mem} (har : columnArith c1 dst.width = columnArith c2 dst.width)
    (hs : src.planes = .ok sps) (hd : dst.planes = .ok dps)
    (hdis : PlanesDisjoint dst.format dps) (hsep : Separate src.format sps dst.format dps)
    (hb : ¬ BadChroma src.format src.color dst.format dst.color)
    (h1 : convert c1 src dst m = .ok (.ok (), m1)) (h2 : convert c2 src dst m = .ok (.ok (), m2)) : m1 = m2 := by
  have p1 := Done.painted ⟨hc1, hs, hd, hdis, hsep, h1⟩
  have p2 := Done.painted ⟨hc2, hs, hd, hdis, hsep, h2⟩
  rw [floatBlk_eq hb] at p1 p2
  refine painted_unique p1 p2 fun i row col _ => ?_
  simp only [cellByte, cpuBlk_columnArith, har]

/-- **C18**: one arithmetic for vectors and for the rest, e.g. two vector lengths of the same instruction set. -/
theorem C18_same_arith_partial {c1 c2 : Cpu F} (hc1 : c1.vec.Lawful) (hc2 : c2.vec.Lawful) {src dst : Img}
    {sps dps : List Plane} {m m1 m2 : Mem} (a : Arith F) (a1 : c1.vec.ar = a) (a2 : c2.vec.ar = a)
    (b1 : (scalarBackend c1.sar).ar = a) (b2 : (scalarBackend c2.sar).ar = a)
    (hs : src.planes = .ok sps) (hd : dst.planes = .ok dps)
    (hdis : PlanesDisjoint dst.format dps) (hsep : Separate src.format sps dst.format dps)
    (hb : ¬ BadChroma src.format src.color dst.format dst.color)
    (h1 : convert c1 src dst m = .ok (.ok (), m1)) (h2 : convert c2 src dst m = .ok (.ok (), m2)) : m1 = m2 := by
  refine C18_width_independent_partial hc1 hc2 ?_ hs hd hdis hsep hb h1 h2
  funext x
  simp only [columnArith, a1, a2, b1, b2]
  split <;> split <;> rfl

end Ezk.Props

import Verif.Proofs.Copy
import Verif.Proofs.Demo
import Verif.Props.Threads

/-!
# C36: `copy`
-/

namespace Ezk.Props
open Spec

/-- Two images that `copy` accepts. -/
structure CanCopy (src dst : Img) : Prop where
  width : src.width = dst.width
  height : src.height = dst.height
  evenW : src.width % 2 = 0
  evenH : src.height % 2 = 0
  format : src.format = dst.format
  src : src.boundsCheck = .ok (.ok ())
  dst : dst.boundsCheck = .ok (.ok ())

theorem copy_checks {src dst : Img} {m m' : Mem} (h : copyImpl src dst m = .ok (.ok (), m')) : CanCopy src dst := by
  rw [copyImpl_eq] at h
  by_cases h1 : src.width ≠ dst.width ∨ src.height ≠ dst.height
  · rw [if_pos h1] at h; cases h
  rw [if_neg h1] at h
  by_cases h2 : src.width % 2 = 1 ∨ src.height % 2 = 1
  · rw [if_pos h2] at h; cases h
  rw [if_neg h2] at h
  by_cases h3 : src.format ≠ dst.format
  · rw [if_pos h3] at h; cases h
  rw [if_neg h3] at h
  simp only [firstProblem, checkBounds] at h
  rcases e1 : src.boundsCheck with e | (e | _)
  · rw [e1] at h; cases h
  · rw [e1] at h; cases h
  rcases e2 : dst.boundsCheck with e | (e | _)
  · rw [e1, e2] at h; cases h
  · rw [e1, e2] at h; cases h
  exact ⟨by omega, by omega, by omega, by omega, by simpa using h3, e1, e2⟩

theorem copy_run {src dst : Img} {sps dps : List Plane} (hc : CanCopy src dst) (es : src.planes = .ok sps)
    (ed : dst.planes = .ok dps) (m : Mem) :
    copyImpl src dst m = (do
      let m ← copyPlanes src.width (src.format.planeDesc.zip (sps.zip dps)) m
      return (.ok (), m)) := by
  rw [copyImpl_eq, if_neg (by have := hc.width; have := hc.height; omega),
    if_neg (by have := hc.evenW; have := hc.evenH; omega), if_neg (by simpa using hc.format)]
  simp only [firstProblem, checkBounds, hc.src, hc.dst, es, ed]
  rfl

/-- The planes are usable: the bounds check holds and no stride is zero. -/
theorem copyable {src dst : Img} {sps dps : List Plane} (hc : CanCopy src dst) (es : src.planes = .ok sps)
    (ed : dst.planes = .ok dps)
    (hpos : ∀ i < planeCount src.format, ∀ s d, sps[i]? = some s → dps[i]? = some d → 0 < s.stride ∧ 0 < d.stride)
    (hdis : PlanesDisjoint dst.format dps) (hsep : Separate src.format sps dst.format dps) (m : Mem) :
    ∃ m', copyPlanes src.width (src.format.planeDesc.zip (sps.zip dps)) m = .ok m' ∧
      PlanesCopied (fun i => rowBytes src.format i src.width) sps dps (planeCount src.format) m m' := by
  obtain ⟨vs1, vs2⟩ := (valid_of hc.src es).fits
  obtain ⟨vd1, vd2⟩ := (valid_of hc.dst ed).fits
  have := copyPlanes_ok (w := src.width) src.format.planeDesc (fun i => rowBytes src.format i src.width) sps dps m
    (by rw [planeDesc_length]; exact vs1) (by rw [planeDesc_length, hc.format]; exact vd1) ?_ ?_ ?_
  · rwa [planeDesc_length] at this
  · intro i desc s d hi hs hd
    have ho := planeDesc_ok _ _ _ hi
    have f1 := vs2 i ho.idx s hs
    have f2 := vd2 i (hc.format ▸ ho.idx) d hd
    refine ⟨by rw [ho.packed, if_pos f1.packed_usize], f1.stride_ge, ?_, (hpos i ho.idx s d hs hd).1, (hpos i ho.idx s d hs hd).2⟩
    have := f2.stride_ge
    rwa [← hc.format, ← hc.width] at this
  · intro i j s d hi hj hs hd
    rw [planeDesc_length] at hi hj
    exact hsep i j s d hi (hc.format ▸ hj) hs hd
  · intro i j p q hi hj hij hp hq
    rw [planeDesc_length] at hi hj
    exact hdis i j p q (hc.format ▸ hi) (hc.format ▸ hj) hij hp hq

/-- What a successful copy has done. -/
theorem copied {src dst : Img} {sps dps : List Plane} {m m' : Mem} (h : copyImpl src dst m = .ok (.ok (), m'))
    (es : src.planes = .ok sps) (ed : dst.planes = .ok dps) (hdis : PlanesDisjoint dst.format dps)
    (hsep : Separate src.format sps dst.format dps) :
    CanCopy src dst ∧ PlanesCopied (fun i => rowBytes src.format i src.width) sps dps (planeCount src.format) m m' := by
  have hc := copy_checks h
  rw [copy_run hc es ed] at h
  cases hr : copyPlanes src.width (src.format.planeDesc.zip (sps.zip dps)) m with
  | error e => rw [hr] at h; cases h
  | ok m1 =>
    rw [hr] at h
    cases h
    obtain ⟨m2, h1, h2⟩ := copyable hc es ed (fun i hi s d hs hd =>
      copyPlanes_strides _ _ _ _ _ hr i s d (by rw [planeDesc_length]; exact hi) hs hd) hdis hsep m
    rw [hr] at h1
    cases h1
    exact ⟨hc, h2⟩

theorem fit_rows {f : PixelFormat} {w h i : Nat} {p : Plane} (hp : PlaneFits f w h i p) (h0 : 0 < p.stride) :
    rowCount f i h ≤ p.slice.len / p.stride := by
  rw [Nat.le_div_iff_mul_le h0, Nat.mul_comm]; exact hp.size_le

/-- **C36**: after `copy` every sample of the destination has the value of that sample of the source. The hypotheses
are what Rust's borrow rules guarantee. -/
theorem C36_samples {src dst : Img} {sps dps : List Plane} {m m' : Mem} (h : copyImpl src dst m = .ok (.ok (), m'))
    (es : src.planes = .ok sps) (ed : dst.planes = .ok dps) (hdis : PlanesDisjoint dst.format dps)
    (hsep : Separate src.format sps dst.format dps) (c : Chan) {x y : Nat} (hx : x < dst.width) (hy : y < dst.height) :
    sample dst.format dps m' c x y = sample src.format sps m c x y := by
  obtain ⟨hc, hp⟩ := copied h es ed hdis hsep
  obtain ⟨vs1, vs2⟩ := (valid_of hc.src es).fits
  obtain ⟨vd1, vd2⟩ := (valid_of hc.dst ed).fits
  rw [← hc.format] at vd1 vd2 ⊢
  rw [← hc.width] at hx
  rw [← hc.height] at hy
  rw [sample, sample]
  cases hl : sampleLoc src.format c x y with
  | none => rfl
  | some l =>
    obtain ⟨b1, b2, b3⟩ := sampleLoc_bounds hl (HasCell.of_even hc.evenW hc.evenH hx hy)
    have e1 : sps[l.plane]? = some (sps[l.plane]'(by omega)) := List.getElem?_eq_getElem _
    have e2 : dps[l.plane]? = some (dps[l.plane]'(by omega)) := List.getElem?_eq_getElem _
    have f1 := vs2 _ b1 _ e1
    have f2 := vd2 _ b1 _ e2
    simp only [Option.bind_some, locAddr, e1, e2, Option.map_some]
    generalize sps[l.plane]'(by omega) = s at *
    generalize dps[l.plane]'(by omega) = d at *
    have hB : 0 < sampleBytes src.format := by cases src.format <;> decide
    have p1 : 0 < s.stride := by have := f1.stride_ge; omega
    have p2 : 0 < d.stride := by have := f2.stride_ge; rw [← hc.width] at this; omega
    have hr : l.row < copiedRows s d := by
      have := fit_rows f1 p1
      have := fit_rows f2 p2
      rw [copiedRows, ← hc.height] at *
      omega
    have key := fun k (hk : l.col + k < rowBytes src.format l.plane src.width) =>
      hp.inside l.plane b1 s d e1 e2 l.row hr (l.col + k) hk
    simp only [← Nat.add_assoc] at key
    have k0 := key 0 (by omega)
    rw [Nat.add_zero, Nat.add_zero] at k0
    rw [sampleVal, sampleVal]
    split
    · rw [k0]
    · rename_i hne
      rw [k0, key 1 (by omega)]

/-- **C36**: an error leaves memory alone, and reports the first of: different sizes, odd size, a failing bounds check
of the source, of the destination. -/
theorem C36_error {src dst : Img} {m m' : Mem} {e : ConvertError} (h : copyImpl src dst m = .ok (.error e, m')) :
    m' = m ∧ (e = .mismatchedImageSize ∧ (src.width ≠ dst.width ∨ src.height ≠ dst.height) ∨
      src.width = dst.width ∧ src.height = dst.height ∧
        (e = .oddImageDimensions ∧ (src.width % 2 = 1 ∨ src.height % 2 = 1) ∨
        ∃ b, e = .boundsCheck b ∧ (src.boundsCheck = .ok (.error b) ∨
          src.boundsCheck = .ok (.ok ()) ∧ dst.boundsCheck = .ok (.error b)))) := by
  rw [copyImpl_eq] at h
  by_cases h1 : src.width ≠ dst.width ∨ src.height ≠ dst.height
  · rw [if_pos h1] at h; cases h; exact ⟨rfl, .inl ⟨rfl, h1⟩⟩
  rw [if_neg h1] at h
  have h1' : src.width = dst.width ∧ src.height = dst.height := by omega
  by_cases h2 : src.width % 2 = 1 ∨ src.height % 2 = 1
  · rw [if_pos h2] at h; cases h; exact ⟨rfl, .inr ⟨h1'.1, h1'.2, .inl ⟨rfl, h2⟩⟩⟩
  rw [if_neg h2] at h
  by_cases h3 : src.format ≠ dst.format
  · rw [if_pos h3] at h; cases h
  rw [if_neg h3] at h
  simp only [firstProblem, checkBounds] at h
  rcases e1 : src.boundsCheck with b | (b | _)
  · rw [e1] at h; cases h
  · rw [e1] at h; cases h
    exact ⟨rfl, .inr ⟨h1'.1, h1'.2, .inr ⟨b, rfl, .inl rfl⟩⟩⟩
  rcases e2 : dst.boundsCheck with b | (b | _)
  · rw [e1, e2] at h; cases h
  · rw [e1, e2] at h; cases h
    exact ⟨rfl, .inr ⟨h1'.1, h1'.2, .inr ⟨b, rfl, .inr ⟨rfl, rfl⟩⟩⟩⟩
  rw [e1, e2] at h
  simp only [ok_bind, pure_ok] at h
  obtain ⟨sps, v1⟩ := valid_of_check e1
  obtain ⟨dps, v2⟩ := valid_of_check e2
  rw [v1.planes, v2.planes, ok_bind, ok_bind] at h
  cases hr : copyPlanes src.width (src.format.planeDesc.zip (sps.zip dps)) m with
  | error e => rw [hr] at h; cases h
  | ok m1 => rw [hr] at h; cases h

/-- **C36**: `copy` succeeds exactly if the sizes are equal and even, both bounds checks succeed, the formats are equal
and no stride is zero (in every other case it reports an error or panics). -/
theorem C36_ok_iff {src dst : Img} {sps dps : List Plane} (es : src.planes = .ok sps) (ed : dst.planes = .ok dps)
    (hdis : PlanesDisjoint dst.format dps) (hsep : Separate src.format sps dst.format dps) (m : Mem) :
    (∃ m', copyImpl src dst m = .ok (.ok (), m')) ↔ CanCopy src dst ∧
      ∀ i < planeCount src.format, ∀ s d, sps[i]? = some s → dps[i]? = some d → 0 < s.stride ∧ 0 < d.stride := by
  constructor
  · rintro ⟨m', h⟩
    have hc := copy_checks h
    refine ⟨hc, fun i hi s d hs hd => ?_⟩
    rw [copy_run hc es ed] at h
    cases hr : copyPlanes src.width (src.format.planeDesc.zip (sps.zip dps)) m with
    | error e => rw [hr] at h; cases h
    | ok m1 => exact copyPlanes_strides _ _ _ _ _ hr i s d (by rw [planeDesc_length]; exact hi) hs hd
  · rintro ⟨hc, hpos⟩
    obtain ⟨m', h, _⟩ := copyable hc es ed hpos hdis hsep m
    exact ⟨m', by rw [copy_run hc es ed, h]; rfl⟩

/-- **C36**: for images that are not empty, the strides take care of themselves. -/
theorem C36_ok {src dst : Img} {sps dps : List Plane} (hc : CanCopy src dst) (h0 : 0 < src.width)
    (es : src.planes = .ok sps) (ed : dst.planes = .ok dps) (hdis : PlanesDisjoint dst.format dps)
    (hsep : Separate src.format sps dst.format dps) (m : Mem) : ∃ m', copyImpl src dst m = .ok (.ok (), m') := by
  refine (C36_ok_iff es ed hdis hsep m).2 ⟨hc, fun i hi s d hs hd => ?_⟩
  have f1 := (valid_of hc.src es).fits.2 i hi s hs
  have f2 := (valid_of hc.dst ed).fits.2 i (hc.format ▸ hi) d hd
  have hb : 0 < rowBytes src.format i src.width := by
    have := hc.evenW
    revert hi
    cases src.format <;> simp only [rowBytes, planeCount] <;> intro hi <;> (try split) <;> omega
  have := f1.stride_ge
  have := f2.stride_ge
  rw [← hc.format, ← hc.width] at this
  omega

/-- **C36** (partial: true if the planes of the source or those of the destination end with the last row of the image;
see `C36_extra_rows`): only bytes of samples of the destination change. -/
theorem C36_frame_partial {src dst : Img} {sps dps : List Plane} {m m' : Mem}
    (h : copyImpl src dst m = .ok (.ok (), m')) (es : src.planes = .ok sps) (ed : dst.planes = .ok dps)
    (hdis : PlanesDisjoint dst.format dps) (hsep : Separate src.format sps dst.format dps)
    (hexact : ∀ i < planeCount src.format, ∀ s d, sps[i]? = some s → dps[i]? = some d →
      s.slice.len < s.stride * (rowCount src.format i src.height + 1) ∨
      d.slice.len < d.stride * (rowCount src.format i src.height + 1))
    {a : Nat} (ha : ¬ SampleByte dst.format dps dst.width dst.height a) : m' a = m a := by
  obtain ⟨hc, hp⟩ := copied h es ed hdis hsep
  have hout := outside_of_not_sampleByte ha
  refine hp.outside a fun i hi s d hs hd r hr hin => ?_
  refine hout i r (a - (d.slice.addr + r * d.stride)) d ⟨hc.format ▸ hi, ?_, ?_⟩ hd (by rw [Plane.at]; omega)
  · rw [← hc.format, ← hc.height]
    rw [copiedRows] at hr
    rcases hexact i hi s d hs hd with hx | hx
    · have : s.slice.len / s.stride < rowCount src.format i src.height + 1 := Nat.div_lt_of_lt_mul hx
      omega
    · have : d.slice.len / d.stride < rowCount src.format i src.height + 1 := Nat.div_lt_of_lt_mul hx
      omega
  · rw [← hc.format, ← hc.width]; omega

/-- **C36**: whatever the sizes of the planes, nothing outside of the destination's planes changes; in particular the
source does not. -/
theorem C36_frame_planes {src dst : Img} {sps dps : List Plane} {m m' : Mem} {r : Except ConvertError Unit}
    (h : copyImpl src dst m = .ok (r, m')) (es : src.planes = .ok sps) (ed : dst.planes = .ok dps)
    (hdis : PlanesDisjoint dst.format dps) (hsep : Separate src.format sps dst.format dps) {a : Nat}
    (ha : ∀ i < planeCount dst.format, ∀ d, dps[i]? = some d → ¬ d.slice.Has a) : m' a = m a := by
  cases r with
  | error e => rw [(C36_error h).1]
  | ok _ =>
    obtain ⟨hc, hp⟩ := copied h es ed hdis hsep
    refine hp.outside a fun i hi s d hs hd r hr hin => ha i (hc.format ▸ hi) d hd ?_
    have f2 := (valid_of hc.dst ed).fits.2 i (hc.format ▸ hi) d hd
    have hn : rowBytes src.format i src.width ≤ d.stride := by
      have := f2.stride_ge; rwa [← hc.format, ← hc.width] at this
    have := row_has (c := a - (d.slice.addr + r * d.stride)) hn hr (by omega)
    rwa [show d.slice.addr + r * d.stride + (a - (d.slice.addr + r * d.stride)) = a by omega] at this

/-! ### Examples and counterexamples -/

/-- A padded 4×2 NV12 image. -/
def nvPadded : Img := .raw .NV12 4 2 [⟨⟨0, 12⟩, 6⟩, ⟨⟨12, 5⟩, 5⟩] (.YUV ⟨.SDR, .BT709, .BT709, false⟩)
/-- A tight 4×2 NV12 image with another colour. -/
def nvTight : Img := .raw .NV12 4 2 [⟨⟨100, 8⟩, 4⟩, ⟨⟨108, 4⟩, 4⟩] (.YUV ⟨.SDR, .BT709, .BT601, true⟩)

theorem nv_canCopy : CanCopy nvPadded nvTight := ⟨rfl, rfl, rfl, rfl, rfl, by decide, by decide⟩

/-- C36 applies to a padded source and a tight destination: V of the last pixel, and a byte next to the image. -/
example (m : Mem) : ∃ m', copyImpl nvPadded nvTight m = .ok (.ok (), m') ∧
    sample .NV12 [⟨⟨100, 8⟩, 4⟩, ⟨⟨108, 4⟩, 4⟩] m' .V 3 1 = some (m 15).toNat ∧ m' 99 = m 99 ∧ m' 112 = m 112 := by
  have hdis : PlanesDisjoint nvTight.format [⟨⟨100, 8⟩, 4⟩, ⟨⟨108, 4⟩, 4⟩] := planesDisjoint_of (by decide)
  have hsep : Separate nvPadded.format [⟨⟨0, 12⟩, 6⟩, ⟨⟨12, 5⟩, 5⟩] nvTight.format [⟨⟨100, 8⟩, 4⟩, ⟨⟨108, 4⟩, 4⟩] :=
    separate_of (by decide)
  obtain ⟨m', h⟩ := C36_ok nv_canCopy (by decide) rfl rfl hdis hsep m
  refine ⟨m', h, ?_, ?_, ?_⟩
  · rw [show PixelFormat.NV12 = nvTight.format from rfl, C36_samples h rfl rfl hdis hsep .V (by decide) (by decide)]
    rfl
  · refine C36_frame_planes h rfl rfl hdis hsep fun i hi d hd => ?_
    obtain rfl | rfl : i = 0 ∨ i = 1 := by simp [nvTight, Img.format, planeCount] at hi; omega
    all_goals (cases hd; simp [Slice.Has])
  · refine C36_frame_planes h rfl rfl hdis hsep fun i hi d hd => ?_
    obtain rfl | rfl : i = 0 ∨ i = 1 := by simp [nvTight, Img.format, planeCount] at hi; omega
    all_goals (cases hd; simp [Slice.Has])

/-- A 2×2 RGB image in a buffer with room for a third row. -/
def rgbRoomy (a : Nat) : Img := .raw .RGB 2 2 [⟨⟨a, 18⟩, 6⟩] (.RGB ⟨.SDR, .BT709⟩)

/-- **C36** fails in general: if both buffers have room for more rows than the image has, `copy` overwrites them as
well, although no sample of the destination is there. -/
theorem C36_extra_rows (m : Mem) (h : m 12 ≠ m 112) :
    (rgbRoomy 0).boundsCheck = .ok (.ok ()) ∧ (rgbRoomy 100).boundsCheck = .ok (.ok ()) ∧
      ¬ SampleByte .RGB [⟨⟨100, 18⟩, 6⟩] 2 2 112 ∧
      ∃ m', copyImpl (rgbRoomy 0) (rgbRoomy 100) m = .ok (.ok (), m') ∧ m' 112 ≠ m 112 := by
  have hdis : PlanesDisjoint (rgbRoomy 100).format [⟨⟨100, 18⟩, 6⟩] := planesDisjoint_of (by decide)
  have hsep : Separate (rgbRoomy 0).format [⟨⟨0, 18⟩, 6⟩] (rgbRoomy 100).format [⟨⟨100, 18⟩, 6⟩] := separate_of (by decide)
  refine ⟨by decide, by decide, ?_, ?_⟩
  · rintro ⟨c, x, y, l, b, k, hx, hy, hl, hb, hk, e⟩
    cases c <;> simp only [sampleLoc, Option.some.injEq, reduceCtorEq] at hl <;> subst hl <;>
      simp [locAddr, sampleBytes] at hb hk <;> omega
  · have hc : CanCopy (rgbRoomy 0) (rgbRoomy 100) := ⟨rfl, rfl, rfl, rfl, rfl, by decide, by decide⟩
    obtain ⟨m', h1⟩ := C36_ok hc (by decide) rfl rfl hdis hsep m
    refine ⟨m', h1, ?_⟩
    have := (copied h1 rfl rfl hdis hsep).2.inside 0 (by decide) _ _ rfl rfl 2 (by decide) 0 (by decide)
    have this : m' 112 = m 12 := this
    rw [this]; exact h

/-- Different formats and a zero stride (of an empty image) are panics instead of errors. -/
theorem C36_panics (m : Mem) :
    copyImpl (.raw .RGB 2 2 [⟨⟨0, 12⟩, 6⟩] (.RGB ⟨.SDR, .BT709⟩)) (.raw .BGR 2 2 [⟨⟨100, 12⟩, 6⟩] (.RGB ⟨.SDR, .BT709⟩)) m =
      .error (.panic .assertion) ∧
    copyImpl (.raw .RGB 0 2 [⟨⟨0, 0⟩, 0⟩] (.RGB ⟨.SDR, .BT709⟩)) (.raw .RGB 0 2 [⟨⟨100, 0⟩, 0⟩] (.RGB ⟨.SDR, .BT709⟩)) m =
      .error (.panic .chunkZero) := ⟨rfl, rfl⟩

end Ezk.Props

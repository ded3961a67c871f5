import Verif.Proofs.Resize
import Verif.Proofs.Demo
import Verif.Props.Threads

/-!
# C37: `Resizer::resize`

`ResizeRuns c fir n src dst m r`: `r` is a possible outcome of the call, for a `Resizer` that has resized images of up to
`n` planes before.  The theorems are for every `fir`, that is for every algorithm fir may use.
-/

namespace Ezk.Props
open FOps Spec

variable {F : Type} [FOps F]

/-- **C37**: images of different formats are rejected, without changing anything; others never are. -/
theorem C37_differ {c : Cpu F} {fir : Fir} {n : Nat} {src dst : Img} {m : Mem} :
    (src.format ≠ dst.format → ∀ r, ResizeRuns c fir n src dst m r ↔ r = .ok (.error ⟨src.format, dst.format⟩, n, m)) ∧
    (src.format = dst.format → ∀ e k m', ¬ ResizeRuns c fir n src dst m (.ok (.error e, k, m'))) := by
  refine ⟨fun h r => ⟨fun hr => ?_, fun e => e ▸ .differ h⟩, fun h e k m' hr => ?_⟩
  · cases hr with
    | differ => rfl
    | srcPlanes h' | dstPlanes h' | fault h' | done h' => exact absurd h' h
  · cases hr with
    | differ h' => exact h' h

/-- **C37**: whatever the images, their planes and their sizes (nothing is checked), there is no undefined behaviour.
It may panic, see below. -/
theorem C37_no_ub {c : Cpu F} {fir : Fir} {n : Nat} {src dst : Img} {m : Mem} :
    ¬ ResizeRuns c fir n src dst m (.error .ub) := by
  intro hr
  cases hr with
  | srcPlanes h hs => exact src.planes_panics hs
  | dstPlanes h hs hd => exact dst.planes_panics hd
  | fault h hs hd hr hf => exact (((confined_start fir src dst _ _ _ m).reach hr).no_ub) hf

/-- **C37**: whatever the images, nothing outside of the planes of the destination changes. -/
theorem C37_frame {c : Cpu F} {fir : Fir} {n k : Nat} {src dst : Img} {dps : List Plane} {m m' : Mem}
    {x : Except DifferentFormats Unit} (h : ResizeRuns c fir n src dst m (.ok (x, k, m'))) (ed : dst.planes = .ok dps)
    {a : Nat} (ha : ∀ p ∈ dps, ¬ p.slice.Has a) : m' a = m a := by
  cases h with
  | differ => rfl
  | done h hs hd hr hf =>
    rw [ed] at hd
    cases hd
    refine ((confined_start fir src dst _ _ _ m).reach hr).mem a fun t ht => ha _ ?_
    have := List.mem_of_mem_take ht
    exact (List.of_mem_zip (List.of_mem_zip this).2).2

/-- **C37**: what a `Resizer` was used for before makes no difference. -/
theorem C37_history {c : Cpu F} {fir : Fir} (n n' : Nat) {src dst : Img} {m : Mem} :
    (∀ f, ResizeRuns c fir n src dst m (.error f) → ResizeRuns c fir n' src dst m (.error f)) ∧
    ∀ x m', (∃ k, ResizeRuns c fir n src dst m (.ok (x, k, m'))) → ∃ k, ResizeRuns c fir n' src dst m (.ok (x, k, m')) := by
  have key : ∀ sps dps, resizeStart (F := F) fir src dst sps dps (max n sps.length) m =
      resizeStart fir src dst sps dps (max n' sps.length) m := by
    intro sps dps
    rw [resizeStart, resizeStart, List.take_of_length_le (by simp only [List.length_zip]; omega),
      List.take_of_length_le (by simp only [List.length_zip]; omega)]
  constructor
  · intro f h
    cases h with
    | srcPlanes h hs => exact .srcPlanes h hs
    | dstPlanes h hs hd => exact .dstPlanes h hs hd
    | fault h hs hd hr hf => exact .fault h hs hd (key _ _ ▸ hr) hf
  · rintro x m' ⟨k, h⟩
    cases h with
    | differ h => exact ⟨_, .differ h⟩
    | done h hs hd hr hf => exact ⟨_, .done h hs hd (key _ _ ▸ hr) hf⟩

/-- **C37** (partial: planes must not have room for more rows than the image has, 16-bit rows must be aligned, sizes must
be less than 2³², the source not empty, and the width of the destination a multiple of the sub-sampling factor): the
call always succeeds, whatever the order in which the planes are processed; every byte of every plane of the destination
becomes what fir computes from the corresponding plane of the source, shown to it with its true size in pixels; nothing
else changes. -/
theorem C37_planes_partial {c : Cpu F} {fir : Fir} {n : Nat} {src dst : Img} {sps dps : List Plane} {m : Mem}
    (hf : src.format = dst.format) (hs : src.boundsCheck = .ok (.ok ())) (hd : dst.boundsCheck = .ok (.ok ()))
    (es : src.planes = .ok sps) (ed : dst.planes = .ok dps) (hdis : PlanesDisjoint dst.format dps)
    (hsep : Separate src.format sps dst.format dps)
    (ss : Showable src.format src.height sps) (sd : Showable dst.format dst.height dps)
    (hu : src.width < 2 ^ 32 ∧ src.height < 2 ^ 32 ∧ dst.width < 2 ^ 32 ∧ dst.height < 2 ^ 32)
    (pw : hsub src.format ≤ src.width) (ph : vsub src.format ≤ src.height) (ew : dst.width % hsub dst.format = 0) :
    ∃ m', (∀ r, ResizeRuns c fir n src dst m r ↔ r = .ok (.ok (), max n sps.length, m')) ∧
      (∀ i < planeCount src.format, ∀ s d, sps[i]? = some s → dps[i]? = some d →
        ∀ row < rowCount src.format i dst.height, ∀ col < rowBytes src.format i dst.width,
          m' (d.slice.addr + row * d.stride + col) =
            scaledPlane fir src.format i src.width src.height dst.width dst.height s m row col) ∧
      ∀ a, ¬ SampleByte dst.format dps dst.width dst.height a → m' a = m a := by
  have vs := (valid_of hs es).fits
  have vd := (valid_of hd ed).fits
  rw [← hf] at vd hsep hdis sd ew
  have hc : CanResize src.format sps dps src.width src.height dst.width dst.height :=
    ⟨vs, vd, ss, sd, hu, pw, ph, ew, hsep⟩
  have hI := resize_inv (c := c) (fir := fir) (src := src) (dst := dst) hf hc (n := max n sps.length) (by omega) m
  obtain ⟨t, ht, htf⟩ := hI.finish vd hdis .refl
  have hp := (hI.reach vd hdis ht).painted htf
  have uniq : ∀ s, Reach c (resizeStart fir src dst sps dps (max n sps.length) m) s → s.Finished → s.mem = t.mem := by
    intro s hr hfin
    have hq := (hI.reach vd hdis hr).painted hfin
    funext a
    by_cases ha : Outside src.format dps dst.width dst.height a
    · rw [hq.outside a ha, hp.outside a ha]
    · simp only [Outside, Classical.not_forall, Classical.not_not] at ha
      obtain ⟨i, row, col, p, hD, hpi, rfl⟩ := ha
      rw [hq.inside i row col p hD hpi hD, hp.inside i row col p hD hpi hD]
  refine ⟨t.mem, fun r => ⟨fun hr => ?_, fun e => e ▸ .done hf es ed ht htf⟩, ?_, ?_⟩
  · cases hr with
    | differ h => exact absurd hf h
    | srcPlanes h h1 => rw [es] at h1; cases h1
    | dstPlanes h h1 h2 => rw [ed] at h2; cases h2
    | fault h h1 h2 h3 h4 =>
      rw [es] at h1; rw [ed] at h2; cases h1; cases h2
      exact ((hI.reach vd hdis h3).safe _ h4).elim
    | done h h1 h2 h3 h4 =>
      rw [es] at h1; rw [ed] at h2; cases h1; cases h2
      rw [uniq _ h3 h4]
  · intro i hi s d h1 h2 row hrow col hcol
    have := hp.inside i row col d ⟨hi, hrow, hcol⟩ h2 ⟨hi, hrow, hcol⟩
    rw [Plane.at, ← Nat.add_assoc] at this
    rw [this]
    simp only [scaled, h1]
  · intro a ha
    rw [← hf] at ha
    exact hp.outside a (outside_of_not_sampleByte ha)

/-- **C37**: the windows of `Cropped` never have room for more rows than they should, so for them that condition of
`C37_planes_partial` is met. -/
theorem C37_cropped {t : Img} {w : Window} {ps : List Plane} (h : (Img.cropped t w).planes = .ok ps) :
    ∀ i < planeCount t.format, ∀ p, ps[i]? = some p → 0 < p.stride →
      p.slice.len < p.stride * (rowCount t.format i w.height + 1) := by
  intro i hi p hp h0
  cases ht : t.planes with
  | error e => rw [Img.planes, ht] at h; cases h
  | ok qs =>
    rw [Img.planes, ht, ok_bind] at h
    obtain ⟨⟨d, q⟩, hd, hc⟩ := mapM_get _ _ h i p hp
    have hr := (planeDesc_ok _ _ _ (List.getElem?_zip_eq_some.1 hd).1).rows w.height
    rw [cropPlane_len hc hr, Nat.mul_add, Nat.mul_comm]
    omega

/-- The height of an image plays no part. -/
theorem C37_height_ignored {c : Cpu F} {fir : Fir} {n : Nat} {src src' dst dst' : Img} {m : Mem}
    (h1 : src.format = src'.format) (h2 : src.width = src'.width) (h3 : src.planes = src'.planes)
    (h4 : dst.format = dst'.format) (h5 : dst.width = dst'.width) (h6 : dst.planes = dst'.planes)
    {r : Exec (Except DifferentFormats Unit × Nat × Mem)} (h : ResizeRuns c fir n src dst m r) :
    ResizeRuns c fir n src' dst' m r := by
  have key : ∀ sps dps, resizeStart (F := F) fir src dst sps dps (max n sps.length) m =
      resizeStart fir src' dst' sps dps (max n sps.length) m := by
    intro sps dps
    rw [resizeStart, resizeStart, h1, h2, h5]
  cases h with
  | differ h => rw [h1, h4]; exact .differ (by rw [← h1, ← h4]; exact h)
  | srcPlanes h hs => exact .srcPlanes (by rw [← h1, ← h4]; exact h) (h3 ▸ hs)
  | dstPlanes h hs hd => exact .dstPlanes (by rw [← h1, ← h4]; exact h) (h3 ▸ hs) (h6 ▸ hd)
  | fault h hs hd hr hf => exact .fault (by rw [← h1, ← h4]; exact h) (h3 ▸ hs) (h6 ▸ hd) (key _ _ ▸ hr) hf
  | done h hs hd hr hf => exact .done (by rw [← h1, ← h4]; exact h) (h3 ▸ hs) (h6 ▸ hd) (key _ _ ▸ hr) hf

/-! ### Examples and counterexamples -/

theorem showable_of {f : PixelFormat} {h : Nat} {ps : List Plane}
    (e : ((List.range ps.length).all fun i => match ps[i]? with
      | some p => decide (0 < p.stride ∧ p.slice.len < p.stride * (rowCount f i h + 1) ∧
          (sampleBytes f = 2 → p.slice.addr % 2 = 0 ∧ p.stride % 2 = 0))
      | none => true) = true) : Showable f h ps := by
  intro i _ p hp
  rw [List.all_eq_true] at e
  have := e i (List.mem_range.2 (List.getElem?_eq_some_iff.1 hp).1)
  rw [hp] at this
  exact of_decide_eq_true this

/-- A padded 4×2 NV12 image. -/
def nvSmall : Img := .raw .NV12 4 2 [⟨⟨0, 12⟩, 6⟩, ⟨⟨12, 5⟩, 5⟩] (.YUV ⟨.SDR, .BT709, .BT709, false⟩)
/-- An 8×4 NV12 image. -/
def nvLarge : Img := .raw .NV12 8 4 [⟨⟨100, 32⟩, 8⟩, ⟨⟨132, 16⟩, 8⟩] (.YUV ⟨.SDR, .BT709, .BT709, false⟩)

/-- Scaling by repeating pixels, as `ResizeAlg::Nearest` does. -/
def nearest : Fir := fun t sw sh src dw dh row byte =>
  src (row * sh / dh) (byte / kindBytes t * sw / dw * kindBytes t + byte % kindBytes t)

/-- C37 applies to doubling the size of a padded image: the last V sample is the last V sample of the source. -/
example (c : Cpu F) (m : Mem) : ∃ m', (∀ r, ResizeRuns c nearest 0 nvSmall nvLarge m r ↔ r = .ok (.ok (), 2, m')) ∧
    m' 147 = m 15 ∧ m' 131 = m 9 ∧ m' 148 = m 148 := by
  obtain ⟨m', h1, h2, h3⟩ := C37_planes_partial (c := c) (fir := nearest) (n := 0) (src := nvSmall) (dst := nvLarge) (m := m)
    rfl (by decide) (by decide) rfl rfl (planesDisjoint_of (by decide)) (separate_of (by decide))
    (showable_of (by decide)) (showable_of (by decide)) (by decide) (by decide) (by decide) (by decide)
  refine ⟨m', h1, ?_, ?_, ?_⟩
  · exact h2 1 (by decide) _ _ rfl rfl 1 (by decide) 7 (by decide)
  · exact h2 0 (by decide) _ _ rfl rfl 3 (by decide) 7 (by decide)
  · refine C37_frame ((h1 _).2 rfl) rfl ?_
    intro p hp
    simp only [List.mem_cons, List.not_mem_nil, or_false] at hp
    rcases hp with rfl | rfl <;> simp [Slice.Has]

/-- An RGB image, 2 wide and `h` high, in a buffer with room for `k` rows. -/
def rgbRows (a k h : Nat) : Img := .raw .RGB 2 h [⟨⟨a, 6 * k⟩, 6⟩] (.RGB ⟨.SDR, .BT709⟩)

/-- **C37** fails in general: if the buffers have room for more rows than the images have, then what is there becomes part
of the picture. Here a 2×2 image in a buffer with room for 8 rows is scaled to 2×2, in a buffer with room for 4: the second
row of the result is not the second row of the source but what follows behind the source's last row, and the bytes behind
the last row of the destination are overwritten. -/
theorem C37_extra_rows (c : Cpu F) (n : Nat) (m : Mem) :
    (rgbRows 0 8 2).boundsCheck = .ok (.ok ()) ∧ (rgbRows 100 4 2).boundsCheck = .ok (.ok ()) ∧
      ¬ SampleByte .RGB [⟨⟨0, 48⟩, 6⟩] 2 2 12 ∧ ¬ SampleByte .RGB [⟨⟨100, 24⟩, 6⟩] 2 2 112 ∧
      ∃ m', (∀ r, ResizeRuns c nearest n (rgbRows 0 8 2) (rgbRows 100 4 2) m r ↔ r = .ok (.ok (), max n 1, m')) ∧
        m' 106 = m 12 ∧ scaledPlane nearest .RGB 0 2 2 2 2 ⟨⟨0, 48⟩, 6⟩ m 1 0 = m 6 ∧ m' 112 = m 24 := by
  have out : ∀ k a, ¬ SampleByte .RGB [⟨⟨a, k⟩, 6⟩] 2 2 (a + 12) := by
    rintro k a ⟨c, x, y, l, b, k, hx, hy, hl, hb, hk, e⟩
    cases c <;> simp only [sampleLoc, Option.some.injEq, reduceCtorEq] at hl <;> subst hl <;>
      simp [locAddr, sampleBytes] at hb hk <;> omega
  obtain ⟨m', h1, h2, -⟩ := C37_planes_partial (c := c) (fir := nearest) (n := n) (src := rgbRows 0 8 8)
    (dst := rgbRows 100 4 4) (m := m) rfl (by decide) (by decide) rfl rfl (planesDisjoint_of (by decide))
    (separate_of (by decide)) (showable_of (by decide)) (showable_of (by decide)) (by decide) (by decide) (by decide)
    (by decide)
  refine ⟨by decide, by decide, out _ 0, out _ 100, m', fun r => ?_, ?_, ?_, ?_⟩
  · rw [show max n 1 = max n (List.length [(⟨⟨0, 6 * 8⟩, 6⟩ : Plane)]) from rfl, ← h1 r]
    exact ⟨C37_height_ignored (src := rgbRows 0 8 2) (src' := rgbRows 0 8 8) (dst := rgbRows 100 4 2)
        (dst' := rgbRows 100 4 4) rfl rfl rfl rfl rfl rfl,
      C37_height_ignored (src := rgbRows 0 8 8) (src' := rgbRows 0 8 2) (dst := rgbRows 100 4 4)
        (dst' := rgbRows 100 4 2) rfl rfl rfl rfl rfl rfl⟩
  · exact h2 0 (by decide) _ _ rfl rfl 1 (by decide) 0 (by decide)
  · rfl
  · exact h2 0 (by decide) _ _ rfl rfl 2 (by decide) 0 (by decide)

/-- An image without pixels, with stride zero. -/
def rgbNothing : Img := .raw .RGB 0 2 [⟨⟨0, 0⟩, 0⟩] (.RGB ⟨.SDR, .BT709⟩)

/-- **C37** fails in general: the stride zero, which the checks of the other functions accept for an image without
pixels, makes `resize` divide by zero. -/
theorem C37_zero_stride_panics (c : Cpu F) (fir : Fir) (n : Nat) (m : Mem) :
    rgbNothing.boundsCheck = .ok (.ok ()) ∧
      ResizeRuns c fir n rgbNothing (rgbRows 100 2 2) m (.error (.panic .divZero)) := by
  refine ⟨by decide, .fault (sps := [⟨⟨0, 0⟩, 0⟩]) (dps := [⟨⟨100, 12⟩, 6⟩]) rfl rfl rfl .refl (.call 0
    (resizeWorker fir 0 2 (⟨.mul 3, .identity, 1, .U8x3⟩, ⟨⟨0, 0⟩, 0⟩, ⟨⟨100, 12⟩, 6⟩)) ⟨false, 0, 0⟩ [] m _ ?_ rfl
    (fun _ => rfl) rfl)⟩
  rw [resizeStart, List.getElem?_map, List.getElem?_take, if_pos (by simp)]
  rfl

/-- A 2×2 16-bit image at address `a`. -/
def deep (a : Nat) : Img :=
  .raw .I410 2 2 [⟨⟨a, 8⟩, 4⟩, ⟨⟨a + 8, 8⟩, 4⟩, ⟨⟨a + 16, 8⟩, 4⟩] (.YUV ⟨.SDR, .BT709, .BT709, false⟩)

/-- **C37** fails in general: 16-bit samples at odd addresses, which the checks of the other functions accept, make
`resize` panic. -/
theorem C37_misaligned_panics (c : Cpu F) (fir : Fir) (n : Nat) (m : Mem) :
    (deep 1).boundsCheck = .ok (.ok ()) ∧ ResizeRuns c fir n (deep 1) (deep 100) m (.error (.panic .assertion)) := by
  refine ⟨by decide, .fault (sps := [⟨⟨1, 8⟩, 4⟩, ⟨⟨9, 8⟩, 4⟩, ⟨⟨17, 8⟩, 4⟩])
    (dps := [⟨⟨100, 8⟩, 4⟩, ⟨⟨108, 8⟩, 4⟩, ⟨⟨116, 8⟩, 4⟩]) rfl rfl rfl .refl (.call 0
    (resizeWorker fir 2 2 (⟨.identity, .identity, 2, .U16⟩, ⟨⟨1, 8⟩, 4⟩, ⟨⟨100, 8⟩, 4⟩)) ⟨false, 0, 0⟩ [] m _ ?_ rfl
    (fun _ => rfl) rfl)⟩
  rw [resizeStart, List.getElem?_map, List.getElem?_take, if_pos (by simp)]
  rfl

end Ezk.Props

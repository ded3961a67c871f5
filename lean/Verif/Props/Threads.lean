import Verif.Proofs.Races
import Verif.Props.Convert

/-!
# Properties of `convert_multi_thread`

The possible outcomes are those of `MtRuns`: any number of CPUs, any interleaving of the workers, stores that become
visible late, out of order and byte by byte.
-/

namespace Ezk.Props
open FOps Spec

variable {F : Type} [FOps F]

theorem valid_of {t : Img} {ps : List Plane} (h : t.boundsCheck = .ok (.ok ())) (e : t.planes = .ok ps) : Valid t ps := by
  obtain ⟨qs, hv⟩ := valid_of_check h
  have := hv.planes.symm.trans e
  injection this with this
  exact this ▸ hv

/-! ## C21: the strips -/

/-- **C21**: a valid image is split into the strips of `Spec.strips`, each with the planes of its rows. -/
theorem C21_split {t : Img} {ps : List Plane} (h : t.boundsCheck = .ok (.ok ())) (e : t.planes = .ok ps)
    (pw : 0 < t.width) (ph : 2 ≤ t.height) {threads : Nat} (ht : 0 < threads) :
    splitPlanes t.format.planeDesc ps t.height threads =
      .ok ((strips t.height threads).map fun s => (s.2, stripPlanes t.format ps s.1 s.2)) :=
  splitPlanes_eq (valid_of h e).fits (fits_height (valid_of h e).fits pw) ht ph

/-- **C21**: one strip per thread, but no more than there are 2-row sections. -/
theorem C21_count (height threads : Nat) : (strips height threads).length = min threads (height / 2) := by
  simp [strips, stripCount]

/-- **C21**: no strip is empty, all have an even number of rows. -/
theorem C21_even {height threads : Nat} {s : Nat × Nat} (h : s ∈ strips height threads) :
    0 < s.2 ∧ s.1 % 2 = 0 ∧ s.2 % 2 = 0 := by
  obtain ⟨h1, h2, h3, h4⟩ := strip_facts h
  exact ⟨by omega, by omega, by omega⟩

/-- **C21**: any two strips differ by at most one 2-row section. -/
theorem C21_balanced {height threads : Nat} {s t : Nat × Nat} (hs : s ∈ strips height threads)
    (ht : t ∈ strips height threads) : s.2 ≤ t.2 + 2 := by
  rw [strips, List.mem_map] at hs ht
  obtain ⟨_, _, rfl⟩ := hs
  obtain ⟨_, _, rfl⟩ := ht
  dsimp only [stripHeight]
  split <;> split <;> omega

/-- **C21**: the strips follow each other, from the first row ... -/
theorem C21_first {height threads : Nat} {s : Nat × Nat} (h : (strips height threads)[0]? = some s) : s.1 = 0 := by
  rw [strips_get h, stripStart_zero]

/-- ... without gap or overlap ... -/
theorem C21_consecutive {height threads k : Nat} {s t : Nat × Nat} (hs : (strips height threads)[k]? = some s)
    (ht : (strips height threads)[k + 1]? = some t) : t.1 = s.1 + s.2 := by
  rw [strips_get hs, strips_get ht]
  exact stripStart_succ _ _ _

/-- ... and their heights add up to the height of the image. -/
theorem C21_sum {height threads : Nat} (ht : 0 < threads) (he : height % 2 = 0) :
    ((strips height threads).map (·.2)).sum = height := by
  by_cases h0 : height / 2 = 0
  · have : height = 0 := by omega
    subst this
    simp [strips, stripCount]
  · have hn : 0 < stripCount height threads := by rw [stripCount]; omega
    have key : ∀ n k, (((List.range k).map fun j => (stripStart height n j, stripHeight height n j)).map (·.2)).sum =
        stripStart height n k := by
      intro n k
      induction k with
      | zero => simp [stripStart_zero]
      | succ k ih => rw [List.range_succ, List.map_append, List.map_append, List.sum_append, ih, stripStart_succ]; simp
    rw [strips, key, stripStart_end hn]
    omega

/-- **C21**: in every plane, the bytes of a strip directly follow those of the strip before. -/
theorem C21_adjacent (f : PixelFormat) (ps : List Plane) {height threads k : Nat} {s t : Nat × Nat}
    (hs : (strips height threads)[k]? = some s) (ht : (strips height threads)[k + 1]? = some t) {i : Nat} {p q : Plane}
    (hp : (stripPlanes f ps s.1 s.2)[i]? = some p) (hq : (stripPlanes f ps t.1 t.2)[i]? = some q) :
    q.slice.addr = p.slice.addr + p.slice.len ∧ q.stride = p.stride := by
  have hc := C21_consecutive hs ht
  have he := (C21_even (List.mem_of_getElem? hs)).2.1
  rw [stripPlanes, List.getElem?_mapIdx, Option.map_eq_some_iff] at hp hq
  obtain ⟨p0, e0, rfl⟩ := hp
  obtain ⟨q0, e1, rfl⟩ := hq
  rw [e0] at e1
  injection e1 with e1
  subst e1
  refine ⟨?_, rfl⟩
  dsimp only [stripPlane]
  rw [hc, rowCount_even_add f i s.2 he, Nat.mul_add]
  omega

/-- A 2×10 RGB image and a 2×10 I420 image. -/
def tallSrc : Img := .raw .RGB 2 10 [⟨⟨0, 80⟩, 8⟩] (.RGB ⟨.SRGB, .BT709⟩)
def tallDst : Img := .raw .I420 2 10 [⟨⟨100, 30⟩, 3⟩, ⟨⟨200, 5⟩, 1⟩, ⟨⟨300, 10⟩, 2⟩] (.YUV ⟨.SDR, .BT709, .BT709, false⟩)
def tallDstPlanes : List Plane := [⟨⟨100, 30⟩, 3⟩, ⟨⟨200, 5⟩, 1⟩, ⟨⟨300, 10⟩, 2⟩]

example : splitPlanes tallDst.format.planeDesc tallDstPlanes 10 3 =
    .ok [(4, [⟨⟨100, 12⟩, 3⟩, ⟨⟨200, 2⟩, 1⟩, ⟨⟨300, 4⟩, 2⟩]), (4, [⟨⟨112, 12⟩, 3⟩, ⟨⟨202, 2⟩, 1⟩, ⟨⟨304, 4⟩, 2⟩]),
      (2, [⟨⟨124, 6⟩, 3⟩, ⟨⟨204, 1⟩, 1⟩, ⟨⟨308, 2⟩, 2⟩])] :=
  C21_split (t := tallDst) (by decide) rfl (by decide) (by decide) (by decide)

example : strips 10 3 = [(0, 4), (4, 4), (8, 2)] := by decide

/-! ## C20: all schedules -/

/-- **C20** (partial: not for 4:4:4 sources whose planes have different strides). For valid images that are not empty,
whatever the number of CPUs and the schedule: the only possible outcome of `convert_multi_thread` is that of `convert`,
and it is possible. -/
theorem C20_schedules_partial {src dst : Img} {sps dps : List Plane} (hs : src.boundsCheck = .ok (.ok ()))
    (hd : dst.boundsCheck = .ok (.ok ())) (es : src.planes = .ok sps) (ed : dst.planes = .ok dps)
    (hu : UniformStrides src.format sps) (hdis : PlanesDisjoint dst.format dps)
    (hsep : Separate src.format sps dst.format dps) {c : Cpu F} (hc : c.vec.Lawful) {threads : Nat} (ht : 0 < threads)
    (pw : 0 < src.width) (ph : 0 < src.height) {m : Mem} (r : Exec (Except ConvertError Unit × Mem)) :
    MtRuns c threads src dst m r ↔ r = convert c src dst m :=
  mtRuns_iff (valid_of hs es) (valid_of hd ed) hu hdis hsep hc ht pw ph r

/-- **C20**: no execution goes on forever: a worker can get on with its work only finitely often. -/
theorem C20_terminates (c : Cpu F) : ¬ ∃ run : Nat → Threads F, ∀ n, Advance c (run n) (run (n + 1)) := by
  rintro ⟨run, h⟩
  have acc : ∀ s : Threads F, Acc (fun t s : Threads F => Advance c s t) s → ∀ n, run n ≠ s := by
    intro s hs
    induction hs with
    | intro s _ ih => intro n hn; exact ih (run (n + 1)) (hn ▸ h n) (n + 1) rfl
  exact acc (run 0) ((advance_wf c).apply _) 0 rfl

section
variable {src dst : Img} {sps dps : List Plane} {c : Cpu F} {threads : Nat} {m : Mem}
  {tasks : List (Exec (Except ConvertError (Job F)))}

theorem tasks_eq (vs : Valid src sps) (vd : Valid dst dps) (hv : verdict src dst = .ok (.ok ())) (ht : 0 < threads)
    (pw : 0 < src.width) (ph : 0 < src.height) (hp : mtPlan (F := F) threads src dst = .ok (.parallel tasks)) :
    tasks = (strips src.height threads).map (stripTask src dst sps dps) := by
  have hr := returned_of_verdict hv vs.planes vd.planes
  have ne : ¬ (src.format = dst.format ∧ src.color = dst.color) ∧ threads ≠ 1 := by
    rw [mtPlan, verify_ok hr.width hr.height hr.evenW hr.evenH] at hp
    dsimp only at hp
    constructor
    · intro h; rw [if_pos h] at hp; cases hp
    · intro h
      by_cases h' : src.format = dst.format ∧ src.color = dst.color
      · rw [if_pos h'] at hp; cases hp
      · rw [if_neg h', if_pos h] at hp; cases hp
  have e := hr.evenH
  have e' := hr.height
  have := mtPlan_parallel (F := F) vs vd hr.width hr.height hr.evenW hr.evenH ne.1 (threads := threads) (by omega) pw
    (by omega)
  rw [hp] at this
  injection this with this
  injection this

/-- **C20** (partial as above): no deadlock. Until all work is done, some worker can get on. -/
theorem C20_progress_partial (hv : verdict src dst = .ok (.ok ())) (es : src.planes = .ok sps)
    (ed : dst.planes = .ok dps) (hu : UniformStrides src.format sps) (hdis : PlanesDisjoint dst.format dps)
    (hsep : Separate src.format sps dst.format dps) (hc : c.vec.Lawful) (ht : 0 < threads) (pw : 0 < src.width)
    (ph : 0 < src.height) (hp : mtPlan threads src dst = .ok (.parallel tasks)) {s : Threads F}
    (hr : Reach c (Threads.start c tasks m) s) (hf : ¬ s.Finished) : ∃ t, Advance c s t := by
  have r := returned_of_verdict hv es ed
  rw [tasks_eq r.vsrc r.vdst hv ht pw ph hp] at hr
  exact ((start_inv r.vsrc r.vdst r.width r.height r.evenW r.evenH r.colors hu hsep
    (shown_depicts r.vsrc.fits.1 m) hc ht).reach r.vdst.fits hdis hr).progress hf

/-- **C20** (partial as above): no data race. At no time do two workers have stores to the same byte under way, and
no worker ever stores to a byte of the source. -/
theorem C20_race_free_partial (hv : verdict src dst = .ok (.ok ())) (es : src.planes = .ok sps)
    (ed : dst.planes = .ok dps) (hu : UniformStrides src.format sps) (hdis : PlanesDisjoint dst.format dps)
    (hsep : Separate src.format sps dst.format dps) (hc : c.vec.Lawful) (ht : 0 < threads) (pw : 0 < src.width)
    (ph : 0 < src.height) (hp : mtPlan threads src dst = .ok (.parallel tasks)) {s : Threads F}
    (hr : Reach c (Threads.start c tasks m) s) {i : Nat} {wi : Worker F} (hi : s.workers[i]? = some wi)
    {st : Mem → Exec Mem} (h1 : st ∈ wi.pending) {a : Nat} (ta : MayChange st a) :
    (∀ (j : Nat) (wj : Worker F), s.workers[j]? = some wj → j ≠ i → ∀ st' ∈ wj.pending, ¬ MayChange st' a) ∧
      ∀ k p, k < planeCount src.format → sps[k]? = some p → ¬ (p.slice.addr ≤ a ∧ a < p.slice.addr + p.slice.len) := by
  have r := returned_of_verdict hv es ed
  rw [tasks_eq r.vsrc r.vdst hv ht pw ph hp] at hr
  have hV := shown_depicts (w := src.width) (h := src.height) r.vsrc.fits.1 m
  have hI := start_inv (c := c) r.vsrc r.vdst r.width r.height r.evenW r.evenH r.colors hu hsep hV hc ht
  have ho := (start_own (c := c) (threads := threads) r.vsrc r.vdst r.width r.height r.evenW r.colors hu hsep hV hc).reach
    hI r.vdst.fits hdis hr
  refine ⟨fun j wj hj hij st' h2 tb => ho.disjoint r.vdst.fits hdis hi hj (Ne.symm hij) h1 h2 ta tb, ?_⟩
  intro k p hk hp ⟨a1, a2⟩
  obtain ⟨k', p', hk', hp', b1, b2⟩ := ho.source r.vdst.fits hi h1 ta
  exact hsep k k' p p' hk hk' hp hp' a a1 a2 b1 b2

end

theorem tall_uniform : UniformStrides tallSrc.format [⟨⟨0, 80⟩, 8⟩] := fun h => by simp [tallSrc, Img.format, isYuv] at h

theorem tall_disjoint : PlanesDisjoint tallDst.format tallDstPlanes := by
  intro i j p q hi hj hij hp hq a h1 h2 h3 h4
  have hi : i < 3 := hi
  have hj : j < 3 := hj
  obtain rfl | rfl | rfl : i = 0 ∨ i = 1 ∨ i = 2 := by omega
  all_goals
    obtain rfl | rfl | rfl : j = 0 ∨ j = 1 ∨ j = 2 := by omega
    all_goals first
      | exact hij rfl
      | (simp only [tallDstPlanes, List.getElem?_cons_zero, List.getElem?_cons_succ, Option.some.injEq] at hp hq
         subst hp hq
         dsimp only at h1 h2 h3 h4
         omega)

theorem tall_separate : Separate tallSrc.format [⟨⟨0, 80⟩, 8⟩] tallDst.format tallDstPlanes := by
  intro i j p q hi hj hp hq a h1 h2 h3 h4
  have hi : i < 1 := hi
  have hj : j < 3 := hj
  obtain rfl : i = 0 := by omega
  obtain rfl | rfl | rfl : j = 0 ∨ j = 1 ∨ j = 2 := by omega
  all_goals
    simp only [tallDstPlanes, List.getElem?_cons_zero, List.getElem?_cons_succ, Option.some.injEq] at hp hq
    subst hp hq
    dsimp only at h1 h2 h3 h4
    omega

example (ar : Arith F) (m : Mem) (r : Exec (Except ConvertError Unit × Mem)) :
    MtRuns ⟨scalarBackend ar, ar⟩ 3 tallSrc tallDst m r ↔ r = convert ⟨scalarBackend ar, ar⟩ tallSrc tallDst m :=
  C20_schedules_partial (by decide) (by decide) rfl rfl tall_uniform tall_disjoint tall_separate (scalar_lawful ar)
    (by decide) (by decide) (by decide) r

/-- With 3 CPUs, this conversion has 3 workers. -/
example : ∃ a b c, mtPlan (F := F) 3 tallSrc tallDst = .ok (.parallel [.ok (.ok a), .ok (.ok b), .ok (.ok c)]) :=
  ⟨_, _, _, by with_unfolding_all rfl⟩

example : verdict tallSrc tallDst = .ok (.ok ()) := by decide

/-- A 2×4 I444 source: the Y plane has padded rows, the U and V planes have padding after the last row. -/
def skewedTall : Img := .raw .I444 2 4 [⟨⟨0, 16⟩, 4⟩, ⟨⟨16, 14⟩, 2⟩, ⟨⟨30, 14⟩, 2⟩] (.YUV ⟨.SDR, .BT709, .BT709, true⟩)
def rgbTall : Img := .raw .RGB 2 4 [⟨⟨100, 24⟩, 6⟩] (.RGB ⟨.SDR, .BT709⟩)

/-- **C20** is false for 4:4:4 sources in general: these images are valid, `convert` returns `Ok`, and
`convert_multi_thread` reads outside of its planes. -/
theorem C20_skewed_source_ub (ar sar : Arith F) (m : Mem) :
    skewedTall.boundsCheck = .ok (.ok ()) ∧ rgbTall.boundsCheck = .ok (.ok ()) ∧
      (∃ m', convert ⟨scalarBackend ar, sar⟩ skewedTall rgbTall m = .ok (.ok (), m')) ∧
      MtRuns ⟨scalarBackend ar, sar⟩ 2 skewedTall rgbTall m (.error .ub) := by
  have hs : skewedTall.boundsCheck = .ok (.ok ()) := by decide
  have hd : rgbTall.boundsCheck = .ok (.ok ()) := by decide
  refine ⟨hs, hd, ?_, ?_⟩
  · have hr := returned_of_verdict (by decide) (valid_of hs rfl).planes (valid_of hd rfl).planes
    obtain ⟨m', h, _⟩ := convert_frame (c := ⟨scalarBackend ar, sar⟩) (scalar_lawful ar) hr.vsrc hr.vdst hr.width
      hr.height hr.evenW hr.evenH hr.colors (by
        intro _ _ _ p0 h0 i hi p hp
        cases h0
        obtain rfl | rfl | rfl : i = 0 ∨ i = 1 ∨ i = 2 := by omega
        all_goals (cases hp; decide)) m
    exact ⟨m', h⟩
  · refine .stepFault (mtPlan_parallel (valid_of hs rfl) (valid_of hd rfl) rfl rfl rfl rfl (by decide) (by decide)
      (by decide) (by decide)) .refl ?_
    apply Faulty.call 0 (view := m) (hview := fun _ => rfl)
    · with_unfolding_all rfl
    · with_unfolding_all rfl
    · with_unfolding_all rfl

/-! ## C22: degenerate images -/

/-- **C22** (partial: false for empty and for invalid images, see below). `convert_multi_thread` does what `convert`
does if the sizes are not accepted, if format and colour are the same, or if there is one CPU; whether the images are
valid or not. -/
theorem C22_same_partial {src dst : Img} {c : Cpu F} {threads : Nat} {m : Mem}
    (h : (¬ (src.width = dst.width ∧ src.height = dst.height)) ∨ ¬ (src.width % 2 = 0 ∧ src.height % 2 = 0) ∨
      (src.format = dst.format ∧ src.color = dst.color) ∨ threads = 1)
    (r : Exec (Except ConvertError Unit × Mem)) : MtRuns c threads src dst m r ↔ r = convert c src dst m := by
  by_cases hv : verifyInputWindows src dst = .ok ()
  · have hw : src.width = dst.width ∧ src.height = dst.height ∧ dst.width % 2 = 0 ∧ dst.height % 2 = 0 := by
      rw [verifyInputWindows] at hv
      split at hv
      · cases hv
      · split at hv
        · cases hv
        · omega
    by_cases same : src.format = dst.format ∧ src.color = dst.color
    · have : mtPlan (F := F) threads src dst = .ok (.single (convertSameJob src dst)) := by
        rw [mtPlan, hv]; dsimp only; rw [if_pos same]; rfl
      rw [mtRuns_single this, convert, convertJob, hv, bindE_ok, if_pos same]
    · have h1 : threads = 1 := by
        rcases h with h | h | h | h
        · omega
        · omega
        · exact (same h).elim
        · exact h
      have : mtPlan (F := F) threads src dst = .ok (.single (convertJob src dst)) := by
        rw [mtPlan, hv]; dsimp only; rw [if_neg same, if_pos h1]; rfl
      rw [mtRuns_single this, convert]
  · obtain ⟨e, he⟩ : ∃ e, verifyInputWindows src dst = .error e := by
      rcases h : verifyInputWindows src dst with e | u
      · exact ⟨e, rfl⟩
      · exact (hv h).elim
    have : mtPlan (F := F) threads src dst = .ok (.fail e) := by
      rw [mtPlan, he]; rfl
    rw [mtRuns_fail this, convert, convertJob, he]
    rfl

example (ar : Arith F) (m : Mem) (r : Exec (Except ConvertError Unit × Mem)) :
    MtRuns ⟨scalarBackend ar, ar⟩ 8 tallSrc demoDst m r ↔ r = convert ⟨scalarBackend ar, ar⟩ tallSrc demoDst m :=
  C22_same_partial (.inl (by decide)) r

/-- If the planes cannot be split, `convert_multi_thread` panics. -/
theorem mtRuns_fault {c : Cpu F} {threads : Nat} {src dst : Img} {m : Mem} {f : Fault}
    (hp : mtPlan (F := F) threads src dst = .error f) (r : Exec (Except ConvertError Unit × Mem)) :
    MtRuns c threads src dst m r ↔ r = .error f := by
  constructor
  · intro h
    cases h with
    | planFault h => rw [hp] at h; cases h; rfl
    | fail h | single h | taskFault h | taskAssert h | taskErr h | stepFault h | done h => rw [hp] at h; cases h
  · rintro rfl; exact .planFault hp

/-- If all closures panic in the same way, so does `convert_multi_thread`. -/
theorem mtRuns_tasks_fault {c : Cpu F} {threads : Nat} {src dst : Img} {m : Mem} {f : Fault}
    {tasks : List (Exec (Except ConvertError (Job F)))} (hp : mtPlan threads src dst = .ok (.parallel tasks))
    (hne : tasks ≠ []) (ht : ∀ t ∈ tasks, t = .error f) (r : Exec (Except ConvertError Unit × Mem)) :
    MtRuns c threads src dst m r ↔ r = .error f := by
  have hw : (Threads.start c tasks m).workers = [] := by
    rw [Threads.start, List.filterMap_eq_nil_iff]
    intro t h
    rw [ht t h]; rfl
  obtain ⟨t, h0⟩ := List.exists_mem_of_ne_nil _ hne
  constructor
  · intro h
    cases h with
    | planFault h => rw [hp] at h; cases h
    | fail h => rw [hp] at h; cases h
    | single h => rw [hp] at h; cases h
    | taskFault h h' => rw [hp] at h; cases h; cases ht _ h'; rfl
    | taskAssert h h' => rw [hp] at h; cases h; cases ht _ h'
    | taskErr h h' => rw [hp] at h; cases h; cases ht _ h'
    | stepFault h h' hf =>
      rw [hp] at h; cases h
      have := (reach_no_workers h' hw).1
      cases hf with
      | call i w k ks view f hi => rw [this] at hi; cases hi
      | store i w st f hi => rw [this] at hi; cases hi
    | done h h' => rw [hp] at h; cases h; obtain ⟨j, hj⟩ := h' t h0; rw [ht t h0] at hj; cases hj
  · rintro rfl; exact .taskFault hp (ht t h0 ▸ h0)

/-- Images without rows, without columns, and an image with a plane that is too short. -/
def noRowsSrc : Img := .raw .RGB 2 0 [⟨⟨0, 0⟩, 6⟩] (.RGB ⟨.SRGB, .BT709⟩)
def noRowsDst : Img := .raw .I420 2 0 [⟨⟨100, 0⟩, 2⟩, ⟨⟨200, 0⟩, 1⟩, ⟨⟨300, 0⟩, 1⟩] (.YUV ⟨.SDR, .BT709, .BT709, true⟩)
def noColsSrc : Img := .raw .RGB 0 2 [⟨⟨0, 12⟩, 6⟩] (.RGB ⟨.SRGB, .BT709⟩)
def noColsDst : Img := .raw .I420 0 2 [⟨⟨100, 4⟩, 2⟩, ⟨⟨200, 1⟩, 1⟩, ⟨⟨300, 1⟩, 1⟩] (.YUV ⟨.SDR, .BT709, .BT709, true⟩)
def shortSrc : Img := .raw .RGB 4 2 [⟨⟨0, 23⟩, 12⟩] (.RGB ⟨.SRGB, .BT709⟩)

/-- **C22** is false for images without rows: valid, `convert` returns `Ok`, but with 2 or more CPUs
`convert_multi_thread` divides by zero. -/
theorem C22_no_rows_panics (ar sar : Arith F) (m : Mem) {threads : Nat} (ht : 2 ≤ threads) :
    noRowsSrc.boundsCheck = .ok (.ok ()) ∧ noRowsDst.boundsCheck = .ok (.ok ()) ∧
      convert ⟨scalarBackend ar, sar⟩ noRowsSrc noRowsDst m = .ok (.ok (), m) ∧
      ∀ r, MtRuns ⟨scalarBackend ar, sar⟩ threads noRowsSrc noRowsDst m r ↔ r = .error (.panic .divZero) := by
  refine ⟨by decide, by decide, by with_unfolding_all rfl, mtRuns_fault ?_⟩
  have : splitPlanes noRowsSrc.format.planeDesc [⟨⟨0, 0⟩, 6⟩] 0 threads = .error (.panic .divZero) := by
    rw [splitPlanes, show min threads (0 / 2) = 0 from Nat.min_zero _]; rfl
  rw [mtPlan, show verifyInputWindows noRowsSrc noRowsDst = .ok () from rfl]
  dsimp only
  rw [if_neg (by decide), if_neg (by omega), show noRowsSrc.planes = .ok [⟨⟨0, 0⟩, 6⟩] from rfl, ok_bind,
    show noRowsSrc.height = 0 from rfl, this]
  rfl

/-- **C22** is false for images without columns: `unwrap` of the error that `Image::from_planes` returns. -/
theorem C22_no_columns_panics (ar sar : Arith F) (m : Mem) :
    noColsSrc.boundsCheck = .ok (.ok ()) ∧ noColsDst.boundsCheck = .ok (.ok ()) ∧
      convert ⟨scalarBackend ar, sar⟩ noColsSrc noColsDst m = .ok (.ok (), m) ∧
      ∀ r, MtRuns ⟨scalarBackend ar, sar⟩ 2 noColsSrc noColsDst m r ↔ r = .error (.panic .unwrap) := by
  refine ⟨by decide, by decide, by with_unfolding_all rfl,
    mtRuns_tasks_fault (tasks := [.error (.panic .unwrap)]) (by with_unfolding_all rfl) (by simp) (by simp)⟩

/-- **C22** is false for invalid images: `convert` returns `Err`, `convert_multi_thread` panics in `split_at`. -/
theorem C22_short_plane_panics (ar sar : Arith F) (m : Mem) :
    (∃ e, convert ⟨scalarBackend ar, sar⟩ shortSrc demoDst m = .ok (.error (.boundsCheck e), m)) ∧
      ∀ r, MtRuns ⟨scalarBackend ar, sar⟩ 2 shortSrc demoDst m r ↔ r = .error (.panic .splitAt) := by
  refine ⟨⟨_, by with_unfolding_all rfl⟩, mtRuns_fault (by with_unfolding_all rfl)⟩

end Ezk.Props

import Verif.Proofs.Strips

/-!
# `convert_multi_thread` has exactly the outcome of `convert`
-/

namespace Ezk
open FOps Spec

variable {F : Type} [FOps F]

/-! ## Images of strips -/

/-- The image made for a strip. -/
def stripImg (t : Img) (ps : List Plane) (w : Nat) (s : Nat × Nat) : Image :=
  ⟨t.format, .split ((stripPlanes t.format ps s.1 s.2).map (·.slice)), (stripPlanes t.format ps s.1 s.2).map (·.stride),
    w, s.2, t.color⟩

theorem zip_planes : ∀ ps : List Plane, ((ps.map (·.slice)).zip (ps.map (·.stride))).map
    (fun x : Slice × Nat => (⟨x.1, x.2⟩ : Plane)) = ps
  | [] => rfl
  | p :: ps => by simp only [List.map_cons, List.zip_cons_cons, zip_planes ps]

theorem stripImg_valid {t : Img} {ps : List Plane} {w H : Nat} (hf : Fits t.format ps w H) {s : Nat × Nat}
    (hs : s.2 ≤ H) : Valid (.image (stripImg t ps w s)) (stripPlanes t.format ps s.1 s.2) := by
  refine ⟨?_, hf.strip hs⟩
  show Except.ok _ = _
  congr 1
  exact zip_planes _

theorem stripImage_ok {t : Img} {ps : List Plane} {w H : Nat} (hf : Fits t.format ps w H) {s : Nat × Nat}
    (hs : s.2 ≤ H) (hw : 0 < w) (h0 : 0 < s.2) :
    stripImage t.format (stripPlanes t.format ps s.1 s.2) w s.2 t.color = .ok (stripImg t ps w s) := by
  have hc := (stripImg_valid hf hs).check
  rw [stripImage, Image.fromPlanes, Image.new, if_neg (by omega)]
  simp only [pure_ok, ok_bind, stripImg] at hc ⊢
  rw [hc]
  rfl

theorem fits_height {f : PixelFormat} {ps : List Plane} {w h : Nat} (hf : Fits f ps w h) (hw : 0 < w) :
    h < usizeSize := by
  obtain ⟨p, hp⟩ := exists_plane hf (i := 0) (by cases f <;> simp [planeCount])
  have hfit := hf.2 0 (by cases f <;> simp [planeCount]) p hp
  have h1 : 1 ≤ p.stride := by
    have := hfit.stride_ge
    have : 1 ≤ rowBytes f 0 w := by cases f <;> simp only [rowBytes, if_true] <;> omega
    omega
  have h2 : rowCount f 0 h = h := by cases f <;> simp [rowCount]
  have h3 := hfit.size_usize
  rw [h2] at h3
  have := Nat.mul_le_mul_right h h1
  simp only [usizeSize]
  omega

/-! ## Strips partition the rows -/

theorem strip_search (H n Y : Nat) : ∀ k, Y < stripStart H n k → ∃ j < k, stripStart H n j ≤ Y ∧
    Y < stripStart H n j + stripHeight H n j
  | 0, h => by rw [stripStart_zero] at h; omega
  | k + 1, h => by
    by_cases hk : Y < stripStart H n k
    · obtain ⟨j, hj, h1, h2⟩ := strip_search H n Y k hk
      exact ⟨j, by omega, h1, h2⟩
    · rw [stripStart_succ] at h
      exact ⟨k, by omega, by omega, h⟩

theorem strip_of_row {H threads Y : Nat} (ht : 0 < threads) (h2 : H % 2 = 0) (hY : Y < H) :
    ∃ s ∈ strips H threads, s.1 ≤ Y ∧ Y < s.1 + s.2 := by
  have hn : 0 < stripCount H threads := by rw [stripCount]; omega
  have : Y < stripStart H (stripCount H threads) (stripCount H threads) := by rw [stripStart_end hn]; omega
  obtain ⟨j, hj, h1, h2⟩ := strip_search _ _ _ _ this
  exact ⟨_, List.mem_map.2 ⟨j, List.mem_range.2 hj, rfl⟩, h1, h2⟩

theorem strip_facts {H threads : Nat} {s : Nat × Nat} (hs : s ∈ strips H threads) :
    s.1 % 2 = 0 ∧ s.2 % 2 = 0 ∧ 0 < s.2 ∧ s.1 + s.2 ≤ H := by
  obtain ⟨k, hk, rfl⟩ := List.mem_map.1 hs
  have hk := List.mem_range.1 hk
  have hn : 0 < stripCount H threads := by omega
  refine ⟨stripStart_even .., stripHeight_even .., stripHeight_pos hn (by rw [stripCount]; omega) _, ?_⟩
  dsimp only
  have := stripStart_mono H (stripCount H threads) (show k + 1 ≤ stripCount H threads by omega)
  rw [stripStart_end hn, stripStart_succ] at this
  omega

/-! ## The plan -/

section
variable {src dst : Img} {sps dps : List Plane}

/-- The closure for a strip, in terms of strips of the images. -/
def stripTask (src dst : Img) (sps dps : List Plane) (s : Nat × Nat) : Exec (Except ConvertError (Job F)) :=
  convertJob (.image (stripImg src sps src.width s)) (.image (stripImg dst dps src.width s))

theorem mtPlan_parallel (hs : Valid src sps) (hd : Valid dst dps) (hw : src.width = dst.width)
    (hh : src.height = dst.height) (ew : dst.width % 2 = 0) (eh : dst.height % 2 = 0)
    (hne : ¬ (src.format = dst.format ∧ src.color = dst.color)) {threads : Nat} (ht : 1 < threads)
    (pw : 0 < src.width) (ph : 2 ≤ src.height) :
    mtPlan (F := F) threads src dst =
      .ok (.parallel ((strips src.height threads).map (stripTask src dst sps dps))) := by
  have dfit := hd.fits
  rw [← hw, ← hh] at dfit
  have hH := fits_height hs.fits pw
  rw [mtPlan, verify_ok hw hh ew eh]
  dsimp only
  rw [if_neg hne, if_neg (by omega), hs.planes, ok_bind, splitPlanes_eq hs.fits hH (by omega) ph, ok_bind, hd.planes,
    ok_bind, splitPlanes_eq dfit hH (by omega) ph, ok_bind]
  rw [pure_ok]
  congr 2
  rw [List.zip_map', List.map_map]
  apply List.map_congr_left
  intro s hs'
  obtain ⟨h1, h2, h3, h4⟩ := strip_facts hs'
  show stripJob src dst (s.2, _) (s.2, _) = _
  rw [stripJob]
  dsimp only
  rw [stripImage_ok hs.fits (by omega) pw h3, ok_bind, stripImage_ok dfit (by omega) pw h3, ok_bind]
  rfl

/-- A strip of the destination: what the call does, seen from the whole image. -/
theorem stripTask_ok (hs : Valid src sps) (hd : Valid dst dps) (hw : src.width = dst.width)
    (hh : src.height = dst.height) (ew : dst.width % 2 = 0) (hcol : ColorsOk src dst)
    (hu : UniformStrides src.format sps) (hsep : Separate src.format sps dst.format dps) {m0 : Mem} {V : Pic Nat}
    (hV : Depicts src.format sps src.width src.height m0 V) {c : Cpu F} (hc : c.vec.Lawful) {threads : Nat}
    {s : Nat × Nat} (hs' : s ∈ strips src.height threads) :
    ∃ v : Visitor F, stripTask src dst sps dps s = .ok (.ok ⟨dst.width, s.2, v⟩) ∧
      ∀ k ∈ visitCalls c.vec.LEN dst.width s.2, ∀ m,
        (∀ a, Outside dst.format dps dst.width dst.height a → m a = m0 a) →
        ∃ ws : List RowWrite, v.prepare (c.backend k.vectored) k.x k.y m = .ok (ws.map (storeOf dps)) ∧
          (∀ r ∈ ws, r.Good dst.format dst.width dst.height (cellByte (cpuBlk c dst.width) dst.format
            (floatBlk (cpuBlk c dst.width) src.format src.color dst.format dst.color V))) ∧
          (∀ i row col, InDom dst.format dst.width dst.height i row col →
            CellIn dst.format (c.backend k.vectored).LEN k.x (k.y + s.1) i row col → ∃ r ∈ ws, r.Covers i row col) ∧
          ∀ r ∈ ws, ∀ i row col, r.Covers i row col → InStrip dst.format s.1 s.2 i row col := by
  obtain ⟨h1, h2, h3, h4⟩ := strip_facts hs'
  have sfit := hs.fits
  rw [hw, hh] at sfit
  rw [hh] at h4 hV
  rw [hw] at hV
  have vs : Valid (.image (stripImg src sps src.width s)) (stripPlanes src.format sps s.1 s.2) :=
    stripImg_valid hs.fits (by rw [hh]; omega)
  have vd : Valid (.image (stripImg dst dps src.width s)) (stripPlanes dst.format dps s.1 s.2) :=
    stripImg_valid (H := dst.height) (by rw [hw]; exact hd.fits) (by omega)
  obtain ⟨v, e1, e2⟩ := convertJob_sound (F := F) vs vd rfl rfl (by show src.width % 2 = 0; omega) h2 hcol
  refine ⟨v, by rw [stripTask, e1, ← hw]; rfl, fun k hk m hm => ?_⟩
  have e2 := e2 m (shiftPic s.1 V) (cpuBlk c dst.width) (cpuBlk_pair c ew)
  have hus := Ezk.UniformStrides.strip hu s.1 s.2
  have fs : Fits src.format (stripPlanes src.format sps s.1 s.2) dst.width s.2 := sfit.strip (by omega)
  have hr := readSafe_of_uniform fs hus
  have hS : Seen src.format (stripPlanes src.format sps s.1 s.2) dst.width s.2 m (shiftPic s.1 V) := by
    refine (seen_of_depicts hus (Ezk.Depicts.strip hV h1 h4)).frame fs hr ew h2 ?_
    intro i hi p hp a ha1 ha2
    apply hm
    intro j row col q hD hq e
    have hin := hD.inside hd.fits hq
    rw [e] at hin
    obtain ⟨-, p', hp', rfl⟩ := stripPlanes_some hp
    have hfit := sfit.2 i hi p' hp'
    have t1 := rowCount_mono src.format i h4
    rw [rowCount_even_add src.format i s.2 h1] at t1
    have t2 := Nat.mul_le_mul_left p'.stride t1
    rw [Nat.mul_add] at t2
    have t3 := hfit.size_le
    simp only [stripPlane] at ha1 ha2
    exact hsep i j p' q hi hD.plane hp' hq a (by omega) (by omega) hin.1 hin.2
  have e2 : VisitSound v dst.format (stripPlanes dst.format dps s.1 s.2) m dst.width s.2 (cpuBlk c dst.width)
      (floatBlk (cpuBlk c dst.width) src.format src.color dst.format dst.color (shiftPic s.1 V)) := by
    have hw' : (Img.image (stripImg dst dps src.width s)).width = dst.width := hw
    rw [hw'] at e2
    exact e2 hS hr
  rw [floatBlk_shift _ _ _ _ _ h1] at e2
  exact e2.up h1 h4 (call_of_mem hc ew h2 hk)

/-- The invariant holds when the parallel section begins. -/
theorem start_inv (hs : Valid src sps) (hd : Valid dst dps) (hw : src.width = dst.width)
    (hh : src.height = dst.height) (ew : dst.width % 2 = 0) (eh : dst.height % 2 = 0) (hcol : ColorsOk src dst)
    (hu : UniformStrides src.format sps) (hsep : Separate src.format sps dst.format dps) {m0 : Mem} {V : Pic Nat}
    (hV : Depicts src.format sps src.width src.height m0 V) {c : Cpu F} (hc : c.vec.Lawful) {threads : Nat}
    (ht : 0 < threads) :
    Inv c dst.format dps dst.width dst.height (cellByte (cpuBlk c dst.width) dst.format
      (floatBlk (cpuBlk c dst.width) src.format src.color dst.format dst.color V)) m0
      (Threads.start c ((strips src.height threads).map (stripTask src dst sps dps)) m0) := by
  have key := fun s hs' => stripTask_ok (c := c) (s := s) hs hd hw hh ew hcol hu hsep hV hc (threads := threads) hs'
  have wk : ∀ wk ∈ (Threads.start c ((strips src.height threads).map (stripTask src dst sps dps)) m0).workers,
      ∃ s ∈ strips src.height threads, ∃ v : Visitor F, stripTask src dst sps dps s = .ok (.ok ⟨dst.width, s.2, v⟩) ∧
        wk = ⟨v, visitCalls c.vec.LEN dst.width s.2, []⟩ := by
    intro wk hwk
    obtain ⟨t, ht, e⟩ := List.mem_filterMap.1 hwk
    obtain ⟨s, hs', rfl⟩ := List.mem_map.1 ht
    obtain ⟨v, h1, -⟩ := key s hs'
    rw [h1, taskWorker, Option.some.injEq] at e
    exact ⟨s, hs', v, h1, e.symm⟩
  refine ⟨fun a _ => ⟨rfl, fun b hb => hb⟩, fun a => rfl, ?_, ?_, ?_⟩
  · intro w hw' k hk m hm
    obtain ⟨s, hs', v, h1, rfl⟩ := wk w hw'
    obtain ⟨v', h2, h3⟩ := key s hs'
    rw [h1] at h2
    cases h2
    obtain ⟨ws, g1, g2, -⟩ := h3 k hk m hm
    exact ⟨ws, g1, g2, fun _ _ _ _ h => h.elim⟩
  · intro w hw' st hst
    obtain ⟨s, hs', v, h1, rfl⟩ := wk w hw'
    cases hst
  · intro i row col p hD hp
    right
    obtain ⟨hX, hY⟩ := cellOf_lt hD
    rw [← hh] at hY
    obtain ⟨s, hs', b1, b2⟩ := strip_of_row ht (by omega) hY
    obtain ⟨f1, f2, f3, f4⟩ := strip_facts hs'
    obtain ⟨v, h1, h2⟩ := key s hs'
    refine ⟨⟨v, visitCalls c.vec.LEN dst.width s.2, []⟩,
      List.mem_filterMap.2 ⟨_, List.mem_map.2 ⟨s, hs', rfl⟩, by rw [h1]; rfl⟩, Or.inl ?_⟩
    obtain ⟨k, hk, x1, x2, y1, y2⟩ := visited (c := c) f2 hX
      (show (cellOf dst.format i row col).2.2.1 - s.1 < s.2 by omega)
    refine ⟨k, hk, fun m hm => ?_⟩
    obtain ⟨ws, g1, g2, g3, -⟩ := h2 k hk m hm
    refine ⟨ws, g1, g2, ?_⟩
    rintro i' row' col' hd' ⟨rfl, rfl, rfl⟩
    exact g3 _ _ _ hd' ⟨x1, x2, by omega, by omega⟩

/-! ## Outcomes -/

theorem mtRuns_fail {c : Cpu F} {threads : Nat} {m : Mem} {e : ConvertError}
    (h : mtPlan (F := F) threads src dst = .ok (.fail e)) (r : Exec (Except ConvertError Unit × Mem)) :
    MtRuns c threads src dst m r ↔ r = .ok (.error e, m) := by
  constructor
  · intro hr
    cases hr with
    | fail h' => rw [h] at h'; cases h'; rfl
    | _ h' => rw [h] at h'; cases h'
  · rintro rfl
    exact .fail h

theorem mtRuns_single {c : Cpu F} {threads : Nat} {m : Mem} {j : Exec (Except ConvertError (Job F))}
    (h : mtPlan (F := F) threads src dst = .ok (.single j)) (r : Exec (Except ConvertError Unit × Mem)) :
    MtRuns c threads src dst m r ↔ r = runJob c j m := by
  constructor
  · intro hr
    cases hr with
    | single h' => rw [h] at h'; cases h'; rfl
    | _ h' => rw [h] at h'; cases h'
  · rintro rfl
    exact .single h

theorem report_error {α : Type} {r : Exec (Except ConvertError α)} {e : ConvertError} (h : report r = .ok (.error e)) :
    r = .ok (.error e) := by
  rcases r with f | e' | a <;> simp only [report] at h <;> cases h
  rfl

/-- Colours are all that is left to complain about. -/
theorem convertJob_colors (hs : Valid src sps) (hd : Valid dst dps) (hw : src.width = dst.width)
    (hh : src.height = dst.height) (ew : dst.width % 2 = 0) (eh : dst.height % 2 = 0) (hcol : ¬ ColorsOk src dst) :
    convertJob (F := F) src dst = .ok (.error .invalidColorInfo) := by
  apply report_error
  have h1 : checkBounds src = .ok (.ok ()) := by rw [checkBounds, hs.check]; rfl
  have h2 : checkBounds dst = .ok (.ok ()) := by rw [checkBounds, hd.check]; rfl
  have hne : ¬ (src.format = dst.format ∧ src.color = dst.color) := fun h => hcol (Or.inl h)
  rw [convertJob_report, verdict, if_neg (by omega), if_neg (by omega), if_neg hne, h1, h2]
  have bad : ∀ t : Img, ¬ ColorOk t.format t.color → checkColor t = .ok (.error .invalidColorInfo) := by
    intro t ht
    rw [checkColor]
    cases hy : isYuv t.format
    · exact (ht (by intro h; rw [hy] at h; cases h)).elim
    · cases hc : t.color with
      | RGB i => rfl
      | YUV i => exact (ht (fun _ => ⟨i, hc⟩)).elim
  have good : ∀ t : Img, ColorOk t.format t.color → checkColor t = .ok (.ok ()) := by
    intro t ht
    rw [checkColor]
    cases hy : isYuv t.format
    · rfl
    · obtain ⟨i, hi⟩ := ht hy
      rw [hi]
  by_cases c1 : ColorOk src.format src.color
  · rw [good src c1, bad dst fun c2 => hcol (Or.inr ⟨c1, c2⟩)]; rfl
  · rw [bad src c1]; rfl

/-- No worker, no change. -/
theorem reach_no_workers {c : Cpu F} {s t : Threads F} (hr : Reach c s t) (h : s.workers = []) :
    t.workers = [] ∧ t.mem = s.mem := by
  induction hr with
  | refl => exact ⟨h, rfl⟩
  | advance _ ha ih =>
    cases ha with
    | call i w k ks view sts hw => rw [ih.1] at hw; cases hw
    | store i w l₁ st l₂ m hw => rw [ih.1] at hw; cases hw
  | tear _ ht ih =>
    cases ht with
    | mk i w st m₁ m₂ hw => rw [ih.1] at hw; cases hw

theorem mtRuns_parallel (hs : Valid src sps) (hd : Valid dst dps) (hw : src.width = dst.width)
    (hh : src.height = dst.height) (ew : dst.width % 2 = 0) (eh : dst.height % 2 = 0)
    (hu : UniformStrides src.format sps) (hdis : PlanesDisjoint dst.format dps)
    (hsep : Separate src.format sps dst.format dps) {c : Cpu F} (hc : c.vec.Lawful) {threads : Nat} (ht : 0 < threads)
    (ph : 2 ≤ src.height) {m : Mem}
    (hplan : mtPlan (F := F) threads src dst =
      .ok (.parallel ((strips src.height threads).map (stripTask src dst sps dps))))
    (r : Exec (Except ConvertError Unit × Mem)) :
    MtRuns c threads src dst m r ↔ r = convert c src dst m := by
  have sfit := hs.fits
  rw [hw, hh] at sfit
  by_cases hcol : ColorsOk src dst
  · have hV : ∃ V, Depicts src.format sps src.width src.height m V := by
      refine ⟨shown src.format sps m, fun ch x y l hx hy hl => ?_⟩
      rw [shown, sample, hl, Option.bind_some, locAddr]
      have hp : l.plane < planeCount src.format := by
        cases hf : src.format <;> rw [hf] at hl <;> cases ch <;>
          simp only [sampleLoc, Option.some.injEq, reduceCtorEq] at hl <;> subst hl <;> simp [planeCount]
      obtain ⟨p, hp⟩ := exists_plane hs.fits hp
      rw [hp]; rfl
    obtain ⟨V, hV⟩ := hV
    have hI := start_inv (c := c) hs hd hw hh ew eh hcol hu hsep hV hc ht
    have tasks : ∀ t ∈ (strips src.height threads).map (stripTask (F := F) src dst sps dps),
        ∃ v s, t = .ok (.ok ⟨dst.width, s, v⟩) ∧ s % 2 = 0 := by
      intro t ht'
      obtain ⟨s, hs', rfl⟩ := List.mem_map.1 ht'
      obtain ⟨v, h1, -⟩ := stripTask_ok (c := c) (s := s) hs hd hw hh ew hcol hu hsep hV hc (threads := threads) hs'
      exact ⟨v, s.2, h1, (strip_facts hs').2.1⟩
    have fin : ∀ s, Reach c (Threads.start c ((strips src.height threads).map (stripTask src dst sps dps)) m) s →
        s.Finished → convert c src dst m = .ok (.ok (), s.mem) := by
      intro s hr hf
      have hV' := hV
      rw [hw, hh] at hV'
      obtain ⟨m', e1, e2⟩ := convert_main hc hs hd hw hh ew eh hcol (readSafe_of_uniform sfit hu) hdis hsep
        (seen_of_depicts hu hV')
      rw [e1, painted_unique e2 ((hI.reach hd.fits hdis hr).painted hf) (fun _ _ _ _ => rfl)]
    constructor
    · intro hr
      cases hr with
      | planFault h' => rw [hplan] at h'; cases h'
      | fail h' => rw [hplan] at h'; cases h'
      | single h' => rw [hplan] at h'; cases h'
      | taskFault h' ht' =>
        rw [hplan] at h'; cases h'
        obtain ⟨v, s, e, -⟩ := tasks _ ht'
        cases e
      | taskAssert h' ht' hj =>
        rw [hplan] at h'; cases h'
        obtain ⟨v, s, e, e2⟩ := tasks _ ht'
        cases e
        rcases hj with h | h
        · exact (h ew).elim
        · exact (h e2).elim
      | taskErr h' ht' =>
        rw [hplan] at h'; cases h'
        obtain ⟨v, s, e, -⟩ := tasks _ ht'
        cases e
      | stepFault h' hs' hf =>
        rw [hplan] at h'; cases h'
        exact ((hI.reach hd.fits hdis hs').safe _ hf).elim
      | done h' ht' hs' hf =>
        rw [hplan] at h'; cases h'
        exact (fin _ hs' hf).symm
    · rintro rfl
      obtain ⟨s, h1, h2⟩ := hI.finish hd.fits hdis (.refl (c := c))
      rw [fin s h1 h2]
      refine .done hplan (fun t ht' => ?_) h1 h2
      obtain ⟨v, s, e, -⟩ := tasks t ht'
      exact ⟨_, e⟩
  · have whole : convert c src dst m = .ok (.error .invalidColorInfo, m) := by
      rw [convert, convertJob_colors hs hd hw hh ew eh hcol]; rfl
    have tasks : ∀ t ∈ (strips src.height threads).map (stripTask (F := F) src dst sps dps),
        t = .ok (.error .invalidColorInfo) := by
      intro t ht'
      obtain ⟨s, hs', rfl⟩ := List.mem_map.1 ht'
      obtain ⟨f1, f2, f3, f4⟩ := strip_facts hs'
      have vs : Valid (.image (stripImg src sps src.width s)) (stripPlanes src.format sps s.1 s.2) :=
        stripImg_valid hs.fits (by omega)
      have vd : Valid (.image (stripImg dst dps src.width s)) (stripPlanes dst.format dps s.1 s.2) :=
        stripImg_valid (H := dst.height) (by rw [hw]; exact hd.fits) (by omega)
      exact convertJob_colors vs vd rfl rfl (by show src.width % 2 = 0; omega) f2 hcol
    have nowork : (Threads.start c ((strips src.height threads).map (stripTask src dst sps dps)) m).workers = [] := by
      rw [Threads.start]
      dsimp only
      rw [List.filterMap_eq_nil_iff]
      intro t ht'
      rw [tasks t ht']; rfl
    have one : ∃ t, t ∈ (strips src.height threads).map (stripTask (F := F) src dst sps dps) := by
      obtain ⟨s, hs', -⟩ := strip_of_row (Y := 0) ht (show src.height % 2 = 0 by omega) (by omega)
      exact ⟨_, List.mem_map.2 ⟨s, hs', rfl⟩⟩
    obtain ⟨t, one⟩ := one
    rw [whole]
    constructor
    · intro hr
      cases hr with
      | planFault h' => rw [hplan] at h'; cases h'
      | fail h' => rw [hplan] at h'; cases h'
      | single h' => rw [hplan] at h'; cases h'
      | taskFault h' ht' =>
        rw [hplan] at h'; cases h'
        cases tasks _ ht'
      | taskAssert h' ht' hj =>
        rw [hplan] at h'; cases h'
        cases tasks _ ht'
      | taskErr h' ht' hs' =>
        rw [hplan] at h'; cases h'
        cases tasks _ ht'
        rw [(reach_no_workers hs' nowork).2]; rfl
      | stepFault h' hs' hf =>
        rw [hplan] at h'; cases h'
        have := (reach_no_workers hs' nowork).1
        cases hf with
        | call i w k ks view f hw => rw [this] at hw; cases hw
        | store i w st f hw => rw [this] at hw; cases hw
      | done h' ht' hs' hf =>
        rw [hplan] at h'; cases h'
        obtain ⟨j, e⟩ := ht' t one
        rw [tasks t one] at e; cases e
    · rintro rfl
      have := tasks t one
      subst this
      exact .taskErr hplan one .refl

/-- The outcomes of `convert_multi_thread`. -/
theorem mtRuns_iff (hs : Valid src sps) (hd : Valid dst dps) (hu : UniformStrides src.format sps)
    (hdis : PlanesDisjoint dst.format dps) (hsep : Separate src.format sps dst.format dps) {c : Cpu F}
    (hc : c.vec.Lawful) {threads : Nat} (ht : 0 < threads) (pw : 0 < src.width) (ph : 0 < src.height) {m : Mem}
    (r : Exec (Except ConvertError Unit × Mem)) : MtRuns c threads src dst m r ↔ r = convert c src dst m := by
  by_cases hv : verifyInputWindows src dst = .ok ()
  · by_cases same : src.format = dst.format ∧ src.color = dst.color
    · have : mtPlan (F := F) threads src dst = .ok (.single (convertSameJob src dst)) := by
        rw [mtPlan, hv]; dsimp only; rw [if_pos same]; rfl
      rw [mtRuns_single this, convert, convertJob, hv, bindE_ok, if_pos same]
    · by_cases h1 : threads = 1
      · have : mtPlan (F := F) threads src dst = .ok (.single (convertJob src dst)) := by
          rw [mtPlan, hv]; dsimp only; rw [if_neg same, if_pos h1]; rfl
        rw [mtRuns_single this, convert]
      · have hw : src.width = dst.width ∧ src.height = dst.height ∧ dst.width % 2 = 0 ∧ dst.height % 2 = 0 := by
          rw [verifyInputWindows] at hv
          split at hv
          · cases hv
          · split at hv
            · cases hv
            · omega
        obtain ⟨hw, hh, ew, eh⟩ := hw
        exact mtRuns_parallel hs hd hw hh ew eh hu hdis hsep hc ht (by omega)
          (mtPlan_parallel hs hd hw hh ew eh same (by omega) pw (by omega)) r
  · obtain ⟨e, he⟩ : ∃ e, verifyInputWindows src dst = .error e := by
      rcases h : verifyInputWindows src dst with e | u
      · exact ⟨e, rfl⟩
      · exact (hv h).elim
    have : mtPlan (F := F) threads src dst = .ok (.fail e) := by
      rw [mtPlan, he]; rfl
    rw [mtRuns_fail this, convert, convertJob, he]
    rfl

end
end Ezk

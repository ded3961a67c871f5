import Verif.Proofs.NoWrap
import Verif.Proofs.Resize

/-!
# Plain operators do not overflow: constructors, threads, `copy`, `resize`
-/

namespace Ezk
open FOps Spec

variable {F : Type} [FOps F]

/-! ## Constructors -/

theorem Image.new_noWrap (f : PixelFormat) (b : Buffer) (ss : Option (List Nat)) (w h : Nat) (col : ColorInfo) :
    NoWrap (Image.new f b ss w h col) := by
  rw [Image.new]
  have check : ∀ i : Image, NoWrap (do
      match ← (Img.image i).boundsCheck with
      | .error e => return .error (.boundsCheck e)
      | .ok () => return .ok i : Exec (Except ImageError Image)) := fun i =>
    (Img.boundsCheck_noWrap (t := .image i) (Image.planes_noWrap i)).bind' fun r => by cases r <;> nofun
  split
  · nofun
  · cases ss with
    | none => exact NoWrap.bind' (mapM_noWrap _ fun d _ => packedStride_noWrap d w) fun _ => check _
    | some s => exact check _

theorem bufferSizeLoop_noWrap (w h : Nat) : ∀ (l : List PlaneDesc) (n : Nat), NoWrap (PixelFormat.bufferSizeLoop w h l n)
  | [], _ => NoWrap.ok _
  | d :: l, n => by
    rw [PixelFormat.bufferSizeLoop]
    exact (op_noWrap _ _).bind' fun _ => (op_noWrap _ _).bind' fun _ => (mulU_noWrap _ _).bind' fun _ =>
      (mulU_noWrap _ _).bind' fun _ => (addU_noWrap _ _).bind' fun _ => bufferSizeLoop_noWrap w h l _

theorem Image.blank_noWrap (m : Mem) (addr : Nat) (f : PixelFormat) (w h : Nat) (col : ColorInfo) :
    NoWrap (Image.blank m addr f w h col) := by
  rw [Image.blank]
  refine (bufferSizeLoop_noWrap w h _ _).bind' fun n => NoWrap.bind' ?_ fun b => ?_
  · rw [Image.vecZeroed]; split <;> nofun
  · exact NoWrap.bind' (mapM_noWrap _ fun d _ => packedStride_noWrap d w) fun _ => NoWrap.ok _

theorem Img.crop_noWrap {t : Img} (h : NoWrap t.planes) (win : Window) : NoWrap (t.crop win) := by
  intro he
  rcases hb : t.boundsCheck with e | e | ⟨⟩
  · rw [crop_eq_fault _ _ _ hb] at he
    cases he
    exact Img.boundsCheck_noWrap h hb
  · rw [crop_eq_err _ _ _ hb] at he; cases he
  · by_cases hin : WindowInside win t.width t.height
    · rw [(crop_eq t win hb).1 hin] at he; cases he
    · rw [(crop_eq t win hb).2 hin] at he; cases he

/-! ## Threads -/

/-- No worker can run into an overflow of a plain operator. -/
def Quiet (c : Cpu F) (s : Threads F) : Prop :=
  ∀ w ∈ s.workers,
    (∀ k ∈ w.todo, ∀ m, NoWrap (w.visitor.prepare (c.backend k.vectored) k.x k.y m) ∧
      ∀ sts, w.visitor.prepare (c.backend k.vectored) k.x k.y m = .ok sts → ∀ st ∈ sts, ∀ m, NoWrap (st m)) ∧
    ∀ st ∈ w.pending, ∀ m, NoWrap (st m)

theorem Quiet.advance {c : Cpu F} {s t : Threads F} (h : Quiet c s) (ha : Advance c s t) : Quiet c t := by
  cases ha with
  | call i w k ks view sts hw hk hview hp =>
    intro w' hw'
    obtain ⟨h1, h2⟩ := h w (List.mem_of_getElem? hw)
    rcases List.mem_or_eq_of_mem_set hw' with hw' | rfl
    · exact h w' hw'
    · refine ⟨fun k' hk' => h1 k' (by rw [hk]; exact List.mem_cons_of_mem _ hk'), fun st hst => ?_⟩
      rcases List.mem_append.1 hst with hst | hst
      · exact h2 st hst
      · exact (h1 k (by rw [hk]; exact List.mem_cons_self ..) view).2 sts hp st hst
  | store i w l₁ st l₂ m hw hp hm =>
    intro w' hw'
    obtain ⟨h1, h2⟩ := h w (List.mem_of_getElem? hw)
    rcases List.mem_or_eq_of_mem_set hw' with hw' | rfl
    · exact h w' hw'
    · refine ⟨h1, fun st' hst => h2 st' ?_⟩
      rw [hp]
      rcases List.mem_append.1 hst with hst | hst
      · exact List.mem_append_left _ hst
      · exact List.mem_append_right _ (List.mem_cons_of_mem _ hst)

theorem Quiet.tear {c : Cpu F} {s t : Threads F} (h : Quiet c s) (ha : Tear s t) : Quiet c t := by
  cases ha
  exact h

theorem Quiet.reach {c : Cpu F} {s t : Threads F} (h : Quiet c s) (hr : Reach c s t) : Quiet c t := by
  induction hr with
  | refl => exact h
  | advance _ ha ih => exact ih.advance ha
  | tear _ ha ih => exact ih.tear ha

theorem Quiet.faulty {c : Cpu F} {s : Threads F} (h : Quiet c s) {f : Fault} (hf : Faulty c s f) :
    f ≠ .panic .wrap := by
  rintro rfl
  cases hf with
  | call i w k ks view f hw hk hview hp =>
    exact ((h w (List.mem_of_getElem? hw)).1 k (by rw [hk]; exact List.mem_cons_self ..) view).1 hp
  | store i w st f hw hst hm => exact (h w (List.mem_of_getElem? hw)).2 st hst _ hm

theorem splitStrip_noWrap (h : Nat) : ∀ (ds : List PlaneDesc) (ps : List Plane), NoWrap (splitStrip h ds ps)
  | [], _ => by rw [splitStrip]; exact NoWrap.ok _
  | _ :: _, [] => by rw [splitStrip]; exact NoWrap.ok _
  | d :: ds, p :: ps => by
    rw [splitStrip]
    exact (op_noWrap _ _).bind' fun _ => (mulU_noWrap _ _).bind' fun _ => (splitAt_noWrap _ _).bind' fun _ =>
      (splitStrip_noWrap h ds ps).bind' fun _ => NoWrap.ok _

theorem splitLoop_noWrap {ds : List PlaneDesc} {p : Nat} (hp : p + 1 < usizeSize) :
    ∀ (n r : Nat) (ps : List Plane), NoWrap (splitLoop ds p n r ps)
  | 0, _, _ => NoWrap.ok _
  | n + 1, r, ps => by
    rw [splitLoop]
    refine (addP_noWrap ?_).bind' fun _ => (mulU_noWrap _ _).bind' fun _ => (splitStrip_noWrap _ _ _).bind' fun _ =>
      (splitLoop_noWrap hp n _ _).bind' fun _ => NoWrap.ok _
    split <;> omega

theorem splitPlanes_noWrap {ds : List PlaneDesc} {ps : List Plane} {h threads : Nat} (hh : h < usizeSize) :
    NoWrap (splitPlanes ds ps h threads) := by
  rw [splitPlanes]
  refine (divU_noWrap _ _).bind fun p hp => (modU_noWrap _ _).bind' fun r => splitLoop_noWrap ?_ _ _ _
  rw [divU] at hp
  split at hp <;> cases hp
  have := Nat.div_le_self (h / 2) (min threads (h / 2))
  omega

theorem stripImage_noWrap (f : PixelFormat) (ps : List Plane) (w h : Nat) (col : ColorInfo) :
    NoWrap (stripImage f ps w h col) := by
  rw [stripImage]
  refine (Image.new_noWrap _ _ _ _ _ _).bind' fun r => ?_
  cases r <;> nofun

theorem convertJob_noWrap {src dst : Img} (hs : NoWrap src.planes) (hd : NoWrap dst.planes) :
    NoWrap (convertJob (F := F) src dst) := by
  intro h
  have := convertJob_report (F := F) src dst
  rw [h] at this
  exact verdict_noWrap hs hd this.symm

theorem stripJob_noWrap (src dst : Img) (s d : Nat × List Plane) : NoWrap (stripJob (F := F) src dst s d) := by
  rw [stripJob]
  exact (stripImage_noWrap _ _ _ _ _).bind' fun si => (stripImage_noWrap _ _ _ _ _).bind' fun di =>
    convertJob_noWrap (Image.planes_noWrap si) (Image.planes_noWrap di)

/-- The worker of a conversion. -/
theorem convertJob_quiet {c : Cpu F} (hc : c.vec.Lawful) {src dst : Img} {j : Job F} (h : convertJob src dst = .ok (.ok j)) :
    ∀ k ∈ (j.worker c).todo, CallSafe j.visitor (c.backend k.vectored) k.x k.y := by
  have hv : verdict src dst = .ok (.ok ()) := by rw [← convertJob_report (F := F), h]; rfl
  obtain ⟨⟨sps, v1⟩, ⟨dps, v2⟩, -⟩ := verdict_ok hv
  have hr := returned_of_verdict hv v1.planes v2.planes
  obtain ⟨v, h1, h2⟩ := convertJob_safe hr c hc
  rw [h1] at h
  cases h
  exact h2

theorem start_quiet {c : Cpu F} (hc : c.vec.Lawful) {src dst : Img} (l : List ((Nat × List Plane) × Nat × List Plane)) (m : Mem) :
    Quiet c (Threads.start c (l.map fun (s, d) => stripJob src dst s d) m) := by
  intro w hw
  obtain ⟨t, ht, hw⟩ := List.mem_filterMap.1 hw
  obtain ⟨⟨s, d⟩, -, rfl⟩ := List.mem_map.1 ht
  rcases hj : stripJob (F := F) src dst s d with e | e | j <;> simp only [hj] at hw <;> cases hw
  rw [stripJob] at hj
  obtain ⟨si, -, hj⟩ := bind_ok_inv hj
  obtain ⟨di, -, hj⟩ := bind_ok_inv hj
  refine ⟨fun k hk m => ?_, nofun⟩
  have := convertJob_quiet hc hj k hk m
  exact ⟨this.1.noWrap, fun sts hp st hst m => by obtain ⟨m', h⟩ := this.2 sts hp st hst m; rw [h]; nofun⟩

theorem mtRuns_noWrap {c : Cpu F} (hc : c.vec.Lawful) {threads : Nat} {src dst : Img} {m : Mem}
    (hs : NoWrap src.planes) (hd : NoWrap dst.planes) (hh : src.height < 2 ^ 64)
    {r : Exec (Except ConvertError Unit × Mem)} (hr : MtRuns c threads src dst m r) : NoWrap r := by
  have plan : NoWrap (mtPlan (F := F) threads src dst) ∧
      (∀ j, mtPlan threads src dst = .ok (.single j) → runJob c j m = convert c src dst m) ∧
      ∀ tasks, mtPlan (F := F) threads src dst = .ok (.parallel tasks) →
        ∃ l : List ((Nat × List Plane) × Nat × List Plane), tasks = l.map fun (s, d) => stripJob src dst s d := by
    rw [mtPlan]
    cases hv : verifyInputWindows src dst with
    | error e => exact ⟨nofun, nofun, nofun⟩
    | ok u =>
      dsimp only
      split
      · rename_i same
        refine ⟨nofun, fun j h => ?_, nofun⟩
        cases h
        rw [convert, convertJob, hv, bindE_ok, if_pos same]
      · split
        · refine ⟨nofun, fun j h => ?_, nofun⟩
          cases h
          rfl
        · refine ⟨?_, ?_, ?_⟩
          · exact hs.bind' fun sps => (splitPlanes_noWrap hh).bind' fun _ => hd.bind' fun dps =>
              (splitPlanes_noWrap hh).bind' fun _ => NoWrap.ok _
          · intro j h
            obtain ⟨_, -, h⟩ := bind_ok_inv h
            obtain ⟨_, -, h⟩ := bind_ok_inv h
            obtain ⟨_, -, h⟩ := bind_ok_inv h
            obtain ⟨_, -, h⟩ := bind_ok_inv h
            cases h
          · intro tasks h
            obtain ⟨_, -, h⟩ := bind_ok_inv h
            obtain ⟨_, -, h⟩ := bind_ok_inv h
            obtain ⟨_, -, h⟩ := bind_ok_inv h
            obtain ⟨_, -, h⟩ := bind_ok_inv h
            cases h
            exact ⟨_, rfl⟩
  obtain ⟨p1, p2, p3⟩ := plan
  cases hr with
  | planFault h => intro e; cases e; exact p1 h
  | fail h => nofun
  | single h => rw [p2 _ h]; exact convert_noWrap hc hs hd m
  | taskFault h ht =>
    intro e
    cases e
    obtain ⟨l, rfl⟩ := p3 _ h
    obtain ⟨⟨s, d⟩, -, ht⟩ := List.mem_map.1 ht
    exact stripJob_noWrap _ _ _ _ ht
  | taskAssert h ht hj => nofun
  | taskErr h ht hs => nofun
  | stepFault h hs hf =>
    intro e
    cases e
    obtain ⟨l, rfl⟩ := p3 _ h
    exact ((start_quiet hc l m).reach hs).faulty hf rfl
  | done h ht hs hfin => nofun

theorem mtRuns_unverified {c : Cpu F} {threads : Nat} {src dst : Img} (hv : verifyInputWindows src dst ≠ .ok ()) {m : Mem}
    {r : Exec (Except ConvertError Unit × Mem)} (hr : MtRuns c threads src dst m r) : NoWrap r := by
  obtain ⟨e, he⟩ : ∃ e, verifyInputWindows src dst = .error e := by
    rcases h : verifyInputWindows src dst with e | u
    · exact ⟨e, rfl⟩
    · exact absurd h hv
  have hp : mtPlan (F := F) threads src dst = .ok (.fail e) := by rw [mtPlan, he]; rfl
  cases hr with
  | fail h => nofun
  | taskAssert h ht hj => nofun
  | taskErr h ht hs => nofun
  | done h ht hs hfin => nofun
  | planFault h => rw [hp] at h; cases h
  | single h => rw [hp] at h; cases h
  | taskFault h ht => rw [hp] at h; cases h
  | stepFault h hs hf => rw [hp] at h; cases h

/-- After the check of the sizes the planes can be computed. -/
theorem planes_noWrap_of {src dst : Img} (hs : Possible (2 ^ 63) src) (hd : Possible (2 ^ 63) dst)
    (h : 0 < src.height ∨ Possible (2 ^ 62) src ∧ Possible (2 ^ 62) dst) (hv : verifyInputWindows src dst = .ok ()) :
    NoWrap src.planes ∧ NoWrap dst.planes ∧ src.height < 2 ^ 64 := by
  rcases h with h | ⟨h1, h2⟩
  · have two : ∀ f : PixelFormat, vsub f ≤ 2 := fun f => by cases f <;> simp [vsub]
    rw [verifyInputWindows] at hv
    split at hv
    · cases hv
    · split at hv
      · cases hv
      · have f1 := Possible.facts hs (Nat.le_refl _) (.inl (Nat.le_trans (two _) (by omega)))
        have f2 := Possible.facts hd (Nat.le_refl _) (.inl (Nat.le_trans (two _) (by omega)))
        exact ⟨f1.1, f2.1, f1.2.2.2⟩
  · have f1 := Possible.facts h1 (by decide) (.inr (Nat.le_refl _))
    have f2 := Possible.facts h2 (by decide) (.inr (Nat.le_refl _))
    exact ⟨f1.1, f2.1, f1.2.2.2⟩

/-! ## `copy` -/

theorem copyRow_noWrap (n : Nat) (m : Mem) (r : Slice × Slice) : NoWrap (copyRow n m r) := by
  rw [copyRow]
  exact (takeTo_noWrap _ _).bind' fun _ => (takeTo_noWrap _ _).bind' fun _ => (rawRead_noWrap _ _ _).bind' fun _ =>
    rawWrite_noWrap _ _ _ _

theorem copyRows_noWrap (n : Nat) : ∀ (l : List (Slice × Slice)) (m : Mem), NoWrap (copyRows n l m)
  | [], _ => NoWrap.ok _
  | r :: l, m => by
    rw [copyRows]
    exact (copyRow_noWrap n m r).bind' fun m => copyRows_noWrap n l m

theorem copyPlanes_noWrap {w : Nat} : ∀ (l : List (PlaneDesc × Plane × Plane)) (m : Mem),
    (∀ x ∈ l, ∃ n, x.1.packedStride w = .ok n) → NoWrap (copyPlanes w l m)
  | [], _, _ => NoWrap.ok _
  | (d, s, t) :: l, m, h => by
    rw [copyPlanes]
    refine (op_noWrap _ _).bind fun o ho => ?_
    obtain ⟨n, hn⟩ := h (d, s, t) (List.mem_cons_self ..)
    rw [PlaneDesc.packedStride, ho, ok_bind] at hn
    have hb : o * d.bytesPerPrimitive < usizeSize := by
      rw [mulU] at hn
      split at hn
      · assumption
      · cases hn
    exact (mulP_noWrap hb).bind' fun _ => (chunksExact_noWrap _ _).bind' fun _ => (chunksExact_noWrap _ _).bind' fun _ =>
      (copyRows_noWrap _ _ _).bind' fun m => copyPlanes_noWrap l m fun x hx => h x (List.mem_cons_of_mem _ hx)

theorem copyImpl_noWrap {src dst : Img} (hs : NoWrap src.planes) (hd : NoWrap dst.planes) (m : Mem) :
    NoWrap (copyImpl src dst m) := by
  rw [copyImpl_eq]
  split
  · nofun
  · split
    · nofun
    · split
      · nofun
      · rename_i hf
        refine NoWrap.bind (firstProblem_noWrap _ fun v hv => ?_) fun r hr => ?_
        · simp only [List.mem_cons, List.not_mem_nil, or_false] at hv
          rcases hv with rfl | rfl
          · exact checkBounds_noWrap hs
          · exact checkBounds_noWrap hd
        · cases r with
          | error e => nofun
          | ok u =>
            have hb : src.boundsCheck = .ok (.ok ()) := by
              rcases h : src.boundsCheck with e | e | ⟨⟩
              · rw [checkBounds, h] at hr; cases hr
              · rw [checkBounds, h] at hr; cases hr
              · rfl
            obtain ⟨sps, hv⟩ := valid_of_check hb
            refine hs.bind' fun sps' => hd.bind' fun dps => (copyPlanes_noWrap _ m ?_).bind' fun _ => NoWrap.ok _
            intro x hx
            obtain ⟨i, hi, -⟩ := zip_mem_getElem? hx
            have hok := planeDesc_ok _ i _ hi
            obtain ⟨p, hp⟩ : ∃ p, sps[i]? = some p :=
              ⟨_, List.getElem?_eq_getElem (Nat.lt_of_lt_of_le hok.idx hv.fits.1)⟩
            exact ⟨_, by rw [hok.packed, if_pos (hv.fits.2 i hok.idx p hp).packed_usize]⟩

/-! ## `resize` -/

theorem FirView.rows_noWrap {v : FirView} (h : v.width * v.pixelType.size < usizeSize) : NoWrap v.rows := by
  rw [FirView.rows]
  refine (chunksExact_noWrap _ _).bind' fun l => mapM_noWrap _ fun s _ => ?_
  rw [FirView.row]
  refine (mulP_noWrap h).bind' fun _ => (takeTo_noWrap _ _).bind' fun _ => ?_
  split <;> nofun

theorem resizePlane_noWrap (fir : Fir) {f : PixelFormat} {i sw dw : Nat} {t : PlaneDesc × Plane × Plane}
    (h : f.planeDesc[i]? = some t.1) (hs : rowBytes f i sw < usizeSize) (hd : rowBytes f i dw < usizeSize) (m : Mem) :
    NoWrap (resizePlane fir sw dw t m) := by
  have hf := firDesc f i t.1 h
  obtain ⟨o, k, h1, h2, h3⟩ := hf.width sw hs
  obtain ⟨o', k', h1', h2', h3'⟩ := hf.width dw hd
  have fit : ∀ w, rowBytes f i w < usizeSize → planePixels f i w * t.1.pixelType.size < usizeSize := fun w hw => by
    rw [size_eq, hf.kind]
    exact Nat.lt_of_le_of_lt (pixels_bytes f i w) hw
  simp only [resizePlane, h1, h2, h3, h1', h3', ok_bind]
  rw [h2] at h2'
  cases h2'
  rw [h3', ok_bind]
  refine (divU_noWrap _ _).bind' fun _ => (divU_noWrap _ _).bind' fun _ => ?_
  rw [firResize]
  split
  · nofun
  · split
    · nofun
    · exact (FirView.rows_noWrap (fit sw hs)).bind' fun _ => (FirView.rows_noWrap (fit dw hd)).bind' fun _ => NoWrap.ok _

theorem resizeRuns_noWrap {c : Cpu F} {fir : Fir} {n : Nat} {src dst : Img} {m : Mem}
    (hs : src.boundsCheck = .ok (.ok ())) (hd : dst.boundsCheck = .ok (.ok ()))
    {r : Exec (Except DifferentFormats Unit × Nat × Mem)} (hr : ResizeRuns c fir n src dst m r) : NoWrap r := by
  obtain ⟨sps, vs⟩ := valid_of_check hs
  obtain ⟨dps, vd⟩ := valid_of_check hd
  cases hr with
  | differ h => nofun
  | srcPlanes h hs => rw [vs.planes] at hs; cases hs
  | dstPlanes h hs hd => rw [vd.planes] at hd; cases hd
  | done => nofun
  | fault h hs hd hr hf =>
    rename_i f sps' dps' s
    intro e
    cases e
    refine (Quiet.reach (c := c) ?_ hr).faulty hf rfl
    intro w hw
    obtain ⟨t, ht, rfl⟩ := List.mem_map.1 hw
    obtain ⟨i, hi, -⟩ := zip_mem_getElem? (List.mem_of_mem_take ht)
    have hok := planeDesc_ok _ i _ hi
    have row : ∀ {f : PixelFormat} {w h : Nat} {ps : List Plane}, Fits f ps w h → i < planeCount f →
        rowBytes f i w < usizeSize := fun hf hi => by
      obtain ⟨p, hp⟩ : ∃ p, (_ : List Plane)[i]? = some p := ⟨_, List.getElem?_eq_getElem (Nat.lt_of_lt_of_le hi hf.1)⟩
      exact (hf.2 i hi p hp).packed_usize
    refine ⟨fun k _ m => ⟨resizePlane_noWrap fir hi (row vs.fits hok.idx) ?_ m, fun sts hp st hst m => ?_⟩, nofun⟩
    · have := row vd.fits (h ▸ hok.idx)
      rw [h]
      exact this
    · obtain ⟨a, n, v, rfl, -⟩ := resizePlane_in hp st hst
      nofun

end Ezk

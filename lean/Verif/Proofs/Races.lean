import Verif.Proofs.MultiThread

/-!
# Workers own their strips
-/

namespace Ezk
open FOps Spec

variable {F : Type} [FOps F]

/-- The store may change the byte at `a`. -/
def MayChange (st : Mem → Exec Mem) (a : Nat) : Prop := ∃ m m', st m = .ok m' ∧ m' a ≠ m a

section
variable {f : PixelFormat} {ps : List Plane} {w h : Nat} {g : Nat → Nat → Nat → UInt8} {m0 : Mem} {c : Cpu F}

/-- Every worker stores into its own strip only. -/
def Own (c : Cpu F) (f : PixelFormat) (ps : List Plane) (w h : Nat) (g : Nat → Nat → Nat → UInt8) (m0 : Mem)
    (ss : List (Nat × Nat)) (s : Threads F) : Prop :=
  ∀ (i : Nat) (wk : Worker F), s.workers[i]? = some wk → ∃ q : Nat × Nat, ss[i]? = some q ∧
    (∀ k ∈ wk.todo, ∀ m, (∀ a, Outside f ps w h a → m a = m0 a) → ∃ ws : List RowWrite,
      wk.visitor.prepare (c.backend k.vectored) k.x k.y m = .ok (ws.map (storeOf ps)) ∧
      ∀ r ∈ ws, r.Good f w h g ∧ ∀ i row col, r.Covers i row col → InStrip f q.1 q.2 i row col) ∧
    ∀ st ∈ wk.pending, ∃ r : RowWrite, st = storeOf ps r ∧ r.Good f w h g ∧
      ∀ i row col, r.Covers i row col → InStrip f q.1 q.2 i row col

theorem Own.reach {ss : List (Nat × Nat)} {s t : Threads F} (ho : Own c f ps w h g m0 ss s)
    (hI : Inv c f ps w h g m0 s) (hf : Fits f ps w h) (hdis : PlanesDisjoint f ps) (hr : Reach c s t) :
    Own c f ps w h g m0 ss t := by
  induction hr with
  | refl => exact ho
  | tear _ ht ih => cases ht; exact ih
  | advance hr ha ih =>
    have hI := hI.reach hf hdis hr
    cases ha with
    | call i wk k ks view sts hw hk hview hp =>
      intro j wk' hj
      rw [List.getElem?_set] at hj
      by_cases hij : i = j
      · subst hij
        rw [if_pos rfl, if_pos (List.getElem?_eq_some_iff.1 hw).1, Option.some.injEq] at hj
        subst hj
        obtain ⟨q, h1, h2, h3⟩ := ih i wk hw
        refine ⟨q, h1, fun k' hk' => h2 k' (by rw [hk]; exact List.mem_cons_of_mem _ hk'), fun st hst => ?_⟩
        rcases List.mem_append.1 hst with hst | hst
        · exact h3 st hst
        · obtain ⟨ws, e1, e2⟩ := h2 k (by rw [hk]; exact List.mem_cons_self ..) view (fun a ha => hI.view hview ha)
          rw [hp] at e1
          injection e1 with e1
          rw [e1] at hst
          obtain ⟨r, hr, rfl⟩ := List.mem_map.1 hst
          exact ⟨r, rfl, e2 r hr⟩
      · rw [if_neg hij] at hj
        exact ih j wk' hj
    | store i wk l₁ st l₂ m hw hp hm =>
      intro j wk' hj
      rw [List.getElem?_set] at hj
      by_cases hij : i = j
      · subst hij
        have hlt := (List.getElem?_eq_some_iff.1 hw).1
        rw [if_pos rfl, if_pos hlt, Option.some.injEq] at hj
        subst hj
        obtain ⟨q, h1, h2, h3⟩ := ih i wk hw
        refine ⟨q, h1, h2, fun st' hst => h3 st' ?_⟩
        rw [hp]
        rcases List.mem_append.1 hst with h | h <;> simp [h]
      · rw [if_neg hij] at hj
        exact ih j wk' hj

/-- A good store changes bytes of the image that it covers. -/
theorem mayChange_cell {r : RowWrite} (hr : r.Good f w h g) {a : Nat} (ht : MayChange (storeOf ps r) a) :
    ∃ i row col p, InDom f w h i row col ∧ ps[i]? = some p ∧ p.at row col = a ∧ r.Covers i row col := by
  obtain ⟨m, m', e, hne⟩ := ht
  injection e with e
  subst e
  rw [RowWrite.apply] at hne
  cases hq : ps[r.plane]? with
  | none => rw [hq] at hne; exact (hne rfl).elim
  | some q =>
    rw [hq] at hne
    dsimp only at hne
    rw [Mem.store] at hne
    split at hne
    · next hin =>
      refine ⟨r.plane, r.row, r.col + (a - q.at r.row r.col), q, ⟨hr.plane, hr.row, ?_⟩, hq, ?_, rfl, rfl, ?_, ?_⟩
      · have := hr.col
        simp only [Plane.at]; omega
      · simp only [Plane.at]; omega
      · simp only [Plane.at]; omega
      · simp only [Plane.at]; omega
    · exact (hne rfl).elim

theorem strips_get {H threads i : Nat} {q : Nat × Nat} (h : (strips H threads)[i]? = some q) :
    q = (stripStart H (stripCount H threads) i, stripHeight H (stripCount H threads) i) := by
  rw [strips, List.getElem?_map, Option.map_eq_some_iff] at h
  obtain ⟨k, hk, rfl⟩ := h
  have := (List.getElem?_eq_some_iff.1 hk)
  obtain ⟨h1, h2⟩ := this
  rw [List.getElem_range] at h2
  rw [h2]

theorem strips_disjoint {H threads i j : Nat} {q q' : Nat × Nat} (hi : (strips H threads)[i]? = some q)
    (hj : (strips H threads)[j]? = some q') (hij : i < j) : q.1 + q.2 ≤ q'.1 := by
  rw [strips_get hi, strips_get hj]
  dsimp only
  rw [← stripStart_succ]
  exact stripStart_mono _ _ hij

theorem Own.disjoint {H threads : Nat} {s : Threads F} (ho : Own c f ps w h g m0 (strips H threads) s)
    (hf : Fits f ps w h) (hdis : PlanesDisjoint f ps) {i j : Nat} {wi wj : Worker F} (hi : s.workers[i]? = some wi)
    (hj : s.workers[j]? = some wj) (hij : i ≠ j) {st st' : Mem → Exec Mem} (h1 : st ∈ wi.pending)
    (h2 : st' ∈ wj.pending) {a : Nat} (t1 : MayChange st a) (t2 : MayChange st' a) : False := by
  obtain ⟨q, e1, -, e2⟩ := ho i wi hi
  obtain ⟨q', e1', -, e2'⟩ := ho j wj hj
  obtain ⟨r, rfl, g1, c1⟩ := e2 st h1
  obtain ⟨r', rfl, g1', c1'⟩ := e2' st' h2
  obtain ⟨i1, row1, col1, p1, d1, p1', a1, cov1⟩ := mayChange_cell g1 t1
  obtain ⟨i2, row2, col2, p2, d2, p2', a2, cov2⟩ := mayChange_cell g1' t2
  obtain ⟨rfl, rfl, rfl⟩ := cell_inj hf hdis d1 d2 p1' p2' (a1.trans a2.symm)
  obtain ⟨b1, b2⟩ := c1 _ _ _ cov1
  obtain ⟨b3, b4⟩ := c1' _ _ _ cov2
  rcases Nat.lt_or_gt_of_ne hij with h | h
  · have := strips_disjoint e1 e1' h; omega
  · have := strips_disjoint e1' e1 h; omega

theorem Own.source {ss : List (Nat × Nat)} {s : Threads F} (ho : Own c f ps w h g m0 ss s) (hf : Fits f ps w h)
    {i : Nat} {wi : Worker F}
    (hi : s.workers[i]? = some wi) {st : Mem → Exec Mem} (h1 : st ∈ wi.pending) {a : Nat} (t1 : MayChange st a) :
    ∃ k p, k < planeCount f ∧ ps[k]? = some p ∧ p.slice.addr ≤ a ∧ a < p.slice.addr + p.slice.len := by
  obtain ⟨q, e1, -, e2⟩ := ho i wi hi
  obtain ⟨r, rfl, g1, c1⟩ := e2 st h1
  obtain ⟨i1, row1, col1, p1, d1, p1', a1, cov1⟩ := mayChange_cell g1 t1
  have := d1.inside hf p1'
  rw [a1] at this
  exact ⟨i1, p1, d1.plane, p1', this.1, this.2⟩

end

theorem filterMap_map {α β : Type} {g : α → Option β} : ∀ (l : List α) (k : α → β), (∀ a ∈ l, g a = some (k a)) →
    l.filterMap g = l.map k
  | [], _, _ => rfl
  | a :: l, k, h => by
    rw [List.filterMap_cons_some (h a (List.mem_cons_self ..)), List.map_cons,
      filterMap_map l k fun b hb => h b (List.mem_cons_of_mem _ hb)]

theorem start_own {src dst : Img} {sps dps : List Plane} (hs : Valid src sps) (hd : Valid dst dps)
    (hw : src.width = dst.width) (hh : src.height = dst.height) (ew : dst.width % 2 = 0)
    (hcol : ColorsOk src dst) (hu : UniformStrides src.format sps) (hsep : Separate src.format sps dst.format dps)
    {m0 : Mem} {V : Pic Nat} (hV : Depicts src.format sps src.width src.height m0 V) {c : Cpu F} (hc : c.vec.Lawful)
    {threads : Nat} :
    Own c dst.format dps dst.width dst.height (cellByte (cpuBlk c dst.width) dst.format
      (floatBlk (cpuBlk c dst.width) src.format src.color dst.format dst.color V)) m0 (strips src.height threads)
      (Threads.start c ((strips src.height threads).map (stripTask src dst sps dps)) m0) := by
  have key := fun s hs' => stripTask_ok (c := c) (s := s) hs hd hw hh ew hcol hu hsep hV hc (threads := threads) hs'
  intro i wk hwk
  rw [Threads.start] at hwk
  dsimp only at hwk
  rw [List.filterMap_map] at hwk
  have : ∀ s ∈ strips src.height threads, ∃ wk, (taskWorker c ∘ stripTask src dst sps dps) s = some wk := by
    intro s hs'
    obtain ⟨v, h1, -⟩ := key s hs'
    exact ⟨_, by rw [Function.comp, h1]; rfl⟩
  have hmap : (strips src.height threads).filterMap (taskWorker c ∘ stripTask src dst sps dps) =
      (strips src.height threads).map fun s =>
        ((taskWorker c ∘ stripTask src dst sps dps) s).getD ⟨⟨fun _ _ _ _ => .ok []⟩, [], []⟩ :=
    filterMap_map _ _ fun s hs' => by
      obtain ⟨wk, h⟩ := this s hs'
      rw [h]; rfl
  rw [hmap, List.getElem?_map, Option.map_eq_some_iff] at hwk
  obtain ⟨q, hq, rfl⟩ := hwk
  obtain ⟨v, h1, h2⟩ := key q (List.mem_of_getElem? hq)
  refine ⟨q, hq, ?_, ?_⟩
  · intro k hk m hm
    rw [Function.comp, h1] at hk ⊢
    obtain ⟨ws, g1, g2, -, g4⟩ := h2 k hk m hm
    exact ⟨ws, g1, fun r hr => ⟨g2 r hr, g4 r hr⟩⟩
  · intro st hst
    rw [Function.comp, h1] at hst
    cases hst

end Ezk

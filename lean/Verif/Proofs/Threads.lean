import Verif.Model.Threads
import Verif.Proofs.Returned

/-!
# Interleavings of workers whose stores all agree with one picture
-/

namespace Ezk
open FOps Spec

variable {F : Type} [FOps F]

/-! ## Termination -/

/-- Work left: calls, then stores. -/
def Threads.work (s : Threads F) : Nat × Nat :=
  ((s.workers.map (·.todo.length)).sum, (s.workers.map (·.pending.length)).sum)

theorem sum_map_set {α : Type} (g : α → Nat) : ∀ (l : List α) (i : Nat) (a b : α), l[i]? = some a →
    ((l.set i b).map g).sum + g a = (l.map g).sum + g b
  | [], _, _, _, h => by simp at h
  | x :: l, 0, a, b, h => by
    simp only [List.getElem?_cons_zero, Option.some.injEq] at h
    subst h
    simp only [List.set_cons_zero, List.map_cons, List.sum_cons]
    omega
  | x :: l, i + 1, a, b, h => by
    have := sum_map_set g l i a b (by simpa using h)
    simp only [List.set_cons_succ, List.map_cons, List.sum_cons]
    omega

theorem Advance.work_lt {c : Cpu F} {s t : Threads F} (h : Advance c s t) :
    Prod.Lex (· < ·) (· < ·) t.work s.work := by
  cases h with
  | call i w k ks view sts hw hk hview hp =>
    apply Prod.Lex.left
    have := sum_map_set (fun w : Worker F => w.todo.length) s.workers i w
      { w with todo := ks, pending := w.pending ++ sts } hw
    simp only [hk, List.length_cons] at this
    show ((s.workers.set i { w with todo := ks, pending := w.pending ++ sts }).map (·.todo.length)).sum < _
    omega
  | store i w l₁ st l₂ m hw hp hm =>
    have h1 := sum_map_set (fun w : Worker F => w.todo.length) s.workers i w { w with pending := l₁ ++ l₂ } hw
    have h2 := sum_map_set (fun w : Worker F => w.pending.length) s.workers i w { w with pending := l₁ ++ l₂ } hw
    simp only [hp, List.length_append, List.length_cons] at h1 h2
    have e1 : ((s.workers.set i { w with pending := l₁ ++ l₂ }).map (·.todo.length)).sum =
        (s.workers.map (·.todo.length)).sum := by omega
    have e2 : ((s.workers.set i { w with pending := l₁ ++ l₂ }).map (·.pending.length)).sum <
        (s.workers.map (·.pending.length)).sum := by omega
    show Prod.Lex _ _ (((s.workers.set i { w with pending := l₁ ++ l₂ }).map (·.todo.length)).sum,
      ((s.workers.set i { w with pending := l₁ ++ l₂ }).map (·.pending.length)).sum) (_, _)
    rw [e1]
    exact Prod.Lex.right _ e2

theorem advance_wf (c : Cpu F) : WellFounded fun t s : Threads F => Advance c s t :=
  Subrelation.wf (fun h => Advance.work_lt h)
    (InvImage.wf Threads.work (Prod.lex ⟨_, Nat.lt_wfRel.wf⟩ ⟨_, Nat.lt_wfRel.wf⟩).wf)

/-! ## Invariant -/

section
variable {f : PixelFormat} {ps : List Plane} {w h : Nat} {g : Nat → Nat → Nat → UInt8} {m0 : Mem} {c : Cpu F}

/-- The value at a byte of the image after a good write. -/
theorem RowWrite.Good.apply_at {r : RowWrite} (hr : r.Good f w h g) (hf : Fits f ps w h)
    (hdis : PlanesDisjoint f ps) (m : Mem) {i row col : Nat} {p : Plane} (hd : InDom f w h i row col)
    (hp : ps[i]? = some p) :
    (r.Covers i row col → r.apply ps m (p.at row col) = g i row col) ∧
      (r.apply ps m (p.at row col) = m (p.at row col) ∨ r.apply ps m (p.at row col) = g i row col) := by
  have hP : Painted f ps w h g (fun i' row' col' => m (p.at row col) = g i row col ∧ (i', row', col') = (i, row, col)) m m := by
    refine ⟨?_, fun _ _ => rfl⟩
    rintro i' row' col' p' hd' hp' ⟨e, e'⟩
    simp only [Prod.mk.injEq] at e'
    obtain ⟨rfl, rfl, rfl⟩ := e'
    rw [hp] at hp'
    cases hp'
    exact e
  have hw := hP.write hf hdis hr
  refine ⟨fun hcov => hw.inside i row col p hd hp (Or.inr hcov), ?_⟩
  by_cases hcov : r.Covers i row col
  · exact Or.inr (hw.inside i row col p hd hp (Or.inr hcov))
  · left
    rw [RowWrite.apply]
    cases hq : ps[r.plane]? with
    | none => rfl
    | some q =>
      dsimp only
      rw [Mem.store]
      split
      · next hin =>
        exfalso
        have hj : p.at row col - q.at r.row r.col < r.n := by simp only [Plane.at] at *; omega
        have hd2 : InDom f w h r.plane r.row (r.col + (p.at row col - q.at r.row r.col)) :=
          ⟨hr.plane, hr.row, by have := hr.col; omega⟩
        have e : p.at row col = q.at r.row (r.col + (p.at row col - q.at r.row r.col)) := by
          simp only [Plane.at] at *; omega
        obtain ⟨h1, h2, h3⟩ := cell_inj hf hdis hd hd2 hp hq e
        exact hcov ⟨h1.symm, h2.symm, by omega, by omega⟩
      · rfl

theorem RowWrite.Good.apply_outside {r : RowWrite} (hr : r.Good f w h g) (m : Mem) {a : Nat}
    (ha : Outside f ps w h a) : r.apply ps m a = m a := by
  obtain ⟨m', h1, h2⟩ := frame_writes (ps := ps) [r] (fun r' h => by rw [List.mem_singleton.1 h]; exact hr) m
  simp only [List.map_cons, List.map_nil, runStores, ok_bind] at h1
  injection h1 with h1
  rw [h1]; exact h2 a ha

/-- The store of a row. -/
def storeOf (ps : List Plane) (r : RowWrite) (m : Mem) : Exec Mem := .ok (r.apply ps m)

/-- Whatever the destination holds, the call issues good stores, those of the cells in `C` among them. -/
def CallSound (c : Cpu F) (f : PixelFormat) (ps : List Plane) (w h : Nat) (g : Nat → Nat → Nat → UInt8) (m0 : Mem)
    (v : Visitor F) (k : VisitCall) (C : Nat → Nat → Nat → Prop) : Prop :=
  ∀ m, (∀ a, Outside f ps w h a → m a = m0 a) → ∃ ws : List RowWrite,
    v.prepare (c.backend k.vectored) k.x k.y m = .ok (ws.map (storeOf ps)) ∧ (∀ r ∈ ws, r.Good f w h g) ∧
    ∀ i row col, InDom f w h i row col → C i row col → ∃ r ∈ ws, r.Covers i row col

/-- The invariant of all interleavings. -/
structure Inv (c : Cpu F) (f : PixelFormat) (ps : List Plane) (w h : Nat) (g : Nat → Nat → Nat → UInt8) (m0 : Mem)
    (s : Threads F) : Prop where
  out : ∀ a, Outside f ps w h a → s.mem a = m0 a ∧ ∀ b, s.seen a b → b = m0 a
  cur : ∀ a, s.seen a (s.mem a)
  todo : ∀ wk ∈ s.workers, ∀ k ∈ wk.todo, CallSound c f ps w h g m0 wk.visitor k fun _ _ _ => False
  pend : ∀ wk ∈ s.workers, ∀ st ∈ wk.pending, ∃ r : RowWrite, r.Good f w h g ∧ st = storeOf ps r
  cover : ∀ i row col p, InDom f w h i row col → ps[i]? = some p → s.mem (p.at row col) = g i row col ∨
    ∃ wk ∈ s.workers,
      (∃ k ∈ wk.todo, CallSound c f ps w h g m0 wk.visitor k fun i' row' col' => i' = i ∧ row' = row ∧ col' = col) ∨
      ∃ r : RowWrite, r.Good f w h g ∧ r.Covers i row col ∧ storeOf ps r ∈ wk.pending

theorem mem_set {α : Type} {l : List α} {i : Nat} {a b x : α} (hi : l[i]? = some a) (h : x ∈ l) :
    x ∈ l.set i b ∨ x = a := by
  obtain ⟨j, hj⟩ := List.getElem?_of_mem h
  by_cases e : j = i
  · subst e
    rw [hi] at hj
    injection hj with hj
    exact Or.inr hj.symm
  · left
    refine List.mem_of_getElem? (i := j) ?_
    rw [List.getElem?_set, if_neg (Ne.symm e)]
    exact hj

theorem mem_set_self {α : Type} {l : List α} {i : Nat} {a b : α} (hi : l[i]? = some a) : b ∈ l.set i b := by
  refine List.mem_of_getElem? (i := i) ?_
  rw [List.getElem?_set, if_pos rfl, if_pos (List.getElem?_eq_some_iff.1 hi).1]

/-- The memory changes towards the picture. -/
theorem Inv.mem_step {s : Threads F} (hI : Inv c f ps w h g m0 s) (hf : Fits f ps w h) (hdis : PlanesDisjoint f ps)
    {r : RowWrite} (hr : r.Good f w h g) {m2 : Mem} (hm : ∀ a, m2 a = s.mem a ∨ m2 a = r.apply ps s.mem a) :
    Inv c f ps w h g m0 (s.setMem m2) := by
  refine ⟨?_, fun a => Or.inr rfl, hI.todo, hI.pend, ?_⟩
  · intro a ha
    have e1 : m2 a = m0 a := by
      rcases hm a with e | e
      · rw [e]; exact (hI.out a ha).1
      · rw [e, hr.apply_outside s.mem ha]; exact (hI.out a ha).1
    refine ⟨e1, ?_⟩
    rintro b (hb | rfl)
    · exact (hI.out a ha).2 b hb
    · exact e1
  · intro i row col p hd hp
    rcases hI.cover i row col p hd hp with e | e
    · left
      show m2 (p.at row col) = _
      rcases hm (p.at row col) with e1 | e1
      · rw [e1]; exact e
      · rcases (hr.apply_at hf hdis s.mem hd hp).2 with e2 | e2
        · rw [e1, e2]; exact e
        · rw [e1, e2]
    · exact Or.inr e

theorem Inv.view {s : Threads F} (hI : Inv c f ps w h g m0 s) {view : Mem} (hv : ∀ a, s.seen a (view a)) {a : Nat}
    (ha : Outside f ps w h a) : view a = m0 a := (hI.out a ha).2 _ (hv a)

theorem CallSound.weaken {v : Visitor F} {k : VisitCall} {C D : Nat → Nat → Nat → Prop}
    (h1 : CallSound c f ps w h g m0 v k C) (h2 : ∀ i row col, D i row col → C i row col) :
    CallSound c f ps w h g m0 v k D := by
  intro m hm
  obtain ⟨ws, a, b, d⟩ := h1 m hm
  exact ⟨ws, a, b, fun i row col hd hD => d i row col hd (h2 _ _ _ hD)⟩

theorem Inv.advance {s t : Threads F} (hI : Inv c f ps w h g m0 s) (hf : Fits f ps w h) (hdis : PlanesDisjoint f ps)
    (ha : Advance c s t) : Inv c f ps w h g m0 t := by
  cases ha with
  | call i wk k ks view sts hw hk hview hp =>
    have hwk := List.mem_of_getElem? hw
    have hk' : k ∈ wk.todo := by rw [hk]; exact List.mem_cons_self ..
    have hv : ∀ a, Outside f ps w h a → view a = m0 a := fun a ha => hI.view hview ha
    refine ⟨hI.out, hI.cur, ?_, ?_, ?_⟩
    · intro wk' hwk' k' hk''
      rcases List.mem_or_eq_of_mem_set hwk' with h1 | rfl
      · exact hI.todo wk' h1 k' hk''
      · exact hI.todo wk hwk k' (by rw [hk]; exact List.mem_cons_of_mem _ hk'')
    · intro wk' hwk' st hst
      rcases List.mem_or_eq_of_mem_set hwk' with h1 | rfl
      · exact hI.pend wk' h1 st hst
      · rcases List.mem_append.1 hst with h1 | h1
        · exact hI.pend wk hwk st h1
        · obtain ⟨ws, e1, e2, -⟩ := hI.todo wk hwk k hk' view hv
          rw [hp] at e1
          injection e1 with e1
          rw [e1] at h1
          obtain ⟨r, hr, rfl⟩ := List.mem_map.1 h1
          exact ⟨r, e2 r hr, rfl⟩
    · intro i' row col p hd hp'
      rcases hI.cover i' row col p hd hp' with e | ⟨wk', hwk', e⟩
      · exact Or.inl e
      · right
        rcases mem_set (b := { wk with todo := ks, pending := wk.pending ++ sts }) hw hwk' with h1 | rfl
        · exact ⟨wk', h1, e⟩
        · refine ⟨_, mem_set_self hw, ?_⟩
          rcases e with ⟨k', hk'', e⟩ | ⟨r, e1, e2, e3⟩
          · rw [hk] at hk''
            rcases List.mem_cons.1 hk'' with rfl | hk''
            · right
              obtain ⟨ws, e1, e2, e3⟩ := e view hv
              rw [hp] at e1
              injection e1 with e1
              obtain ⟨r, hr, hc⟩ := e3 i' row col hd ⟨rfl, rfl, rfl⟩
              exact ⟨r, e2 r hr, hc, List.mem_append.2 (Or.inr (by rw [e1]; exact List.mem_map.2 ⟨r, hr, rfl⟩))⟩
            · exact Or.inl ⟨k', hk'', e⟩
          · exact Or.inr ⟨r, e1, e2, List.mem_append.2 (Or.inl e3)⟩
  | store i wk l₁ st l₂ m hw hp hm =>
    have hwk := List.mem_of_getElem? hw
    obtain ⟨r, hr, rfl⟩ := hI.pend wk hwk st (by rw [hp]; simp)
    have hm : r.apply ps s.mem = m := by injection hm
    have hJ := hI.mem_step hf hdis hr (m2 := m) (fun a => Or.inr (by rw [hm]))
    refine ⟨hJ.out, hJ.cur, ?_, ?_, ?_⟩
    · intro wk' hwk' k' hk''
      rcases List.mem_or_eq_of_mem_set hwk' with h1 | rfl
      · exact hI.todo wk' h1 k' hk''
      · exact hI.todo wk hwk k' hk''
    · intro wk' hwk' st hst
      rcases List.mem_or_eq_of_mem_set hwk' with h1 | rfl
      · exact hI.pend wk' h1 st hst
      · refine hI.pend wk hwk st ?_
        rw [hp]
        rcases List.mem_append.1 hst with h1 | h1 <;> simp [h1]
    · intro i' row col p hd hp'
      rcases hJ.cover i' row col p hd hp' with e | ⟨wk', hwk', e⟩
      · exact Or.inl e
      · rcases mem_set (b := { wk with pending := l₁ ++ l₂ }) hw hwk' with h1 | rfl
        · exact Or.inr ⟨wk', h1, e⟩
        · rcases e with ⟨k', hk'', e⟩ | ⟨r', e1, e2, e3⟩
          · exact Or.inr ⟨_, mem_set_self hw, Or.inl ⟨k', hk'', e⟩⟩
          · rw [hp] at e3
            rcases List.mem_append.1 e3 with h1 | h1
            · exact Or.inr ⟨_, mem_set_self hw, Or.inr ⟨r', e1, e2, List.mem_append.2 (Or.inl h1)⟩⟩
            · rcases List.mem_cons.1 h1 with h1 | h1
              · left
                show m (p.at row col) = _
                have : r'.apply ps s.mem = r.apply ps s.mem := by
                  have := congrFun h1 s.mem
                  simp only [storeOf] at this
                  injection this
                rw [← hm, ← this]
                exact (e1.apply_at hf hdis s.mem hd hp').1 e2
              · exact Or.inr ⟨_, mem_set_self hw, Or.inr ⟨r', e1, e2, List.mem_append.2 (Or.inr h1)⟩⟩

theorem Inv.tear {s t : Threads F} (hI : Inv c f ps w h g m0 s) (hf : Fits f ps w h) (hdis : PlanesDisjoint f ps)
    (ht : Tear s t) : Inv c f ps w h g m0 t := by
  cases ht with
  | mk i wk st m₁ m₂ hw hst hm h2 =>
    obtain ⟨r, hr, rfl⟩ := hI.pend wk (List.mem_of_getElem? hw) st hst
    have hm : r.apply ps s.mem = m₁ := by injection hm
    exact hI.mem_step hf hdis hr (fun a => by rw [hm]; exact h2 a)

theorem Inv.reach {s t : Threads F} (hI : Inv c f ps w h g m0 s) (hf : Fits f ps w h) (hdis : PlanesDisjoint f ps)
    (hr : Reach c s t) : Inv c f ps w h g m0 t := by
  induction hr with
  | refl => exact hI
  | advance _ ha ih => exact ih.advance hf hdis ha
  | tear _ ht ih => exact ih.tear hf hdis ht

/-- Nothing goes wrong. -/
theorem Inv.safe {s : Threads F} (hI : Inv c f ps w h g m0 s) (flt : Fault) : ¬ Faulty c s flt := by
  rintro (⟨i, wk, k, ks, view, _, hw, hk, hview, hp⟩ | ⟨i, wk, st, _, hw, hst, hm⟩)
  · obtain ⟨ws, e, -⟩ := hI.todo wk (List.mem_of_getElem? hw) k (by rw [hk]; exact List.mem_cons_self ..) view
      (fun a ha => hI.view hview ha)
    rw [hp] at e; cases e
  · obtain ⟨r, hr, rfl⟩ := hI.pend wk (List.mem_of_getElem? hw) st hst
    cases hm

/-- Some worker can go on unless all are done. -/
theorem Inv.progress {s : Threads F} (hI : Inv c f ps w h g m0 s) (hs : ¬ s.Finished) : ∃ t, Advance c s t := by
  simp only [Threads.Finished, Classical.not_forall] at hs
  obtain ⟨wk, hwk, hne⟩ := hs
  obtain ⟨i, hi⟩ := List.getElem?_of_mem hwk
  cases hp : wk.pending with
  | cons st l =>
    obtain ⟨r, hr, rfl⟩ := hI.pend wk hwk st (by rw [hp]; exact List.mem_cons_self ..)
    exact ⟨_, .store i wk [] _ l _ hi hp rfl⟩
  | nil =>
    cases ht : wk.todo with
    | nil => exact (hne ⟨ht, hp⟩).elim
    | cons k ks =>
      obtain ⟨ws, e, -⟩ := hI.todo wk hwk k (by rw [ht]; exact List.mem_cons_self ..) s.mem
        (fun a ha => (hI.out a ha).1)
      exact ⟨_, .call i wk k ks s.mem _ hi ht hI.cur e⟩

/-- Every execution can be completed. -/
theorem Inv.finish {s0 s : Threads F} (hI : Inv c f ps w h g m0 s) (hf : Fits f ps w h) (hdis : PlanesDisjoint f ps)
    (hr : Reach c s0 s) : ∃ t, Reach c s0 t ∧ t.Finished := by
  induction s using (advance_wf c).induction with
  | _ s ih =>
    by_cases hs : s.Finished
    · exact ⟨s, hr, hs⟩
    · obtain ⟨t, ht⟩ := hI.progress hs
      exact ih t ht (hI.advance hf hdis ht) (hr.advance ht)

/-- At the end the image is painted. -/
theorem Inv.painted {s : Threads F} (hI : Inv c f ps w h g m0 s) (hs : s.Finished) :
    Painted f ps w h g (InDom f w h) m0 s.mem := by
  refine ⟨?_, fun a ha => (hI.out a ha).1⟩
  intro i row col p hd hp _
  rcases hI.cover i row col p hd hp with e | ⟨wk, hwk, ⟨k, hk, -⟩ | ⟨r, -, -, hr⟩⟩
  · exact e
  · rw [(hs wk hwk).1] at hk; cases hk
  · rw [(hs wk hwk).2] at hr; cases hr

end
end Ezk

import Verif.Proofs.Needs
import Verif.Proofs.Resize

/-!
# Stores stay inside of the planes of the destination

Whatever the images look like, and also when an operation panics half-way: each store is made through the slice of a
plane, and Rust's slicing does not let it leave that slice (or else it is undefined behaviour).
-/

namespace Ezk
open FOps Spec

variable {F : Type} [FOps F]

/-- Only bytes in `S` differ. -/
def Keeps (S : Nat → Prop) (m m' : Mem) : Prop := ∀ a, ¬ S a → m' a = m a

theorem Keeps.refl (S : Nat → Prop) (m : Mem) : Keeps S m m := fun _ _ => rfl

theorem Keeps.trans {S : Nat → Prop} {m m' m'' : Mem} (h : Keeps S m m') (h' : Keeps S m' m'') : Keeps S m m'' :=
  fun a ha => (h' a ha).trans (h a ha)

theorem Keeps.mono {S T : Nat → Prop} {m m' : Mem} (h : Keeps S m m') (hst : ∀ a, S a → T a) : Keeps T m m' :=
  fun a ha => h a fun hs => ha (hst a hs)

/-- The store only changes bytes in `S`. -/
def StoreIn (S : Nat → Prop) (st : Mem → Exec Mem) : Prop := ∀ m m', st m = .ok m' → Keeps S m m'

theorem StoreIn.mono {S T : Nat → Prop} {st : Mem → Exec Mem} (h : StoreIn S st) (hst : ∀ a, S a → T a) : StoreIn T st :=
  fun m m' e => (h m m' e).mono hst

/-- A step before the store. -/
theorem StoreIn.bind {S : Nat → Prop} {α : Type} {r : Exec α} {k : α → Mem → Exec Mem}
    (h : ∀ a, r = .ok a → StoreIn S (k a)) : StoreIn S (fun m => r >>= fun a => k a m) := by
  intro m m' e
  obtain ⟨a, h1, h2⟩ := bind_ok_inv e
  exact h a h1 m m' h2

theorem store_keeps {m : Mem} {a n : Nat} {v : Fin n → UInt8} {s : Slice} (h1 : s.addr ≤ a) (h2 : a + n ≤ s.addr + s.len) :
    Keeps s.Has m (m.store a n v) := by
  intro b hb
  rw [Mem.store, dif_neg]
  rintro ⟨h3, h4⟩
  exact hb ⟨by omega, by omega⟩

theorem rawWrite_keeps {m m' : Mem} {s : Slice} {n : Nat} {v : Fin n → UInt8} (h : rawWrite m s n v = .ok m') :
    Keeps s.Has m m' := by
  rw [rawWrite] at h
  split at h
  · cases h; exact store_keeps (Nat.le_refl _) (by omega)
  · cases h

section
variable {B : Backend F} (hB : B.Lawful)
include hB

theorem write_in (P : Prim) (s : Slice) (v : B.V) : StoreIn s.Has (P.write B s v) := by
  intro m m' h
  cases P
  · rw [Prim.write, hB.writeU8] at h
    split at h
    · cases h; exact store_keeps (Nat.le_refl _) (by omega)
    · cases h
  · rw [Prim.write, hB.writeU16] at h
    split at h
    · cases h; exact store_keeps (Nat.le_refl _) (by omega)
    · cases h

theorem write2x_in (P : Prim) (s : Slice) (v0 v1 : B.V) : StoreIn s.Has (P.write2x B s v0 v1) := by
  intro m m' h
  cases P
  · rw [Prim.write2x, hB.writeU8_2x] at h
    split at h
    · cases h; exact store_keeps (Nat.le_refl _) (by omega)
    · cases h
  · rw [Prim.write2x, hB.writeU16_2x] at h
    split at h
    · cases h; exact store_keeps (Nat.le_refl _) (by omega)
    · cases h

theorem writeU8x3_in (v : Fin 2 → Fin 3 → B.V) (s : Slice) : StoreIn s.Has fun m => B.writeU8x3 v m s := by
  intro m m' h
  dsimp only at h
  rw [hB.writeU8x3] at h
  split at h
  · cases h; exact store_keeps (Nat.le_refl _) (by omega)
  · cases h

theorem writeU8x4_in (v : Fin 2 → Fin 4 → B.V) (s : Slice) : StoreIn s.Has fun m => B.writeU8x4 v m s := by
  intro m m' h
  dsimp only at h
  rw [hB.writeU8x4] at h
  split at h
  · cases h; exact store_keeps (Nat.le_refl _) (by omega)
  · cases h

omit hB in
theorem dropFrom_in {s t : Slice} {off : Nat} (h : s.dropFrom off = .ok t) : ∀ a, t.Has a → s.Has a := by
  rw [Slice.dropFrom] at h
  split at h
  · cases h
    rintro a ⟨h1, h2⟩
    dsimp only at h1 h2
    exact ⟨by omega, by omega⟩
  · cases h

theorem storeAt_in (P : Prim) (p : Plane) (row col : Nat) (v : B.V) : StoreIn p.slice.Has (storeAt P B p row col v) :=
  .bind fun _ _ => .bind fun _ h => (write_in hB P _ v).mono (dropFrom_in h)

theorem store2At_in (P : Prim) (p : Plane) (row col : Nat) (v0 v1 : B.V) :
    StoreIn p.slice.Has (store2At P B p row col v0 v1) :=
  .bind fun _ _ => .bind fun _ h => (write2x_in hB P _ v0 v1).mono (dropFrom_in h)

theorem writeYuyv_in (P : Prim) (p : Plane) (y uv : B.V) (off : Nat) : StoreIn p.slice.Has (writeYuyv P B p y uv off) :=
  .bind fun _ h => (write2x_in hB P _ _ _).mono (dropFrom_in h)

end

/-- The bytes of some planes. -/
def InPlanes (ps : List Plane) (a : Nat) : Prop := ∃ p ∈ ps, p.slice.Has a

/-- All stores of the visitor stay inside of `S`. -/
def VisitorIn (S : Nat → Prop) (v : Visitor F) : Prop :=
  ∀ (B : Backend F), B.Lawful → ∀ x y m sts, v.prepare B x y m = .ok sts → ∀ st ∈ sts, StoreIn S st

theorem i420Visitor_in (P : Prim) (py pu pv : Plane) (mv : F) (src : I420Src F) :
    VisitorIn (InPlanes [py, pu, pv]) (i420Visitor P py pu pv mv src) := by
  intro B hB x y m sts h st hst
  obtain ⟨blk, _, h⟩ := bind_ok_inv h
  cases h
  simp only [List.mem_cons, List.not_mem_nil, or_false] at hst
  rcases hst with rfl | rfl | rfl | rfl
  · exact (store2At_in hB _ _ _ _ _ _).mono fun a h => ⟨py, by simp, h⟩
  · exact .bind fun _ _ => (store2At_in hB _ _ _ _ _ _).mono fun a h => ⟨py, by simp, h⟩
  · exact (storeAt_in hB _ _ _ _ _).mono fun a h => ⟨pu, by simp, h⟩
  · exact (storeAt_in hB _ _ _ _ _).mono fun a h => ⟨pv, by simp, h⟩

theorem nv12Visitor_in (P : Prim) (py puv : Plane) (mv : F) (src : I420Src F) :
    VisitorIn (InPlanes [py, puv]) (nv12Visitor P py puv mv src) := by
  intro B hB x y m sts h st hst
  obtain ⟨blk, _, h⟩ := bind_ok_inv h
  cases h
  simp only [List.mem_cons, List.not_mem_nil, or_false] at hst
  rcases hst with rfl | rfl | rfl
  · exact (store2At_in hB _ _ _ _ _ _).mono fun a h => ⟨py, by simp, h⟩
  · exact .bind fun _ _ => (store2At_in hB _ _ _ _ _ _).mono fun a h => ⟨py, by simp, h⟩
  · exact (store2At_in hB _ _ _ _ _ _).mono fun a h => ⟨puv, by simp, h⟩

theorem i422Visitor_in (P : Prim) (py pu pv : Plane) (mv : F) (src : I422Src F) :
    VisitorIn (InPlanes [py, pu, pv]) (i422Visitor P py pu pv mv src) := by
  intro B hB x y m sts h st hst
  obtain ⟨blk, _, h⟩ := bind_ok_inv h
  cases h
  simp only [List.mem_cons, List.not_mem_nil, or_false] at hst
  rcases hst with rfl | rfl | rfl | rfl | rfl | rfl
  · exact (store2At_in hB _ _ _ _ _ _).mono fun a h => ⟨py, by simp, h⟩
  · exact .bind fun _ _ => (store2At_in hB _ _ _ _ _ _).mono fun a h => ⟨py, by simp, h⟩
  · exact (storeAt_in hB _ _ _ _ _).mono fun a h => ⟨pu, by simp, h⟩
  · exact .bind fun _ _ => (storeAt_in hB _ _ _ _ _).mono fun a h => ⟨pu, by simp, h⟩
  · exact (storeAt_in hB _ _ _ _ _).mono fun a h => ⟨pv, by simp, h⟩
  · exact .bind fun _ _ => (storeAt_in hB _ _ _ _ _).mono fun a h => ⟨pv, by simp, h⟩

theorem i444Visitor_in (P : Prim) (py pu pv : Plane) (mv : F) (src : I444Src F) :
    VisitorIn (InPlanes [py, pu, pv]) (i444Visitor P py pu pv mv src) := by
  intro B hB x y m sts h st hst
  obtain ⟨blk, _, h⟩ := bind_ok_inv h
  cases h
  simp only [List.mem_cons, List.not_mem_nil, or_false] at hst
  rcases hst with rfl | rfl | rfl | rfl | rfl | rfl
  · exact (store2At_in hB _ _ _ _ _ _).mono fun a h => ⟨py, by simp, h⟩
  · exact .bind fun _ _ => (store2At_in hB _ _ _ _ _ _).mono fun a h => ⟨py, by simp, h⟩
  · exact (store2At_in hB _ _ _ _ _ _).mono fun a h => ⟨pu, by simp, h⟩
  · exact .bind fun _ _ => (store2At_in hB _ _ _ _ _ _).mono fun a h => ⟨pu, by simp, h⟩
  · exact (store2At_in hB _ _ _ _ _ _).mono fun a h => ⟨pv, by simp, h⟩
  · exact .bind fun _ _ => (store2At_in hB _ _ _ _ _ _).mono fun a h => ⟨pv, by simp, h⟩

theorem yuyvVisitor_in (P : Prim) (p : Plane) (mv : F) (src : I422Src F) :
    VisitorIn (InPlanes [p]) (yuyvVisitor P p mv src) := by
  intro B hB x y m sts h st hst
  obtain ⟨blk, _, h⟩ := bind_ok_inv h
  cases h
  have key : ∀ (r : Exec Nat) (a b : B.V), StoreIn (InPlanes [p]) (fun m => r >>= fun o => writeYuyv P B p a b o m) :=
    fun r a b => .bind fun _ _ => (writeYuyv_in hB _ _ _ _ _).mono fun a h => ⟨p, by simp, h⟩
  have key2 : ∀ (r s : Exec Nat) (a b : B.V), StoreIn (InPlanes [p])
      (fun m => r >>= fun o => s >>= fun q => addP o q >>= fun o => writeYuyv P B p a b o m) :=
    fun r s a b => .bind fun _ _ => .bind fun _ _ => key _ _ _
  simp only [List.mem_cons, List.not_mem_nil, or_false] at hst
  rcases hst with rfl | rfl | rfl | rfl
  · exact key _ _ _
  · exact key2 _ _ _ _
  · exact key _ _ _
  · exact key2 _ _ _ _

theorem rgbVisitor_in (reverse : Bool) (p : Plane) (mv : F) (src : RgbaSrc F) :
    VisitorIn (InPlanes [p]) (rgbVisitor reverse p mv src) := by
  intro B hB x y m sts h st hst
  obtain ⟨blk, _, h⟩ := bind_ok_inv h
  cases h
  simp only [List.mem_cons, List.not_mem_nil, or_false] at hst
  rcases hst with rfl | rfl
  · exact .bind fun _ _ => .bind fun _ _ => .bind fun _ h => (writeU8x3_in hB _ _).mono
      fun a h' => ⟨p, by simp, dropFrom_in h a h'⟩
  · exact .bind fun _ _ => .bind fun _ _ => .bind fun _ _ => .bind fun _ h => (writeU8x3_in hB _ _).mono
      fun a h' => ⟨p, by simp, dropFrom_in h a h'⟩

theorem rgbaVisitor_in (reverse : Bool) (p : Plane) (mv : F) (src : RgbaSrc F) :
    VisitorIn (InPlanes [p]) (rgbaVisitor reverse p mv src) := by
  intro B hB x y m sts h st hst
  obtain ⟨blk, _, h⟩ := bind_ok_inv h
  cases h
  simp only [List.mem_cons, List.not_mem_nil, or_false] at hst
  rcases hst with rfl | rfl
  · exact .bind fun _ _ => .bind fun _ _ => .bind fun _ h => (writeU8x4_in hB _ _).mono
      fun a h' => ⟨p, by simp, dropFrom_in h a h'⟩
  · exact .bind fun _ _ => .bind fun _ _ => .bind fun _ _ => .bind fun _ h => (writeU8x4_in hB _ _).mono
      fun a h' => ⟨p, by simp, dropFrom_in h a h'⟩

/-! ## Jobs -/

/-- A job whose stores stay inside of `S`. -/
def JobIn (S : Nat → Prop) (r : Exec (Except ConvertError (Job F))) : Prop := ∀ j, r = .ok (.ok j) → VisitorIn S j.visitor

theorem VisitorIn.mono {S T : Nat → Prop} {v : Visitor F} (h : VisitorIn S v) (hst : ∀ a, S a → T a) : VisitorIn T v :=
  fun B hB x y m sts e st hs => (h B hB x y m sts e st hs).mono hst

theorem JobIn.bindE {S : Nat → Prop} {α : Type} {r : Exec (Except ConvertError α)}
    {k : α → Exec (Except ConvertError (Job F))} (h : ∀ a, JobIn S (k a)) : JobIn S (bindE r k) := by
  intro j e
  rcases r with e' | e' | a
  · cases e
  · cases e
  · exact h a j e

theorem openPlanes_in {n : Nat} {t : Img} {l : List Plane} {S : Nat → Prop} (h : openPlanes n t = .ok (.ok l))
    (e : ∀ ps, t.planes = .ok ps → ∀ a, InPlanes ps a → S a) : ∀ a, InPlanes l a → S a := by
  rw [openPlanes] at h
  obtain ⟨b, _, h⟩ := bind_ok_inv h
  cases b with
  | error e => cases h
  | ok _ =>
    obtain ⟨ps, ep, h⟩ := bind_ok_inv h
    split at h
    · cases h
    · rename_i l' hl
      cases h
      rw [readPlanes_eq] at hl
      split at hl
      · cases hl
        rintro a ⟨p, hp, ha⟩
        exact e ps ep a ⟨p, List.mem_of_mem_take hp, ha⟩
      · cases hl

section
variable {dst : Img} {S : Nat → Prop} (ed : ∀ ps, dst.planes = .ok ps → ∀ a, InPlanes ps a → S a)
include ed

theorem i420Write_in (P : Prim) (s : I420Src F) : JobIn S (i420Write P dst s) := by
  intro j h
  obtain ⟨l, h1, h⟩ := bind_ok_inv h
  split at h <;> cases h
  exact VisitorIn.mono (i420Visitor_in _ _ _ _ _ _) (openPlanes_in h1 ed)

theorem nv12Write_in (P : Prim) (s : I420Src F) : JobIn S (nv12Write P dst s) := by
  intro j h
  obtain ⟨l, h1, h⟩ := bind_ok_inv h
  split at h <;> cases h
  exact VisitorIn.mono (nv12Visitor_in _ _ _ _ _) (openPlanes_in h1 ed)

theorem i422Write_in (P : Prim) (s : I422Src F) : JobIn S (i422Write P dst s) := by
  intro j h
  obtain ⟨l, h1, h⟩ := bind_ok_inv h
  split at h <;> cases h
  exact VisitorIn.mono (i422Visitor_in _ _ _ _ _ _) (openPlanes_in h1 ed)

theorem yuyvWrite_in (P : Prim) (s : I422Src F) : JobIn S (yuyvWrite P dst s) := by
  intro j h
  obtain ⟨l, h1, h⟩ := bind_ok_inv h
  split at h <;> cases h
  exact VisitorIn.mono (yuyvVisitor_in _ _ _ _) (openPlanes_in h1 ed)

theorem i444Write_in (P : Prim) (s : I444Src F) : JobIn S (i444Write P dst s) := by
  intro j h
  obtain ⟨l, h1, h⟩ := bind_ok_inv h
  split at h <;> cases h
  exact VisitorIn.mono (i444Visitor_in _ _ _ _ _ _) (openPlanes_in h1 ed)

theorem rgbWrite_in (r : Bool) (s : RgbaSrc F) : JobIn S (rgbWrite r dst s) := by
  intro j h
  obtain ⟨l, h1, h⟩ := bind_ok_inv h
  split at h <;> cases h
  exact VisitorIn.mono (rgbVisitor_in _ _ _ _) (openPlanes_in h1 ed)

theorem rgbaWrite_in (r : Bool) (s : RgbaSrc F) : JobIn S (rgbaWrite r dst s) := by
  intro j h
  obtain ⟨l, h1, h⟩ := bind_ok_inv h
  split at h <;> cases h
  exact VisitorIn.mono (rgbaVisitor_in _ _ _ _) (openPlanes_in h1 ed)

theorem rgbaToAny_in (R : RgbaSrc F) : JobIn S (rgbaToAny dst R) := by
  rw [rgbaToAny]
  dsimp only
  split
  all_goals first
    | exact .bindE fun _ => i420Write_in ed _ _
    | exact .bindE fun _ => i422Write_in ed _ _
    | exact .bindE fun _ => i444Write_in ed _ _
    | exact .bindE fun _ => nv12Write_in ed _ _
    | exact .bindE fun _ => yuyvWrite_in ed _ _
    | exact rgbaWrite_in ed _ _
    | exact rgbWrite_in ed _ _

theorem convertSame_in (src : Img) : JobIn (F := F) S (convertSameJob src dst) := by
  rw [convertSameJob]
  split
  · intro j h; cases h
  split
  all_goals first
    | exact .bindE fun _ => i420Write_in ed _ _
    | exact .bindE fun _ => i422Write_in ed _ _
    | exact .bindE fun _ => i444Write_in ed _ _
    | exact .bindE fun _ => nv12Write_in ed _ _
    | exact .bindE fun _ => yuyvWrite_in ed _ _
    | exact .bindE fun _ => rgbaWrite_in ed _ _
    | exact .bindE fun _ => rgbWrite_in ed _ _

theorem convertJob_in (src : Img) : JobIn (F := F) S (convertJob src dst) := by
  rw [convertJob]
  refine .bindE fun _ => ?_
  split
  · exact convertSame_in ed src
  · refine .bindE fun _ => ?_
    split <;> exact rgbaToAny_in ed _

end

/-! ## Executions -/

/-- What executions preserve. -/
structure Within (S : Nat → Prop) (m0 : Mem) (s : Threads F) : Prop where
  mem : Keeps S m0 s.mem
  visitors : ∀ w ∈ s.workers, VisitorIn S w.visitor
  pending : ∀ w ∈ s.workers, ∀ st ∈ w.pending, StoreIn S st

theorem backend_lawful {c : Cpu F} (hc : c.vec.Lawful) (b : Bool) : (c.backend b).Lawful := by
  rw [Cpu.backend]
  split
  · exact hc
  · exact scalar_lawful c.sar

theorem Within.reach {c : Cpu F} (hc : c.vec.Lawful) {S : Nat → Prop} {m0 : Mem} {s t : Threads F} (h : Within S m0 s)
    (hr : Reach c s t) : Within S m0 t := by
  induction hr with
  | refl => exact h
  | advance _ ha ih =>
    cases ha with
    | call i wk k ks view sts hw hk hview hp =>
      have hm := List.mem_of_getElem? hw
      refine ⟨ih.mem, fun wk' hwk' => ?_, fun wk' hwk' st hst => ?_⟩
      · rcases List.mem_or_eq_of_mem_set hwk' with h1 | rfl
        · exact ih.visitors wk' h1
        · exact ih.visitors wk hm
      · rcases List.mem_or_eq_of_mem_set hwk' with h1 | rfl
        · exact ih.pending wk' h1 st hst
        · rcases List.mem_append.1 hst with h | h
          · exact ih.pending wk hm st h
          · exact ih.visitors wk hm _ (backend_lawful hc _) _ _ _ _ hp st h
    | store i wk l₁ st l₂ m hw hp hm =>
      have hmem := List.mem_of_getElem? hw
      refine ⟨ih.mem.trans (ih.pending wk hmem st (by rw [hp]; simp) _ _ hm), fun wk' hwk' => ?_, fun wk' hwk' st' hst => ?_⟩
      · rcases List.mem_or_eq_of_mem_set hwk' with h1 | rfl
        · exact ih.visitors wk' h1
        · exact ih.visitors wk hmem
      · rcases List.mem_or_eq_of_mem_set hwk' with h1 | rfl
        · exact ih.pending wk' h1 st' hst
        · refine ih.pending wk hmem st' ?_
          rw [hp]
          rcases List.mem_append.1 hst with h1 | h1 <;> simp [h1]
  | tear _ ht ih =>
    cases ht with
    | mk i wk st m₁ m₂ hw hst hm h2 =>
      refine ⟨fun a ha => ?_, ih.visitors, ih.pending⟩
      show m₂ a = _
      rcases h2 a with e | e
      · rw [e]; exact ih.mem a ha
      · rw [e]; exact (ih.mem.trans (ih.pending wk (List.mem_of_getElem? hw) st hst _ _ hm)) a ha

theorem Within.start {c : Cpu F} {S : Nat → Prop} {m : Mem} {tasks : List (Exec (Except ConvertError (Job F)))}
    (h : ∀ t ∈ tasks, JobIn S t) : Within S m (Threads.start c tasks m) := by
  refine ⟨Keeps.refl _ _, fun w hw => ?_, fun w hw st hst => ?_⟩
  · obtain ⟨t, ht, e⟩ := List.mem_filterMap.1 hw
    rcases t with _ | _ | j
    · cases e
    · cases e
    · cases e; exact h _ ht j rfl
  · obtain ⟨t, ht, e⟩ := List.mem_filterMap.1 hw
    rcases t with _ | _ | j
    · cases e
    · cases e
    · cases e; cases hst

theorem runStores_keeps {S : Nat → Prop} : ∀ {sts : List (Mem → Exec Mem)} {m m' : Mem}, (∀ st ∈ sts, StoreIn S st) →
    runStores sts m = .ok m' → Keeps S m m'
  | [], _, _, _, h => by cases h; exact Keeps.refl _ _
  | st :: sts, m, m', hs, h => by
    obtain ⟨m1, h1, h2⟩ := bind_ok_inv h
    exact (hs st (by simp) _ _ h1).trans (runStores_keeps (fun st h => hs st (by simp [h])) h2)

theorem runVisits_keeps {c : Cpu F} (hc : c.vec.Lawful) {S : Nat → Prop} {v : Visitor F} (hv : VisitorIn S v) :
    ∀ {ks : List VisitCall} {m m' : Mem}, runVisits c v ks m = .ok m' → Keeps S m m'
  | [], _, _, h => by cases h; exact Keeps.refl _ _
  | k :: ks, m, m', h => by
    obtain ⟨m1, h1, h2⟩ := bind_ok_inv h
    obtain ⟨sts, h3, h4⟩ := bind_ok_inv h1
    exact (runStores_keeps (hv _ (backend_lawful hc _) _ _ _ _ h3) h4).trans (runVisits_keeps hc hv h2)

theorem runJob_keeps {c : Cpu F} (hc : c.vec.Lawful) {S : Nat → Prop} {r : Exec (Except ConvertError (Job F))}
    (hr : JobIn S r) {m m' : Mem} {x : Except ConvertError Unit} (h : runJob c r m = .ok (x, m')) : Keeps S m m' := by
  obtain ⟨j, h1, h⟩ := bind_ok_inv h
  cases j with
  | error e => cases h; exact Keeps.refl _ _
  | ok j =>
    obtain ⟨m1, h2, h⟩ := bind_ok_inv h
    cases h
    rw [visit] at h2
    split at h2
    · cases h2
    · split at h2
      · cases h2
      · exact runVisits_keeps hc (hr j h1) h2

/-! ## `convert_multi_thread` -/

theorem splitAt_in {s a b : Slice} {n : Nat} (h : s.splitAt n = .ok (a, b)) :
    (∀ x, a.Has x → s.Has x) ∧ ∀ x, b.Has x → s.Has x := by
  rw [Slice.splitAt] at h
  split at h
  · cases h
    constructor <;> rintro x ⟨h1, h2⟩ <;> dsimp only at h1 h2 <;> exact ⟨by omega, by omega⟩
  · cases h

theorem splitStrip_in {h : Nat} : ∀ {ds : List PlaneDesc} {ps out rest : List Plane},
    splitStrip h ds ps = .ok (out, rest) → (∀ a, InPlanes out a → InPlanes ps a) ∧ ∀ a, InPlanes rest a → InPlanes ps a
  | [], ps, out, rest, e => by
    cases e
    exact ⟨fun a ⟨p, hp, _⟩ => (by cases hp), fun a h => h⟩
  | _ :: _, [], out, rest, e => by
    cases e
    exact ⟨fun a h => h, fun a h => h⟩
  | d :: ds, p :: ps, out, rest, e => by
    obtain ⟨n1, _, e⟩ := bind_ok_inv e
    obtain ⟨n2, _, e⟩ := bind_ok_inv e
    obtain ⟨⟨s1, s2⟩, h1, e⟩ := bind_ok_inv e
    obtain ⟨⟨o, r⟩, h2, e⟩ := bind_ok_inv e
    cases e
    obtain ⟨i1, i2⟩ := splitAt_in h1
    obtain ⟨i3, i4⟩ := splitStrip_in h2
    constructor
    · rintro a ⟨q, hq, ha⟩
      rcases List.mem_cons.1 hq with rfl | hq
      · exact ⟨p, by simp, i1 a ha⟩
      · obtain ⟨q', hq', ha'⟩ := i3 a ⟨q, hq, ha⟩
        exact ⟨q', by simp [hq'], ha'⟩
    · rintro a ⟨q, hq, ha⟩
      rcases List.mem_cons.1 hq with rfl | hq
      · exact ⟨p, by simp, i2 a ha⟩
      · obtain ⟨q', hq', ha'⟩ := i4 a ⟨q, hq, ha⟩
        exact ⟨q', by simp [hq'], ha'⟩

theorem splitLoop_in {ds : List PlaneDesc} {k : Nat} : ∀ {n r : Nat} {ps : List Plane} {out : List (Nat × List Plane)},
    splitLoop ds k n r ps = .ok out → ∀ s ∈ out, ∀ a, InPlanes s.2 a → InPlanes ps a
  | 0, _, _, _, e, s, hs => by cases e; cases hs
  | n + 1, r, ps, out, e, s, hs => by
    dsimp only [splitLoop] at e
    obtain ⟨_, _, e⟩ := bind_ok_inv e
    obtain ⟨_, _, e⟩ := bind_ok_inv e
    obtain ⟨⟨o, rest⟩, h1, e⟩ := bind_ok_inv e
    obtain ⟨ret, h2, e⟩ := bind_ok_inv e
    cases e
    obtain ⟨i1, i2⟩ := splitStrip_in h1
    rcases List.mem_cons.1 hs with rfl | hs
    · exact i1
    · exact fun a ha => i2 a (splitLoop_in h2 s hs a ha)

theorem splitPlanes_in {ds : List PlaneDesc} {ps : List Plane} {height threads : Nat} {out : List (Nat × List Plane)}
    (e : splitPlanes ds ps height threads = .ok out) : ∀ s ∈ out, ∀ a, InPlanes s.2 a → InPlanes ps a := by
  obtain ⟨_, _, e⟩ := bind_ok_inv e
  obtain ⟨_, _, e⟩ := bind_ok_inv e
  exact splitLoop_in e

theorem stripJob_in (src dst : Img) (s d : Nat × List Plane) : JobIn (F := F) (InPlanes d.2) (stripJob src dst s d) := by
  intro j h
  obtain ⟨si, h1, h⟩ := bind_ok_inv h
  obtain ⟨di, h2, h⟩ := bind_ok_inv h
  rw [stripImage] at h2
  obtain ⟨x, h3, h2⟩ := bind_ok_inv h2
  cases x with
  | error e => cases h2
  | ok x =>
    cases h2
    obtain ⟨_, _, h4, rfl⟩ := new_eq_ok h3
    refine (convertJob_in (S := InPlanes d.2) ?_ _) j h
    have e : ∀ l : List Plane, ((l.map (·.slice)).zip (l.map (·.stride))).map (fun (s, st) => (⟨s, st⟩ : Plane)) = l := by
      intro l
      induction l with
      | nil => rfl
      | cons p ps ih => rw [List.map_cons, List.map_cons, List.zip_cons_cons, List.map_cons, ih]
    intro ps hps
    have hd : ps = d.2 := Except.ok.inj (hps.symm.trans (congrArg Except.ok (e d.2)))
    exact fun a h => hd ▸ h

theorem JobIn.mono {S T : Nat → Prop} {r : Exec (Except ConvertError (Job F))} (h : JobIn S r) (hst : ∀ a, S a → T a) :
    JobIn T r := fun j e => (h j e).mono hst

/-- The tasks of the parallel section. -/
theorem mtPlan_in {threads : Nat} {src dst : Img} {S : Nat → Prop}
    (ed : ∀ ps, dst.planes = .ok ps → ∀ a, InPlanes ps a → S a) :
    (∀ j, mtPlan (F := F) threads src dst = .ok (.single j) → JobIn S j) ∧
    ∀ tasks, mtPlan (F := F) threads src dst = .ok (.parallel tasks) → ∀ t ∈ tasks, JobIn S t := by
  constructor
  · intro j h
    rw [mtPlan] at h
    split at h
    · cases h
    · split at h
      · cases h; exact convertSame_in ed src
      · split at h
        · cases h; exact convertJob_in ed src
        · obtain ⟨_, _, h⟩ := bind_ok_inv h
          obtain ⟨_, _, h⟩ := bind_ok_inv h
          obtain ⟨_, _, h⟩ := bind_ok_inv h
          obtain ⟨_, _, h⟩ := bind_ok_inv h
          cases h
  · intro tasks h t ht
    rw [mtPlan] at h
    split at h
    · cases h
    · split at h
      · cases h
      · split at h
        · cases h
        · obtain ⟨_, _, h⟩ := bind_ok_inv h
          obtain ⟨ss, _, h⟩ := bind_ok_inv h
          obtain ⟨dps, h1, h⟩ := bind_ok_inv h
          obtain ⟨ds, h2, h⟩ := bind_ok_inv h
          cases h
          obtain ⟨⟨s, d⟩, hsd, rfl⟩ := List.mem_map.1 ht
          exact (stripJob_in src dst s d).mono fun a ha => ed dps h1 a (splitPlanes_in h2 d (List.of_mem_zip hsd).2 a ha)

theorem MtRuns.keeps {c : Cpu F} (hc : c.vec.Lawful) {threads : Nat} {src dst : Img} {S : Nat → Prop}
    (ed : ∀ ps, dst.planes = .ok ps → ∀ a, InPlanes ps a → S a) {m m' : Mem} {r : Except ConvertError Unit}
    (h : MtRuns c threads src dst m (.ok (r, m'))) : Keeps S m m' := by
  generalize ho : (Except.ok (r, m') : Exec (Except ConvertError Unit × Mem)) = o at h
  cases h with
  | planFault h => cases ho
  | fail h => cases ho; exact Keeps.refl _ _
  | single h => exact runJob_keeps hc ((mtPlan_in ed).1 _ h) ho.symm
  | taskFault h ht => cases ho
  | taskAssert h ht hj => cases ho
  | taskErr h ht hs => cases ho; exact ((Within.start ((mtPlan_in ed).2 _ h)).reach hc hs).mem
  | stepFault h hs hf => cases ho
  | done h ht hs hf => cases ho; exact ((Within.start ((mtPlan_in ed).2 _ h)).reach hc hs).mem

/-! ## `copy` -/

theorem chunks_in {s : Slice} {n : Nat} {l : List Slice} (h : s.chunksExact n = .ok l) : ∀ t ∈ l, ∀ a, t.Has a → s.Has a := by
  rw [Slice.chunksExact] at h
  split at h
  · cases h
  · cases h
    intro t ht a ha
    obtain ⟨i, hi, rfl⟩ := List.mem_map.1 ht
    have hi := List.mem_range.1 hi
    have h3 : (i + 1) * n ≤ s.len := Nat.le_trans (Nat.mul_le_mul_right _ hi) (Nat.div_mul_le_self _ _)
    rw [Nat.succ_mul] at h3
    obtain ⟨h1, h2⟩ := ha
    dsimp only at h1 h2
    exact ⟨by omega, by omega⟩

theorem copyRow_keeps {n : Nat} {r : Slice × Slice} {m m' : Mem} (h : copyRow n m r = .ok m') : Keeps r.2.Has m m' := by
  obtain ⟨d, h1, h⟩ := bind_ok_inv h
  obtain ⟨_, _, h⟩ := bind_ok_inv h
  obtain ⟨_, _, h⟩ := bind_ok_inv h
  refine (rawWrite_keeps h).mono fun a ha => ?_
  rw [Slice.takeTo] at h1
  split at h1
  · cases h1
    obtain ⟨h2, h3⟩ := ha
    dsimp only at h2 h3
    exact ⟨by omega, by omega⟩
  · cases h1

theorem copyRows_keeps {n : Nat} {S : Nat → Prop} : ∀ {rs : List (Slice × Slice)} {m m' : Mem},
    (∀ r ∈ rs, ∀ a, r.2.Has a → S a) → copyRows n rs m = .ok m' → Keeps S m m'
  | [], _, _, _, h => by cases h; exact Keeps.refl _ _
  | r :: rs, m, m', hs, h => by
    obtain ⟨m1, h1, h⟩ := bind_ok_inv h
    exact ((copyRow_keeps h1).mono (hs r (by simp))).trans (copyRows_keeps (fun r h => hs r (by simp [h])) h)

theorem copyPlanes_keeps {w : Nat} {S : Nat → Prop} : ∀ {l : List (PlaneDesc × Plane × Plane)} {m m' : Mem},
    (∀ t ∈ l, ∀ a, t.2.2.slice.Has a → S a) → copyPlanes w l m = .ok m' → Keeps S m m'
  | [], _, _, _, h => by cases h; exact Keeps.refl _ _
  | (d, s, p) :: l, m, m', hs, h => by
    obtain ⟨_, _, h⟩ := bind_ok_inv h
    obtain ⟨_, _, h⟩ := bind_ok_inv h
    obtain ⟨_, _, h⟩ := bind_ok_inv h
    obtain ⟨rows, h1, h⟩ := bind_ok_inv h
    obtain ⟨m1, h2, h⟩ := bind_ok_inv h
    refine (copyRows_keeps (fun r hr a ha => ?_) h2).trans (copyPlanes_keeps (fun t h => hs t (by simp [h])) h)
    exact hs (d, s, p) (by simp) a (chunks_in h1 _ (List.of_mem_zip hr).2 a ha)

theorem copyImpl_keeps {src dst : Img} {S : Nat → Prop} (ed : ∀ ps, dst.planes = .ok ps → ∀ a, InPlanes ps a → S a)
    {m m' : Mem} {r : Except ConvertError Unit} (h : copyImpl src dst m = .ok (r, m')) : Keeps S m m' := by
  rw [copyImpl] at h
  split at h
  · cases h; exact Keeps.refl _ _
  · split at h
    · cases h
    · obtain ⟨x, _, h⟩ := bind_ok_inv h
      cases x with
      | error e => cases h; exact Keeps.refl _ _
      | ok _ =>
        obtain ⟨x, _, h⟩ := bind_ok_inv h
        cases x with
        | error e => cases h; exact Keeps.refl _ _
        | ok _ =>
          obtain ⟨sps, _, h⟩ := bind_ok_inv h
          obtain ⟨dps, h1, h⟩ := bind_ok_inv h
          obtain ⟨m1, h2, h⟩ := bind_ok_inv h
          cases h
          refine copyPlanes_keeps (fun t ht a ha => ed dps h1 a ⟨_, ?_, ha⟩) h2
          exact (List.of_mem_zip (List.of_mem_zip ht).2).2

/-! ## `resize` -/

theorem resize_reach_keeps {c : Cpu F} {fir : Fir} {src dst : Img} {sps dps : List Plane} {n : Nat} {m : Mem} {s : Threads F}
    (hr : Reach c (resizeStart fir src dst sps dps n m) s) : Keeps (InPlanes dps) m s.mem := by
  intro a ha
  refine ((confined_start fir src dst _ _ _ m).reach hr).mem a fun t ht hh => ha ⟨_, ?_, hh⟩
  exact (List.of_mem_zip (List.of_mem_zip (List.mem_of_mem_take ht)).2).2

end Ezk

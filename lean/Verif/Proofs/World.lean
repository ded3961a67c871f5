import Verif.Model.World
import Verif.Proofs.Confined
import Verif.Proofs.AsRead

/-!
# Histories: helper lemmas
-/

namespace Ezk
open FOps Spec

variable {F : Type} [FOps F]

/-- The bytes of an image. -/
def Image.Owns (i : Image) (a : Nat) : Prop := ∃ s ∈ i.slices, s.Has a

/-! ## Planes are parts of the buffer -/

/-- Slice `s` is a part of `t`. -/
def Part (s t : Slice) : Prop := ∀ a, s.Has a → t.Has a

theorem inferLoop_part {h : Nat} : ∀ {l : List (PlaneDesc × Nat)} {buf : Slice} {out : List Slice},
    inferLoop h l buf = .ok out → (∀ s ∈ out, Part s buf) ∧ out.Pairwise fun s t => ∀ a, s.Has a → ¬ t.Has a
  | [], _, _, e => by cases e; exact ⟨fun s hs => (by cases hs), List.Pairwise.nil⟩
  | (d, st) :: l, buf, out, e => by
    obtain ⟨_, _, e⟩ := bind_ok_inv e
    obtain ⟨n, _, e⟩ := bind_ok_inv e
    obtain ⟨⟨p, r⟩, h1, e⟩ := bind_ok_inv e
    obtain ⟨o, h2, e⟩ := bind_ok_inv e
    cases e
    obtain ⟨i1, i2⟩ := splitAt_in h1
    obtain ⟨i3, i4⟩ := inferLoop_part h2
    refine ⟨fun s hs => ?_, List.Pairwise.cons (fun t ht a ha hb => ?_) i4⟩
    · rcases List.mem_cons.1 hs with rfl | hs
      · exact i1
      · exact fun a ha => i2 a (i3 s hs a ha)
    · have hb := i3 t ht a hb
      rw [Slice.splitAt] at h1
      split at h1
      · cases h1
        have h3 := ha.2
        have h4 := hb.1
        dsimp only at h3 h4
        omega
      · cases h1

theorem infer_part {f : PixelFormat} {buf : Slice} {w h : Nat} {ss : Option (List Nat)} {out : List Slice}
    (e : infer f buf w h ss = .ok out) :
    (∀ s ∈ out, Part s buf) ∧ out.Pairwise fun s t => ∀ a, s.Has a → ¬ t.Has a := by
  have one : ∀ {out : List Slice}, Except.ok [buf] = (Except.ok out : Exec (List Slice)) →
      (∀ s ∈ out, Part s buf) ∧ out.Pairwise fun s t => ∀ a, s.Has a → ¬ t.Has a := by
    intro out e
    cases e
    exact ⟨fun s hs a ha => List.mem_singleton.1 hs ▸ ha, List.pairwise_singleton _ _⟩
  have many : ∀ {ds : List PlaneDesc} {out : List Slice}, inferImpl ds buf w h ss = .ok out →
      (∀ s ∈ out, Part s buf) ∧ out.Pairwise fun s t => ∀ a, s.Has a → ¬ t.Has a := by
    intro ds out e
    cases ss with
    | none =>
      obtain ⟨_, _, e⟩ := bind_ok_inv e
      exact inferLoop_part e
    | some l =>
      by_cases hl : l.length = ds.length
      · exact inferLoop_part (by simpa [inferImpl, hl, bind, Except.bind] using e)
      · simp [inferImpl, hl, bind, Except.bind] at e
  cases f <;> first | exact many e | exact one e

/-- The `i`-th planes of `ps` are parts of those of `qs`. -/
def Parts (ps qs : List Plane) : Prop := ∀ (i : Nat) (p : Plane), ps[i]? = some p → ∃ q, qs[i]? = some q ∧ Part p.slice q.slice

theorem cropPlane_part {d : PlaneDesc} {p q : Plane} {w : Window} (h : cropPlane d p w = .ok q) : Part q.slice p.slice := by
  rw [cropPlane] at h
  obtain ⟨_, _, h⟩ := bind_ok_inv h
  obtain ⟨_, _, h⟩ := bind_ok_inv h
  obtain ⟨_, _, h⟩ := bind_ok_inv h
  obtain ⟨_, _, h⟩ := bind_ok_inv h
  obtain ⟨_, _, h⟩ := bind_ok_inv h
  obtain ⟨⟨_, s⟩, h1, h⟩ := bind_ok_inv h
  obtain ⟨_, _, h⟩ := bind_ok_inv h
  obtain ⟨_, _, h⟩ := bind_ok_inv h
  obtain ⟨⟨t, _⟩, h2, h⟩ := bind_ok_inv h
  cases h
  exact fun a ha => (splitAt_in h1).2 a ((splitAt_in h2).1 a ha)

theorem cropPlanes_parts {ds : List PlaneDesc} {ps qs : List Plane} {w : Window} (h : cropPlanes ds ps w = .ok qs) :
    Parts qs ps := by
  intro i q hq
  obtain ⟨⟨d, p⟩, h1, h2⟩ := mapM_get _ _ h i q hq
  rw [List.getElem?_zip_eq_some] at h1
  exact ⟨p, h1.2, cropPlane_part h2⟩

theorem Parts.trans {ps qs rs : List Plane} (h : Parts ps qs) (h' : Parts qs rs) : Parts ps rs := by
  intro i p hp
  obtain ⟨q, hq, h1⟩ := h i p hp
  obtain ⟨r, hr, h2⟩ := h' i q hq
  exact ⟨r, hr, fun a ha => h2 a (h1 a ha)⟩

/-- Different planes have no byte in common. -/
def Distinct (ps : List Plane) : Prop :=
  ∀ (i j : Nat) (p q : Plane), i ≠ j → ps[i]? = some p → ps[j]? = some q → ∀ a, p.slice.Has a → ¬ q.slice.Has a

theorem Parts.distinct {ps qs : List Plane} (h : Parts ps qs) (hd : Distinct qs) : Distinct ps := by
  intro i j p q hij hp hq a ha hb
  obtain ⟨p', hp', h1⟩ := h i p hp
  obtain ⟨q', hq', h2⟩ := h j q hq
  exact hd i j p' q' hij hp' hq' a (h1 a ha) (h2 a hb)

theorem distinct_of_pairwise {ss : List Slice} {ts : List Nat} (h : ss.Pairwise fun s t => ∀ a, s.Has a → ¬ t.Has a) :
    Distinct ((ss.zip ts).map fun (s, st) => ⟨s, st⟩) := by
  rw [List.pairwise_iff_getElem] at h
  intro i j p q hij hp hq a ha hb
  simp only [List.getElem?_map, Option.map_eq_some_iff, List.getElem?_zip_eq_some, Prod.exists] at hp hq
  obtain ⟨s, _, ⟨hs, _⟩, rfl⟩ := hp
  obtain ⟨t, _, ⟨ht, _⟩, rfl⟩ := hq
  obtain ⟨hi, rfl⟩ := List.getElem?_eq_some_iff.1 hs
  obtain ⟨hj, rfl⟩ := List.getElem?_eq_some_iff.1 ht
  rcases Nat.lt_or_gt_of_ne hij with h1 | h1
  · exact h i j hi hj h1 a ha hb
  · exact h j i hj hi h1 a hb ha

theorem Image.planes_owned {img : Image} {ps : List Plane} (h : img.planes = .ok ps) : ∀ a, InPlanes ps a → img.Owns a := by
  rw [Image.planes] at h
  cases hb : img.buffer with
  | whole s =>
    rw [hb] at h
    obtain ⟨l, h1, h⟩ := bind_ok_inv h
    cases h
    rintro a ⟨p, hp, ha⟩
    obtain ⟨⟨t, st⟩, ht, rfl⟩ := List.mem_map.1 hp
    exact ⟨s, by simp [Image.slices, hb], (infer_part h1).1 t (List.of_mem_zip ht).1 a ha⟩
  | split l =>
    rw [hb] at h
    cases h
    rintro a ⟨p, hp, ha⟩
    obtain ⟨⟨t, st⟩, ht, rfl⟩ := List.mem_map.1 hp
    exact ⟨t, by simpa [Image.slices, hb] using (List.of_mem_zip ht).1, ha⟩

theorem Image.planes_distinct {img : Image} {ps : List Plane} (h : img.planes = .ok ps)
    (hd : img.slices.Pairwise fun s t => ∀ a, s.Has a → ¬ t.Has a) : Distinct ps := by
  rw [Image.planes] at h
  cases hb : img.buffer with
  | whole s =>
    rw [hb] at h
    obtain ⟨l, h1, h⟩ := bind_ok_inv h
    cases h
    exact distinct_of_pairwise (infer_part h1).2
  | split l =>
    rw [hb] at h
    cases h
    rw [Image.slices, hb] at hd
    exact distinct_of_pairwise hd

/-- The planes of a view are parts of the planes of the image. -/
theorem View.parts {w : World} {i : Nat} {t : Img} (v : View w i t) : ∀ {ps : List Plane}, t.planes = .ok ps →
    ∃ h, w.held i = some h ∧ ∃ qs, h.image.planes = .ok qs ∧ Parts ps qs := by
  induction v with
  | whole e =>
    intro ps hp
    exact ⟨_, e, ps, hp, fun i p h => ⟨p, h, fun _ h => h⟩⟩
  | @crop t t' win v e ih =>
    intro ps hp
    have ht : t' = .cropped t win := by
      rw [Img.crop] at e
      obtain ⟨x, _, e⟩ := bind_ok_inv e
      cases x with
      | error _ => cases e
      | ok _ =>
        dsimp only at e
        split at e
        · cases e
        · split at e
          · cases e
          · split at e
            · cases e
            · cases e; rfl
    subst ht
    rw [Img.planes] at hp
    obtain ⟨qs, h1, h2⟩ := bind_ok_inv hp
    obtain ⟨h, h3, rs, h4, h5⟩ := ih h1
    exact ⟨h, h3, rs, h4, (cropPlanes_parts h2).trans h5⟩

theorem View.owned {w : World} {i : Nat} {t : Img} (v : View w i t) {ps : List Plane} (e : t.planes = .ok ps) {h : Held}
    (hh : w.held i = some h) : ∀ a, InPlanes ps a → h.image.Owns a := by
  rintro a ⟨p, hp, ha⟩
  obtain ⟨h', e1, qs, e2, hpt⟩ := v.parts e
  cases hh.symm.trans e1
  obtain ⟨k, hk⟩ := List.getElem?_of_mem hp
  obtain ⟨q, hq, h3⟩ := hpt k p hk
  exact Image.planes_owned e2 a ⟨q, List.mem_of_getElem? hq, h3 a ha⟩

/-! ## Effects -/

theorem Effect.keeps {c : Cpu F} (hc : c.vec.Lawful) {fir : Fir} {src dst : Img} {m m' : Mem} {S : Nat → Prop}
    (h : Effect c fir src dst m m') (ed : ∀ ps, dst.planes = .ok ps → ∀ a, InPlanes ps a → S a) : Keeps S m m' := by
  cases h with
  | convert h => exact runJob_keeps hc (convertJob_in ed src) h
  | convertPanic h hr =>
    refine ((Within.start fun t ht => ?_).reach hc hr).mem
    rw [List.mem_singleton.1 ht]
    exact convertJob_in ed src
  | multi h => exact h.keeps hc ed
  | multiEarly => exact Keeps.refl _ _
  | multiSingle h hp hr =>
    refine ((Within.start fun t ht => ?_).reach hc hr).mem
    rw [List.mem_singleton.1 ht]
    exact (mtPlan_in ed).1 _ hp
  | multiPanic h hp hr => exact ((Within.start ((mtPlan_in ed).2 _ hp)).reach hc hr).mem
  | copy h => exact copyImpl_keeps ed h
  | copyEarly => exact Keeps.refl _ _
  | @copyPanic k sps dps l₁ l₂ d p q n srows drows rows rows' m₁ _ h hs hd hl h₁ hsr hdr hrows h₂ =>
    have key : ∀ t ∈ l₁ ++ (d, p, q) :: l₂, ∀ a, t.2.2.slice.Has a → S a := by
      intro t ht a ha
      rw [← hl] at ht
      exact ed dps hd a ⟨_, (List.of_mem_zip (List.of_mem_zip ht).2).2, ha⟩
    refine (copyPlanes_keeps (fun t ht => key t (by simp [ht])) h₁).trans (copyRows_keeps (fun r hr a ha => ?_) h₂)
    have hr : r ∈ srows.zip drows := by rw [hrows]; simp [hr]
    exact key (d, p, q) (by simp) a (chunks_in hdr _ (List.of_mem_zip hr).2 a ha)
  | resize h =>
    cases h with
    | differ => exact Keeps.refl _ _
    | done h hs hd hr hf => exact (resize_reach_keeps hr).mono (ed _ hd)
  | resizeEarly => exact Keeps.refl _ _
  | resizePanic h hs hd hr => exact (resize_reach_keeps hr).mono (ed _ hd)

/-! ## What every history preserves -/

structure World.Ok (w : World) : Prop where
  valid : ∀ i h, w.held i = some h → (Img.image h.image).boundsCheck = .ok (.ok ())
  exclusive : ∀ i j h h', i ≠ j → w.held i = some h → w.held j = some h' → h.writable = true ∨ h'.writable = true →
    ∀ a, h.image.Owns a → ¬ h'.image.Owns a
  own : ∀ i h, w.held i = some h → h.writable = true → h.image.slices.Pairwise fun s t => ∀ a, s.Has a → ¬ t.Has a

theorem World.Ok.init (m : Mem) : (World.init m).Ok :=
  ⟨fun _ _ e => (by cases e), fun _ _ _ _ _ e => (by cases e), fun _ _ e => (by cases e)⟩

theorem Apart.owns {i j : Image} (h : Apart i.slices j.slices) : ∀ a, i.Owns a → ¬ j.Owns a := by
  rintro a ⟨s, hs, ha⟩ ⟨t, ht, hb⟩
  exact h s hs t ht a ha hb

theorem World.Ok.mem {w : World} (h : w.Ok) (m : Mem) : ({ w with mem := m } : World).Ok := ⟨h.valid, h.exclusive, h.own⟩

theorem World.Ok.add {w : World} (h : w.Ok) {i : Nat} {n : Held} (hv : (Img.image n.image).boundsCheck = .ok (.ok ()))
    (hx : ∀ j h', w.held j = some h' → n.writable = true ∨ h'.writable = true → Apart n.image.slices h'.image.slices)
    (ho : n.writable = true → n.image.slices.Pairwise fun s t => ∀ a, s.Has a → ¬ t.Has a) :
    (w.set i (some n)).Ok := by
  refine ⟨fun k h' e => ?_, fun k l h1 h2 hkl e1 e2 hw => ?_, fun k h' e hw => ?_⟩
  · simp only [World.set] at e
    split at e
    · cases e; exact hv
    · exact h.valid k h' e
  · simp only [World.set] at e1 e2
    split at e1
    · split at e2
      · omega
      · cases e1; exact (hx l h2 e2 hw).owns
    · split at e2
      · cases e2
        exact fun a ha hb => (hx k h1 e1 hw.symm).owns a hb ha
      · exact h.exclusive k l h1 h2 hkl e1 e2 hw
  · simp only [World.set] at e
    split at e
    · cases e; exact ho hw
    · exact h.own k h' e hw

theorem World.Ok.remove {w : World} (h : w.Ok) {i : Nat} : (w.set i none).Ok := by
  have key : ∀ k h', (w.set i none).held k = some h' → w.held k = some h' := by
    intro k h' e
    simp only [World.set] at e
    split at e
    · cases e
    · exact e
  exact ⟨fun k h' e => h.valid k h' (key _ _ e), fun k l h1 h2 hkl e1 e2 => h.exclusive k l h1 h2 hkl (key _ _ e1) (key _ _ e2),
    fun k h' e => h.own k h' (key _ _ e)⟩

end Ezk

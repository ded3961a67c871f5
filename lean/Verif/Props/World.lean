import Verif.Proofs.World
import Verif.Proofs.Demo
import Verif.Props.Bounds
import Verif.Props.Buffers
import Verif.Props.AsRead

/-!
# Programs that use the library (C06, C46)

For every program and every number of steps, with operations that fail and operations that panic in the middle.
-/

namespace Ezk.Props
open FOps Spec

variable {F : Type} [FOps F] {c : Cpu F} {fir : Fir}

theorem step_ok {w w' : World} {a : Act} (s : Step c fir w a w') (h : w.Ok) : w'.Ok := by
  cases s with
  | make free hn others own => exact h.add (new_eq_ok hn).2.2.1 others own
  | @blank i addr f width height col img m' free hb others =>
    obtain ⟨h1, -, -, -, -, n, h2, -⟩ := C04_blank_valid _ _ _ _ _ _ _ _ hb
    refine (h.mem _).add h1 (fun j h' e _ => others j h' e) fun _ => ?_
    dsimp only
    rw [Image.slices, h2]
    exact List.pairwise_singleton _ _
  | drop => exact h.remove
  | run vs vd ne hj hw e => exact h.mem _
  | write hj hw e => exact h.mem _
  | elsewhere e => exact h.mem _

theorem history_ok {w w' : World} {acts : List Act} (s : History c fir w acts w') (h : w.Ok) : w'.Ok := by
  induction s with
  | nil => exact h
  | snoc _ hs ih => exact step_ok hs ih

/-- **C06**: whatever a program does, every image it holds passes `bounds_check`. -/
theorem C06_history {m : Mem} {acts : List Act} {w : World} (s : History c fir (World.init m) acts w) {i : Nat} {h : Held}
    (hi : w.held i = some h) : (Img.image h.image).boundsCheck = .ok (.ok ()) :=
  (history_ok s (.init m)).valid i h hi

/-- **C06**: and it has the format, size, strides, colour and memory it was made with until it is dropped. -/
theorem C06_geometry {w w' : World} {acts : List Act} (s : History c fir w acts w') {i : Nat} {h : Held}
    (hi : w.held i = some h) (hd : .drop i ∉ acts) : w'.held i = some h := by
  induction s with
  | nil => exact hi
  | snoc _ hs ih =>
    rw [List.mem_append, not_or] at hd
    have ih := ih hd.1
    have hne := fun e => hd.2 (List.mem_singleton.2 e)
    cases hs with
    | @make k f buf ss width height col img b free hn others own =>
      have : i ≠ k := by rintro rfl; rw [ih] at free; cases free
      simpa [World.set, this] using ih
    | @blank k addr f width height col img m' free hb others =>
      have : i ≠ k := by rintro rfl; rw [ih] at free; cases free
      simpa [World.set, this] using ih
    | @drop k =>
      have : i ≠ k := by rintro rfl; exact hne rfl
      simpa [World.set, this] using ih
    | run vs vd ne hj hw e => exact ih
    | write hj hw e => exact ih
    | elsewhere e => exact ih

/-- **C46**: an image keeps every byte of its memory as long as it is neither dropped nor written to, whatever happens to
other images, on however many threads, and whatever panics. -/
theorem C46_bystander (hc : c.vec.Lawful) {m : Mem} {acts₀ acts : List Act} {w w' : World}
    (s₀ : History c fir (World.init m) acts₀ w) (s : History c fir w acts w') {i : Nat} {h : Held}
    (hi : w.held i = some h) (hd : .drop i ∉ acts) (hu : .use i ∉ acts) :
    ∀ t ∈ h.image.slices, ∀ a, t.Has a → w'.mem a = w.mem a := by
  intro t ht a ha
  induction s with
  | nil => rfl
  | @snoc acts' w₁ w₂ act s hs ih =>
    rw [List.mem_append, not_or] at hd hu
    have ih := ih hd.1 hu.1
    have e₁ := C06_geometry s hi hd.1
    have hne := fun e => hu.2 (List.mem_singleton.2 e)
    have hok := history_ok s (history_ok s₀ (.init m))
    have key : ∀ {j : Nat} {h' : Held}, act = .use j → w₁.held j = some h' → h'.writable = true → ¬ h'.image.Owns a := by
      intro j h' ea e hw hb
      have hij : i ≠ j := by rintro rfl; exact hne ea.symm
      exact hok.exclusive i j h h' hij e₁ e (.inr hw) a ⟨t, ht, ha⟩ hb
    cases hs with
    | make => exact ih
    | @blank k addr f width height col img m' free hb others =>
      obtain ⟨-, -, -, -, -, n, h2, -, -, h3⟩ := C04_blank_valid _ _ _ _ _ _ _ _ hb
      have : ¬ (addr ≤ a ∧ a < addr + n) := by
        intro hin
        exact others i h e₁ ⟨addr, n⟩ (by simp [Image.slices, h2]) t ht a hin ha
      exact (h3 a this).trans ih
    | drop => exact ih
    | run vs vd ne hj hw e =>
      exact (e.keeps hc (fun ps hps => vd.owned hps hj) a (key rfl hj hw)).trans ih
    | write hj hw e => exact (e a fun s hs ha => key rfl hj hw ⟨s, hs, ha⟩).trans ih
    | elsewhere e => exact (e i h e₁ t ht a ha).trans ih

theorem sample_of_bytes {f : PixelFormat} {ps : List Plane} {m m' : Mem} {ch : Chan} {x y : Nat}
    (hc : ∀ l, sampleLoc f ch x y = some l → Addressable ps l (sampleBytes f))
    (h : ∀ a, InPlanes ps a → m' a = m a) : sample f ps m' ch x y = sample f ps m ch x y := by
  rw [sample, sample]
  cases hl : sampleLoc f ch x y with
  | none => rfl
  | some l =>
    obtain ⟨p, hp, -, h2⟩ := hc l hl
    simp only [Option.bind_some, locAddr, hp, Option.map_some, sampleVal]
    have hb : ∀ k < sampleBytes f, m' (p.slice.addr + l.row * p.stride + l.col + k) =
        m (p.slice.addr + l.row * p.stride + l.col + k) := by
      intro k hk
      refine h _ ⟨p, List.mem_of_getElem? hp, ?_, ?_⟩ <;> omega
    have h0 := hb 0 (by cases f <;> simp [sampleBytes])
    rw [Nat.add_zero] at h0
    rw [h0]
    split
    · rfl
    · rw [hb 1 (by revert ‹¬ _›; cases f <;> simp [sampleBytes])]

/-- **C46**: so it, and any window of it, shows the same picture. -/
theorem C46_picture (hc : c.vec.Lawful) {m : Mem} {acts₀ acts : List Act} {w w' : World}
    (s₀ : History c fir (World.init m) acts₀ w) (s : History c fir w acts w') {i : Nat} {t : Img} (v : View w i t)
    {ps : List Plane} (hp : t.planes = .ok ps) (hd : .drop i ∉ acts) (hu : .use i ∉ acts)
    (ht : t.boundsCheck = .ok (.ok ())) {ch : Chan} {x y : Nat} (hx : HasCell t.format ch t.width t.height x y) :
    sample t.format ps w'.mem ch x y = sample t.format ps w.mem ch x y := by
  obtain ⟨h, hh, -⟩ := v.parts hp
  refine sample_of_bytes (fun l hl => ?_) fun a ha => ?_
  · obtain ⟨ps', hp', h1⟩ := C01_bounds_check_sound t ht
    cases hp.symm.trans hp'
    exact h1 ch x y l hx hl
  · obtain ⟨sl, hsl, ha⟩ := v.owned hp hh a ha
    exact C46_bystander hc s₀ s hh hd hu sl hsl a ha

/-- **C46**: in every history, whatever came before, a conversion that returns `Ok` meets the conditions under which the
other theorems describe its result. -/
theorem C46_conversion (hc : c.vec.Lawful) {m m' : Mem} {acts : List Act} {w : World}
    (s : History c fir (World.init m) acts w) {i j : Nat} (ne : i ≠ j) {src dst : Img} (vs : View w i src) (vd : View w j dst)
    {h : Held} (hj : w.held j = some h) (hw : h.writable = true) (ok : convert c src dst w.mem = .ok (.ok (), m'))
    {sps dps : List Plane} (es : src.planes = .ok sps) (ed : dst.planes = .ok dps) :
    Done c src dst sps dps w.mem m' := by
  have hok := history_ok s (.init m)
  refine ⟨hc, es, ed, ?_, ?_, ok⟩
  · intro k l p q _ _ hkl hp hq a h1 h2 h3 h4
    obtain ⟨h', e', qs, e'', hpt⟩ := vd.parts ed
    cases hj.symm.trans e'
    exact hpt.distinct (Image.planes_distinct e'' (hok.own j h hj hw)) k l p q hkl hp hq a ⟨h1, h2⟩ ⟨h3, h4⟩
  · intro k l p q _ _ hp hq a h1 h2 h3 h4
    obtain ⟨h', e', -⟩ := vs.parts es
    exact hok.exclusive i j h' h ne e' hj (.inr hw) a (vs.owned es e' a ⟨p, List.mem_of_getElem? hp, h1, h2⟩)
      (vd.owned ed hj a ⟨q, List.mem_of_getElem? hq, h3, h4⟩)

/-- **C46**: what the destination shows after a successful conversion (see C14, C41, C43, C44), it shows until the program
writes to it again or drops it. -/
theorem C46_result_stays (hc : c.vec.Lawful) {m m' : Mem} {acts₀ acts : List Act} {w w' : World}
    (s₀ : History c fir (World.init m) acts₀ w) {i j : Nat} (ne : i ≠ j) {src dst : Img} (vs : View w i src)
    (vd : View w j dst) {h : Held} (hj : w.held j = some h) (hw : h.writable = true)
    (ok : convert c src dst w.mem = .ok (.ok (), m')) (s : History c fir { w with mem := m' } acts w') (hd : .drop j ∉ acts)
    (hu : .use j ∉ acts) {sps dps : List Plane} (es : src.planes = .ok sps) (ed : dst.planes = .ok dps) {V : Pic Nat}
    (hV : Depicts dst.format dps dst.width dst.height m' V) : Depicts dst.format dps dst.width dst.height w'.mem V := by
  have r := C46_conversion hc s₀ ne vs vd hj hw ok es ed
  have hr := r.returned
  have s₁ : History c fir (World.init m) (acts₀ ++ [.use j]) { w with mem := m' } :=
    .snoc s₀ (.run vs vd ne hj hw (.convert ok))
  have vd' : View { w with mem := m' } j dst := by
    clear es ed s s₁ r hr ok hj hV
    induction vd with
    | whole e => exact .whole e
    | crop _ e ih => exact .crop ih e
  intro ch x y l hx hy hl
  rw [C46_picture hc s₁ s vd' ed hd hu hr.vdst.check (HasCell.of_even hr.evenW hr.evenH hx hy)]
  exact hV ch x y l hx hy hl

/-- A 2×2 RGB image borrowed at address 0. -/
def borrowed : Image := ⟨.RGB, .whole ⟨0, 12⟩, [6], 2, 2, .RGB ⟨.SDR, .BT709⟩⟩
/-- A 2×2 RGBA image allocated at address 100. -/
def allocated : Image := ⟨.RGBA, .whole ⟨100, 16⟩, [8], 2, 2, .RGB ⟨.SDR, .BT709⟩⟩

/-- Non-vacuity: a history in which `borrowed` is converted into `allocated`, `allocated` is written to by the program, and
another attempt to use it as destination fails because the sizes differ. -/
example (p : Platform) (simd scalar : F32.Libm) (m : Mem) :
    ∃ w m₁, History (p.ieee simd scalar) fir (World.init m) [.other, .other] w ∧
      w.held 0 = some ⟨borrowed, false⟩ ∧ w.held 1 = some ⟨allocated, true⟩ ∧
      convert (p.ieee simd scalar) (.image borrowed) (.image allocated) w.mem = .ok (.ok (), m₁) ∧
      History (p.ieee simd scalar) fir w [.use 1, .use 1, .use 1]
        { w with mem := fun a => if a = 103 then 77 else m₁ a } := by
  let w₁ := (World.init m).set 0 (some ⟨borrowed, false⟩)
  let m₀ := m.store 100 16 fun _ => 0
  let w : World := { w₁ with mem := m₀ }.set 1 (some ⟨allocated, true⟩)
  have h₁ : Step (p.ieee simd scalar) fir (World.init m) .other w₁ :=
    .make (f := .RGB) (buf := .whole ⟨0, 12⟩) (ss := none) (width := 2) (height := 2) (col := .RGB ⟨.SDR, .BT709⟩) rfl
      (by decide) (fun _ _ e => by cases e) nofun
  have h₂ : Step (p.ieee simd scalar) fir w₁ .other w := by
    refine .blank (addr := 100) (f := .RGBA) (width := 2) (height := 2) (col := .RGB ⟨.SDR, .BT709⟩) rfl rfl ?_
    intro j h' e
    have e : (if j = 0 then some (⟨borrowed, false⟩ : Held) else none) = some h' := e
    split at e
    · cases e
      rintro s hs t ht a ha hb
      have hs : s ∈ [(⟨100, 16⟩ : Slice)] := hs
      have ht : t ∈ [(⟨0, 12⟩ : Slice)] := ht
      rw [List.mem_singleton] at hs ht
      subst hs ht
      have h1 := ha.1
      have h2 := hb.2
      dsimp only at h1 h2
      omega
    · cases e
  have e0 : w.held 0 = some ⟨borrowed, false⟩ := rfl
  have e1 : w.held 1 = some ⟨allocated, true⟩ := rfl
  obtain ⟨m₁, r⟩ := run_exists (c := p.ieee simd scalar) (platform_lawful p _ _) (src := .image borrowed)
    (dst := .image allocated) rfl rfl (planesDisjoint_of (by decide)) (separate_of (by decide)) (uniform_of (by decide))
    (by decide) w.mem
  let w₂ : World := { w with mem := m₁ }
  let w₃ : World := { w with mem := fun a => if a = 103 then 77 else m₁ a }
  have h₃ : Step (p.ieee simd scalar) fir w (.use 1) w₂ := .run (.whole e0) (.whole e1) (by decide) e1 rfl (.convert r.ok)
  have h₄ : Step (p.ieee simd scalar) fir w₂ (.use 1) w₃ := by
    refine .write (w := w₂) (h := ⟨allocated, true⟩) e1 rfl fun a ha => ?_
    have : a ≠ 103 := by
      rintro rfl
      exact ha ⟨100, 16⟩ (List.mem_singleton.2 rfl) ⟨by decide, by decide⟩
    exact if_neg this
  have v : View w₃ 0 (.cropped (.image borrowed) ⟨0, 0, 2, 1⟩) :=
    .crop (win := ⟨0, 0, 2, 1⟩) (.whole e0) rfl
  have h₅ : Step (p.ieee simd scalar) fir w₃ (.use 1) w₃ :=
    .run v (.whole e1) (by decide) e1 rfl (.convert (r := .error .mismatchedImageSize) rfl)
  exact ⟨w, m₁, .snoc (.snoc .nil h₁) h₂, e0, e1, r.ok, .snoc (.snoc (.snoc .nil h₃) h₄) h₅⟩

end Ezk.Props

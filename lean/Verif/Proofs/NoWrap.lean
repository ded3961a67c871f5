import Verif.Proofs.Needs
import Verif.Proofs.Crop
import Verif.Proofs.Copy
import Verif.Proofs.MultiThread
import Verif.Spec.Possible

/-!
# Plain operators do not overflow

`Fault.panic .wrap` is the only fault by which a debug and a release build differ.
-/

namespace Ezk
open FOps Spec

variable {F : Type} [FOps F]

/-- No plain operator overflows. -/
def NoWrap {α : Type} (r : Exec α) : Prop := r ≠ .error (.panic .wrap)

theorem NoWrap.ok {α : Type} (a : α) : NoWrap (.ok a : Exec α) := nofun
theorem NoWrap.pure {α : Type} (a : α) : NoWrap (pure a : Exec α) := nofun

theorem NoWrap.bind {α β : Type} {r : Exec α} {k : α → Exec β} (hr : NoWrap r)
    (hk : ∀ a, r = .ok a → NoWrap (k a)) : NoWrap (r >>= k) := by
  rcases r with e | a
  · intro h
    exact hr (by cases h; rfl)
  · exact hk a rfl

theorem NoWrap.bind' {α β : Type} {r : Exec α} {k : α → Exec β} (hr : NoWrap r) (hk : ∀ a, NoWrap (k a)) :
    NoWrap (r >>= k) := hr.bind fun a _ => hk a

theorem addU_noWrap (a b : Nat) : NoWrap (addU a b) := by rw [addU]; split <;> nofun
theorem mulU_noWrap (a b : Nat) : NoWrap (mulU a b) := by rw [mulU]; split <;> nofun
theorem divU_noWrap (a b : Nat) : NoWrap (divU a b) := by rw [divU]; split <;> nofun
theorem modU_noWrap (a b : Nat) : NoWrap (modU a b) := by rw [modU]; split <;> nofun
theorem addP_noWrap {a b : Nat} (h : a + b < usizeSize) : NoWrap (addP a b) := by rw [addP_ok h]; nofun
theorem mulP_noWrap {a b : Nat} (h : a * b < usizeSize) : NoWrap (mulP a b) := by rw [mulP_ok h]; nofun
theorem splitAt_noWrap (s : Slice) (n : Nat) : NoWrap (s.splitAt n) := by rw [Slice.splitAt]; split <;> nofun
theorem dropFrom_noWrap (s : Slice) (n : Nat) : NoWrap (s.dropFrom n) := by rw [Slice.dropFrom]; split <;> nofun
theorem takeTo_noWrap (s : Slice) (n : Nat) : NoWrap (s.takeTo n) := by rw [Slice.takeTo]; split <;> nofun
theorem chunksExact_noWrap (s : Slice) (n : Nat) : NoWrap (s.chunksExact n) := by rw [Slice.chunksExact]; split <;> nofun
theorem rawRead_noWrap (m : Mem) (s : Slice) (n : Nat) : NoWrap (rawRead m s n) := by rw [rawRead]; split <;> nofun
theorem rawWrite_noWrap (m : Mem) (s : Slice) (n : Nat) (v) : NoWrap (rawWrite m s n v) := by rw [rawWrite]; split <;> nofun

theorem op_noWrap (o : Op) (n : Nat) : NoWrap (o.op n) := by
  cases o <;> simp only [Op.op] <;> first | exact mulU_noWrap _ _ | exact NoWrap.ok _ | exact divU_noWrap _ _

/-! ## The 4:4:4 reader -/

/-- The only faults are a slice index out of range and a read outside of the planes. -/
def OutOfRange {α : Type} (r : Exec α) : Prop := ∀ e, r = .error e → e = .panic .index ∨ e = .ub

theorem OutOfRange.ok {α : Type} (a : α) : OutOfRange (.ok a : Exec α) := nofun

theorem OutOfRange.noWrap {α : Type} {r : Exec α} (h : OutOfRange r) : NoWrap r := by
  intro e
  rcases h _ e with h | h <;> cases h

theorem OutOfRange.bind {α β : Type} {r : Exec α} {k : α → Exec β} (hr : OutOfRange r)
    (hk : ∀ a, OutOfRange (k a)) : OutOfRange (r >>= k) := by
  rcases r with e | a
  · intro e' h
    refine hr e' ?_
    cases h; rfl
  · exact hk a

theorem dropFrom_outOfRange (s : Slice) (n : Nat) : OutOfRange (s.dropFrom n) := by
  rw [Slice.dropFrom]; split
  · nofun
  · intro e h; cases h; exact .inl rfl

theorem load_outOfRange {B : Backend F} (hB : B.Lawful) (P : Prim) (m : Mem) (s : Slice) : OutOfRange (P.load B m s) := by
  cases P
  · rw [Prim.load, hB.loadU8]; split
    · nofun
    · intro e h; cases h; exact .inr rfl
  · rw [Prim.load, hB.loadU16]; split
    · nofun
    · intro e h; cases h; exact .inr rfl

theorem I444Reader.read_outOfRange {R : I444Reader F} {B : Backend F} (hB : B.Lawful) {w h : Nat} (hw : h < usizeSize)
    (m : Mem) {x y : Nat} (hx : x + 2 * B.LEN ≤ w) (hy : y + 2 ≤ h)
    (ry : Room R.P R.y.slice R.y.stride w h) (ru : Room R.P R.u.slice R.u.stride w h)
    (rv : Room R.P R.v.slice R.v.stride w h) : OutOfRange (R.read B m x y) := by
  have a1 : addP y 1 = .ok (y + 1) := addP_ok (by omega)
  have o1 := ry.offset (row := y) (col := x) (by omega) (by omega)
  have o2 := ry.offset (row := y + 1) (col := x) (by omega) (by omega)
  have o3 := ru.offset (row := y) (col := x) (by omega) (by omega)
  have o4 := rv.offset (row := y) (col := x) (by omega) (by omega)
  have f1 := (ry.off (row := y) (col := x) (n := B.LEN) (by omega) (by omega)).2
  have f2 := (ry.off (row := y + 1) (col := x) (n := B.LEN) (by omega) (by omega)).2
  have f3 := (ru.off (row := y) (col := x) (n := B.LEN) (by omega) (by omega)).2
  have f4 := (rv.off (row := y) (col := x) (n := B.LEN) (by omega) (by omega)).2
  have l : mulP B.LEN R.P.SIZE = .ok (B.LEN * R.P.SIZE) := mulP_ok (by omega)
  simp only [I444Reader.read, a1, o1, o2, o3, o4, l, ok_bind, addP_ok f1, addP_ok f2, addP_ok f3, addP_ok f4]
  have step : ∀ {α : Type} (s : Slice) (o : Nat) (k : B.V → Exec α), (∀ v, OutOfRange (k v)) →
      OutOfRange (s.dropFrom o >>= fun t => R.P.load B m t >>= k) := fun s o k hk =>
    (dropFrom_outOfRange s o).bind fun t => (load_outOfRange hB R.P m t).bind hk
  exact step _ _ _ fun _ => step _ _ _ fun _ => step _ _ _ fun _ => step _ _ _ fun _ => step _ _ _ fun _ =>
    step _ _ _ fun _ => step _ _ _ fun _ => step _ _ _ fun _ => step _ _ _ fun _ => step _ _ _ fun _ =>
    step _ _ _ fun _ => step _ _ _ fun _ => OutOfRange.ok _

/-! ## Writers use of a block only what was read -/

/-- The read phase reads a block and makes stores of it. -/
def Through {K : Type → Type} (v : Src F K → Visitor F)
    (g : (B : Backend F) → Nat → Nat → K B.V → List (Mem → Exec Mem)) : Prop :=
  ∀ R B x y m, (v R).prepare B x y m = (R.read B m x y >>= fun b => .ok (g B x y b))

theorem bind_pure_bind {α β γ : Type} (r : Exec α) (f : α → β) (k : β → Exec γ) :
    ((r >>= fun a => (pure (f a) : Exec β)) >>= k) = (r >>= fun a => k (f a)) := by
  rcases r with e | a <;> rfl

theorem rgbaToAny_through {dst : Img} {ps : List Plane} (hv : Valid dst ps) (hcol : ColorOk dst.format dst.color) :
    ∃ (v : RgbaSrc F → Visitor F) (g : (B : Backend F) → Nat → Nat → RgbaBlock B.V → List (Mem → Exec Mem)),
      (∀ R, rgbaToAny dst R = .ok (.ok ⟨dst.width, dst.height, v R⟩)) ∧ Through v g := by
  have hfit := hv.fits
  cases hf : dst.format <;> rw [hf] at hcol hfit
  case I420 | I422 | I444 | I010 | I012 | I210 | I212 | I410 | I412 =>
    obtain ⟨i, hi⟩ := hcol rfl
    obtain ⟨a, b, c, rest, rfl⟩ := planes3 hfit rfl
    simp only [rgbaToAny, hf, hi, yuvColor, bindE_ok, i420Write_ok hv (by rw [hf]; rfl),
      i422Write_ok hv (by rw [hf]; rfl), i444Write_ok hv (by rw [hf]; rfl)]
    exact ⟨_, _, fun R => rfl, fun R B x y m => bind_pure_bind _ _ _⟩
  case NV12 =>
    obtain ⟨i, hi⟩ := hcol rfl
    obtain ⟨a, b, rest, rfl⟩ := planes2 hfit rfl
    simp only [rgbaToAny, hf, hi, yuvColor, bindE_ok, nv12Write_ok hv (by rw [hf]; rfl)]
    exact ⟨_, _, fun R => rfl, fun R B x y m => bind_pure_bind _ _ _⟩
  case YUYV =>
    obtain ⟨i, hi⟩ := hcol rfl
    obtain ⟨a, rest, rfl⟩ := planes1 hfit rfl
    simp only [rgbaToAny, hf, hi, yuvColor, bindE_ok, yuyvWrite_ok hv (by rw [hf]; rfl)]
    exact ⟨_, _, fun R => rfl, fun R B x y m => bind_pure_bind _ _ _⟩
  case RGBA | BGRA | RGB | BGR =>
    obtain ⟨a, rest, rfl⟩ := planes1 hfit rfl
    simp only [rgbaToAny, hf, rgbWrite_ok hv (by rw [hf]; rfl), rgbaWrite_ok hv (by rw [hf]; rfl)]
    exact ⟨_, _, fun R => rfl, fun R B x y m => rfl⟩

/-! ## Whatever was read, it can be stored -/

/-- A picture that shows block `b` at `(x, y)`. -/
def rgbaPic {B : Backend F} (b : RgbaBlock B.V) (x y : Nat) : Pic F := fun c X Y =>
  let px := if Y = y then (if X < x + B.LEN then b.px00 else b.px01) else if X < x + B.LEN then b.px10 else b.px11
  let i : Fin B.LEN := ⟨(if X < x + B.LEN then X - x else X - x - B.LEN) % B.LEN, Nat.mod_lt _ B.pos⟩
  match c with
  | .R => px.r i
  | .G => px.g i
  | .B => px.b i
  | _ => px.a i

/-- A source that shows a picture. -/
def rgbaOf (p : Pic F) : RgbaSrc F where
  read B _ x y := .ok
    { px00 := ⟨fun i => p .R (x + i) y, fun i => p .G (x + i) y, fun i => p .B (x + i) y, fun i => p .A (x + i) y⟩
      px01 := ⟨fun i => p .R (x + B.LEN + i) y, fun i => p .G (x + B.LEN + i) y, fun i => p .B (x + B.LEN + i) y,
        fun i => p .A (x + B.LEN + i) y⟩
      px10 := ⟨fun i => p .R (x + i) (y + 1), fun i => p .G (x + i) (y + 1), fun i => p .B (x + i) (y + 1),
        fun i => p .A (x + i) (y + 1)⟩
      px11 := ⟨fun i => p .R (x + B.LEN + i) (y + 1), fun i => p .G (x + B.LEN + i) (y + 1),
        fun i => p .B (x + B.LEN + i) (y + 1), fun i => p .A (x + B.LEN + i) (y + 1)⟩ }

theorem rgbaOf_sound (p : Pic F) (m : Mem) (w h : Nat) (blk : Blk F) : RgbaSound (rgbaOf p) m w h blk p :=
  fun _ _ _ _ => ⟨_, rfl, fun _ => ⟨⟨rfl, rfl, rfl, rfl⟩, ⟨rfl, rfl, rfl, rfl⟩, ⟨rfl, rfl, rfl, rfl⟩, ⟨rfl, rfl, rfl, rfl⟩⟩⟩

theorem lane_eq {L : Nat} (i : Fin L) {n : Nat} (h : n = i) (pos : 0 < L) : (⟨n % L, Nat.mod_lt _ pos⟩ : Fin L) = i := by
  apply Fin.ext; show n % L = i; rw [h, Nat.mod_eq_of_lt i.2]

theorem rgbaOf_read {B : Backend F} (b : RgbaBlock B.V) (x y : Nat) (m : Mem) :
    (rgbaOf (rgbaPic b x y)).read B m x y = .ok b := by
  have h0 : ∀ i : Fin B.LEN, x + (i : Nat) < x + B.LEN := fun i => by omega
  have h1 : ∀ i : Fin B.LEN, ¬ x + B.LEN + (i : Nat) < x + B.LEN := fun i => by omega
  have e0 : ∀ i : Fin B.LEN, (⟨(x + (i : Nat) - x) % B.LEN, Nat.mod_lt _ B.pos⟩ : Fin B.LEN) = i :=
    fun i => lane_eq i (by omega) B.pos
  have e1 : ∀ i : Fin B.LEN, (⟨(x + B.LEN + (i : Nat) - x - B.LEN) % B.LEN, Nat.mod_lt _ B.pos⟩ : Fin B.LEN) = i :=
    fun i => lane_eq i (by omega) B.pos
  have y1 : ¬ y + 1 = y := by omega
  simp only [rgbaOf, rgbaPic, h0, h1, e0, e1, y1, if_true, if_false]

/-- A picture that shows block `b` at `(x, y)`. -/
def yuvPic {B : Backend F} (b : I444Block B.V) (x y : Nat) : Pic F := fun c X Y =>
  let px := if Y = y then (if X < x + B.LEN then b.px00 else b.px01) else if X < x + B.LEN then b.px10 else b.px11
  let i : Fin B.LEN := ⟨(if X < x + B.LEN then X - x else X - x - B.LEN) % B.LEN, Nat.mod_lt _ B.pos⟩
  match c with
  | .Y => px.y i
  | .U => px.u i
  | _ => px.v i

/-- A source that shows a picture. -/
def yuvOf (p : Pic F) : I444Src F where
  read B _ x y := .ok
    { px00 := ⟨fun i => p .Y (x + i) y, fun i => p .U (x + i) y, fun i => p .V (x + i) y⟩
      px01 := ⟨fun i => p .Y (x + B.LEN + i) y, fun i => p .U (x + B.LEN + i) y, fun i => p .V (x + B.LEN + i) y⟩
      px10 := ⟨fun i => p .Y (x + i) (y + 1), fun i => p .U (x + i) (y + 1), fun i => p .V (x + i) (y + 1)⟩
      px11 := ⟨fun i => p .Y (x + B.LEN + i) (y + 1), fun i => p .U (x + B.LEN + i) (y + 1),
        fun i => p .V (x + B.LEN + i) (y + 1)⟩ }

theorem yuvOf_sound (p : Pic F) (m : Mem) (w h : Nat) (blk : Blk F) : I444Sound (yuvOf p) m w h blk p :=
  fun _ _ _ _ => ⟨_, rfl, fun _ => ⟨⟨rfl, rfl, rfl⟩, ⟨rfl, rfl, rfl⟩, ⟨rfl, rfl, rfl⟩, ⟨rfl, rfl, rfl⟩⟩⟩

theorem yuvOf_read {B : Backend F} (b : I444Block B.V) (x y : Nat) (m : Mem) :
    (yuvOf (yuvPic b x y)).read B m x y = .ok b := by
  have h0 : ∀ i : Fin B.LEN, x + (i : Nat) < x + B.LEN := fun i => by omega
  have h1 : ∀ i : Fin B.LEN, ¬ x + B.LEN + (i : Nat) < x + B.LEN := fun i => by omega
  have e0 : ∀ i : Fin B.LEN, (⟨(x + (i : Nat) - x) % B.LEN, Nat.mod_lt _ B.pos⟩ : Fin B.LEN) = i :=
    fun i => lane_eq i (by omega) B.pos
  have e1 : ∀ i : Fin B.LEN, (⟨(x + B.LEN + (i : Nat) - x - B.LEN) % B.LEN, Nat.mod_lt _ B.pos⟩ : Fin B.LEN) = i :=
    fun i => lane_eq i (by omega) B.pos
  have y1 : ¬ y + 1 = y := by omega
  simp only [yuvOf, yuvPic, h0, h1, e0, e1, y1, if_true, if_false]

/-- At every call: whatever the source yields, all stores succeed. -/
def Stores {K : Type → Type} (w h : Nat) (blk : Blk F)
    (g : (B : Backend F) → Nat → Nat → K B.V → List (Mem → Exec Mem)) : Prop :=
  ∀ B x y, Call blk w h B x y → ∀ b, ∀ st ∈ g B x y b, ∀ m, ∃ m', st m = .ok m'

theorem stores_of_sound {v : Visitor F} {f : PixelFormat} {ps : List Plane} {m : Mem} {w h : Nat} {blk : Blk F}
    {pic : Pic F} (hs : VisitSound v f ps m w h blk pic) {B : Backend F} {x y : Nat} (hc : Call blk w h B x y)
    {sts : List (Mem → Exec Mem)} (hp : v.prepare B x y m = .ok sts) : ∀ st ∈ sts, ∀ m, ∃ m', st m = .ok m' := by
  obtain ⟨sts', ws, h1, h2, -⟩ := hs B x y hc
  rw [hp] at h1
  injection h1 with h1
  rw [h1, h2]
  intro st hst m
  obtain ⟨r, -, rfl⟩ := List.mem_map.1 hst
  exact ⟨_, rfl⟩

theorem rgbaToAny_stores {dst : Img} {ps : List Plane} (hv : Valid dst ps) (hcol : ColorOk dst.format dst.color)
    (blk : Blk F) :
    ∃ (v : RgbaSrc F → Visitor F) (g : (B : Backend F) → Nat → Nat → RgbaBlock B.V → List (Mem → Exec Mem)),
      (∀ R, rgbaToAny dst R = .ok (.ok ⟨dst.width, dst.height, v R⟩)) ∧ Through v g ∧
      Stores dst.width dst.height blk g := by
  obtain ⟨v, g, h1, h2⟩ := rgbaToAny_through (F := F) hv hcol
  refine ⟨v, g, h1, h2, fun B x y hc b => ?_⟩
  obtain ⟨v', h3, h4⟩ := rgbaToAny_sound hv hcol (rgbaOf (rgbaPic b x y))
  rw [h1] at h3
  injection h3 with h3
  injection h3 with h3
  injection h3 with _ _ h3
  subst h3
  refine stores_of_sound (h4 (fun _ => 0) blk _ (rgbaOf_sound _ _ _ _ _)) hc ?_
  rw [h2, rgbaOf_read]
  rfl

theorem runStores_ok {sts : List (Mem → Exec Mem)} (h : ∀ st ∈ sts, ∀ m, ∃ m', st m = .ok m') (m : Mem) :
    ∃ m', runStores sts m = .ok m' := by
  induction sts generalizing m with
  | nil => exact ⟨m, rfl⟩
  | cons st sts ih =>
    obtain ⟨m1, h1⟩ := h st (List.mem_cons_self ..) m
    rw [runStores, h1]
    exact ih (fun st hst => h st (List.mem_cons_of_mem _ hst)) m1

/-- At every call: the read phase is at worst out of range, and the stores it issues succeed on every memory. -/
def CallSafe (v : Visitor F) (B : Backend F) (x y : Nat) : Prop :=
  ∀ m, OutOfRange (v.prepare B x y m) ∧ ∀ sts, v.prepare B x y m = .ok sts → ∀ st ∈ sts, ∀ m, ∃ m', st m = .ok m'

theorem callSafe_of_through {K : Type → Type} {v : Src F K → Visitor F}
    {g : (B : Backend F) → Nat → Nat → K B.V → List (Mem → Exec Mem)} (ht : Through v g) {R : Src F K} {w h : Nat}
    {blk : Blk F} (hs : Stores w h blk g) {B : Backend F} {x y : Nat} (hc : Call blk w h B x y)
    (hr : ∀ m, OutOfRange (R.read B m x y)) : CallSafe (v R) B x y := by
  intro m
  rw [ht]
  refine ⟨(hr m).bind fun _ => OutOfRange.ok _, fun sts h => ?_⟩
  obtain ⟨b, -, h⟩ := bind_ok_inv h
  injection h with h
  rw [← h]
  exact hs B x y hc b

theorem callSafe_of_sound {v : Visitor F} {f : PixelFormat} {ps : List Plane} {w h : Nat} {blk : Blk F}
    (hs : ∀ m, ∃ pic, VisitSound v f ps m w h blk pic) {B : Backend F} {x y : Nat} (hc : Call blk w h B x y) :
    CallSafe v B x y := by
  intro m
  obtain ⟨pic, hv⟩ := hs m
  obtain ⟨sts, ws, h1, -⟩ := hv B x y hc
  exact ⟨by rw [h1]; exact OutOfRange.ok _, fun sts h => stores_of_sound hv hc h⟩

theorem runVisits_outOfRange {v : Visitor F} {c : Cpu F} (ks : List VisitCall)
    (hk : ∀ k ∈ ks, CallSafe v (c.backend k.vectored) k.x k.y) (m : Mem) : OutOfRange (runVisits c v ks m) := by
  induction ks generalizing m with
  | nil => exact OutOfRange.ok _
  | cons k ks ih =>
    have hc := hk k (List.mem_cons_self ..) m
    rw [runVisits]
    refine OutOfRange.bind ?_ fun m => ih (fun k h => hk k (List.mem_cons_of_mem _ h)) m
    rw [Visitor.visit]
    cases hb : v.prepare (c.backend k.vectored) k.x k.y m with
    | error e =>
      intro e' he
      refine hc.1 e' ?_
      rw [hb]
      cases he; rfl
    | ok sts =>
      obtain ⟨m', h'⟩ := runStores_ok (hc.2 sts hb) m
      show OutOfRange (runStores sts m)
      rw [h']
      exact OutOfRange.ok _

/-! ## `convert` -/

theorem through_map {K : Type → Type} {v : RgbaSrc F → Visitor F}
    {g : (B : Backend F) → Nat → Nat → RgbaBlock B.V → List (Mem → Exec Mem)} (ht : Through v g)
    (s : Src F K → RgbaSrc F) (f : (B : Backend F) → K B.V → RgbaBlock B.V)
    (hs : ∀ R B m x y, (s R).read B m x y = (R.read B m x y >>= fun b => (pure (f B b) : Exec _))) :
    Through (fun R => v (s R)) (fun B x y b => g B x y (f B b)) := by
  intro R B x y m
  rw [ht, hs]
  exact bind_pure_bind _ _ _

/-- The reader of a 4:4:4 source. -/
def reader444 (src : Img) (a b d : Plane) : I444Reader F :=
  ⟨primOf src.format, a, b, d, maxValueForBits src.format.bitsPerComponent⟩

theorem i444Visitor_through (P : Prim) (a b c : Plane) (mx : F) :
    ∃ g, Through (K := I444Block) (i444Visitor P a b c mx) g :=
  ⟨_, fun _ _ _ _ _ => rfl⟩

theorem convertJob444 {src dst : Img} {a b d : Plane} {rest dps : List Plane}
    (hr : Returned src dst (a :: b :: d :: rest) dps) (h4 : is444 src.format = true) (blk : Blk F) :
    ∃ (v : I444Src F → Visitor F) (g : (B : Backend F) → Nat → Nat → I444Block B.V → List (Mem → Exec Mem)),
      convertJob src dst = .ok (.ok ⟨dst.width, dst.height, v ⟨(reader444 src a b d).read⟩⟩) ∧ Through v g ∧
      Stores dst.width dst.height blk g := by
  have hn : planeCount src.format = 3 := by revert h4; cases src.format <;> simp [is444, planeCount]
  have hs := hr.vsrc
  have hnew := I444Reader.new_ok (F := F) hs hn (primOf src.format)
  have hf : src.format = .I444 ∨ src.format = .I410 ∨ src.format = .I412 := by
    revert h4; cases src.format <;> simp [is444]
  rw [convertJob, verify_ok hr.width hr.height hr.evenW hr.evenH, bindE_ok]
  by_cases same : src.format = dst.format ∧ src.color = dst.color
  · rw [if_pos same, convertSameJob, if_neg (by simp [same.1])]
    have hvd := hr.vdst
    obtain ⟨a', b', d', rest', rfl⟩ := planes3 hvd.fits (same.1 ▸ hn)
    have hwr := fun s => i444Write_ok (F := F) hvd (same.1 ▸ hn) (primOf src.format) s
    obtain ⟨g, hg⟩ := i444Visitor_through (F := F) (primOf src.format) a' b' d' (maxValueForBits dst.format.bitsPerComponent)
    refine ⟨_, g, ?_, hg, ?_⟩
    · rw [← hwr]
      rcases hf with e | e | e <;> rw [e] at hnew <;> simp only [e, reader444] <;>
        exact congrArg (fun r => bindE r (i444Write _ dst)) hnew
    · intro B x y hc bl
      have hpl : isPlanar dst.format := by
        rw [← same.1]; exact hn
      have hh : hsub dst.format = 1 := by rw [← same.1]; rcases hf with e | e | e <;> rw [e] <;> rfl
      have hv : vsub dst.format = 1 := by rw [← same.1]; rcases hf with e | e | e <;> rw [e] <;> rfl
      have := i444Visitor_sound (m := fun _ => 0) (blk := blk) hpl hh hv hvd.fits (yuvOf_sound (yuvPic bl x y) _ _ _ _)
      refine stores_of_sound this hc ?_
      rw [← same.1] at hg ⊢
      rw [hg, yuvOf_read]
      rfl
  · rw [if_neg same]
    obtain ⟨hc1, hc2⟩ := hr.colors.resolve_left same
    have hy : isYuv src.format = true := by revert h4; cases src.format <;> simp [is444, isYuv]
    obtain ⟨i, hi⟩ := hc1 hy
    have hread : readAnyToRgba src = .ok (.ok (i444ToRgb i ⟨(reader444 src a b d).read⟩ : RgbaSrc F)) := by
      rcases hf with e | e | e <;> rw [e] at hnew <;> simp only [readAnyToRgba, e, reader444] <;>
        exact (congrArg (fun r => bindE r _) hnew).trans (by rw [hi]; rfl)
    rw [hread, bindE_ok]
    obtain ⟨v, g, h1, h2, h3⟩ := rgbaToAny_stores hr.vdst hc2 blk
    have t1 := through_map (K := I444Block) h2 (i444ToRgb i) _ fun R B m x y => rfl
    by_cases hn : needTransferAndPrimariesConvert src.color dst.color = true
    · rw [if_pos hn]
      have t2 := through_map (K := RgbaBlock) h2 (transferAndPrimariesConvert src.color dst.color) _ fun R B m x y => rfl
      have t3 := through_map (K := I444Block) t2 (i444ToRgb i) _ fun R B m x y => rfl
      exact ⟨_, _, h1 _, t3, fun B x y hc b => h3 B x y hc _⟩
    · rw [if_neg hn]
      exact ⟨_, _, h1 _, t1, fun B x y hc b => h3 B x y hc _⟩

theorem reader444_outOfRange {src dst : Img} {a b d : Plane} {rest dps : List Plane}
    (hr : Returned src dst (a :: b :: d :: rest) dps) (h4 : is444 src.format = true) {blk : Blk F} {B : Backend F}
    {x y : Nat} (hc : Call blk dst.width dst.height B x y) (m : Mem) :
    OutOfRange ((reader444 (F := F) src a b d).read B m x y) := by
  have hpl : isPlanar src.format := by
    rw [isPlanar]; revert h4; cases src.format <;> simp [is444, planeCount]
  have hfit := hr.vsrc.fits
  have hh : hsub src.format = 1 := by revert h4; cases src.format <;> simp [is444, hsub]
  have hv : vsub src.format = 1 := by revert h4; cases src.format <;> simp [is444, vsub]
  have hb : dst.height < usizeSize := by rw [← hr.height]; exact hfit.height (by rw [hr.width]; exact hc.wpos)
  have ry := planar_room hpl hfit (i := 0) (by omega) rfl
  have ru := planar_room hpl hfit (i := 1) (by omega) rfl
  have rv := planar_room hpl hfit (i := 2) (by omega) rfl
  simp only [hh, hv, Nat.div_one, if_true, ite_self] at ry ru rv
  rw [hr.width, hr.height] at ry ru rv
  exact I444Reader.read_outOfRange hc.law hb m hc.xw hc.yh ry ru rv

/-- The job of a conversion of valid images, whatever their strides and wherever they are. -/
theorem convertJob_safe {src dst : Img} {sps dps : List Plane} (hr : Returned src dst sps dps) (c : Cpu F)
    (hc : c.vec.Lawful) :
    ∃ v, convertJob src dst = .ok (.ok ⟨dst.width, dst.height, v⟩) ∧
      ∀ k ∈ visitCalls c.vec.LEN dst.width dst.height, CallSafe v (c.backend k.vectored) k.x k.y := by
  cases h4 : is444 src.format
  · obtain ⟨v, h1, h2⟩ := convertJob_sound (F := F) hr.vsrc hr.vdst hr.width hr.height hr.evenW hr.evenH hr.colors
    refine ⟨v, h1, fun k hk => ?_⟩
    refine callSafe_of_sound (f := dst.format) (ps := dps) (fun m => ?_) (call_of_mem hc hr.evenW hr.evenH hk)
    obtain ⟨V, hV⟩ := seen_exists src.format sps dst.width dst.height m
    exact ⟨_, h2 m V _ (cpuBlk_pair c hr.evenW) hV (fun h => by rw [h4] at h; cases h)⟩
  · have hn : planeCount src.format = 3 := by revert h4; cases src.format <;> simp [is444, planeCount]
    obtain ⟨a, b, d, rest, rfl⟩ := planes3 hr.vsrc.fits hn
    obtain ⟨v, g, h1, h2, h3⟩ := convertJob444 (F := F) hr h4 (cpuBlk c dst.width)
    refine ⟨_, h1, fun k hk => ?_⟩
    have hcall := call_of_mem hc hr.evenW hr.evenH hk
    exact callSafe_of_through h2 h3 hcall fun m => reader444_outOfRange hr h4 hcall m

/-- A conversion of valid images is at worst out of range. -/
theorem convert_outOfRange {c : Cpu F} (hc : c.vec.Lawful) {src dst : Img} (h : verdict src dst = .ok (.ok ())) (m : Mem) :
    OutOfRange (convert c src dst m) := by
  obtain ⟨⟨sps, v1⟩, ⟨dps, v2⟩, -⟩ := verdict_ok h
  have hr := returned_of_verdict h v1.planes v2.planes
  obtain ⟨v, h1, h2⟩ := convertJob_safe hr c hc
  rw [convert, h1, runJob, ok_bind]
  show OutOfRange (visit c _ m >>= fun m => pure (Except.ok (), m))
  rw [visit]
  simp only [hr.evenW, hr.evenH, ne_eq, not_true_eq_false, if_false]
  exact OutOfRange.bind (runVisits_outOfRange _ h2 m) fun m => OutOfRange.ok _

/-! ## Images -/

theorem Img.boundsCheck_noWrap {t : Img} (h : NoWrap t.planes) : NoWrap t.boundsCheck := by
  rw [Img.boundsCheck]
  refine h.bind fun ps _ h => ?_
  have := ((boundsCheck_fault _ _ _ _ _).1 h).1
  cases this

theorem firstProblem_noWrap (vs : List (Exec (Except ConvertError Unit))) (h : ∀ v ∈ vs, NoWrap v) :
    NoWrap (firstProblem vs) := by
  induction vs with
  | nil => exact NoWrap.ok _
  | cons v vs ih =>
    refine (h v (List.mem_cons_self ..)).bind fun r _ => ?_
    cases r with
    | error e => exact NoWrap.ok _
    | ok u => exact ih fun v hv => h v (List.mem_cons_of_mem _ hv)

theorem checkBounds_noWrap {t : Img} (h : NoWrap t.planes) : NoWrap (checkBounds t) := by
  rw [checkBounds]
  refine (Img.boundsCheck_noWrap h).bind fun r _ => ?_
  cases r <;> exact NoWrap.ok _

theorem checkColor_noWrap (t : Img) : NoWrap (checkColor t) := by
  rw [checkColor]; split <;> exact NoWrap.ok _

theorem verdict_noWrap {src dst : Img} (hs : NoWrap src.planes) (hd : NoWrap dst.planes) : NoWrap (verdict src dst) := by
  rw [verdict]
  split
  · exact NoWrap.ok _
  · split
    · exact NoWrap.ok _
    · split
      · refine firstProblem_noWrap _ fun v hv => ?_
        simp only [List.mem_cons, List.not_mem_nil, or_false] at hv
        rcases hv with rfl | rfl
        · exact checkBounds_noWrap hs
        · exact checkBounds_noWrap hd
      · refine firstProblem_noWrap _ fun v hv => ?_
        simp only [List.mem_cons, List.not_mem_nil, or_false] at hv
        rcases hv with rfl | rfl | rfl | rfl <;>
          first | exact checkBounds_noWrap hs | exact checkBounds_noWrap hd | exact checkColor_noWrap _

theorem convert_noWrap {c : Cpu F} (hc : c.vec.Lawful) {src dst : Img} (hs : NoWrap src.planes) (hd : NoWrap dst.planes)
    (m : Mem) : NoWrap (convert c src dst m) := by
  rcases h : verdict src dst with e | e | u
  · rw [convert_of_fault h]
    intro h'
    cases h'
    exact verdict_noWrap hs hd h
  · rw [convert_of_verdict h]; exact NoWrap.ok _
  · exact (convert_outOfRange hc h m).noWrap

theorem mapM_noWrap {α β : Type} {f : α → Exec β} (l : List α) (hf : ∀ a ∈ l, NoWrap (f a)) : NoWrap (l.mapM f) := by
  induction l with
  | nil => exact NoWrap.ok _
  | cons a l ih =>
    rw [List.mapM_cons]
    exact (hf a (List.mem_cons_self ..)).bind fun b _ =>
      (ih fun a h => hf a (List.mem_cons_of_mem _ h)).bind fun bs _ => NoWrap.ok _

theorem packedStride_noWrap (d : PlaneDesc) (w : Nat) : NoWrap (d.packedStride w) := by
  rw [PlaneDesc.packedStride]
  exact (op_noWrap _ _).bind' fun _ => mulU_noWrap _ _

theorem inferLoop_noWrap (h : Nat) : ∀ (l : List (PlaneDesc × Nat)) (buf : Slice), NoWrap (inferLoop h l buf)
  | [], _ => NoWrap.ok _
  | (d, s) :: rest, buf => by
    rw [inferLoop]
    exact (op_noWrap _ _).bind' fun _ => (mulU_noWrap _ _).bind' fun _ => (splitAt_noWrap _ _).bind' fun _ =>
      (inferLoop_noWrap h rest _).bind' fun _ => NoWrap.ok _

theorem inferImpl_noWrap (ds : List PlaneDesc) (buf : Slice) (w h : Nat) (ss : Option (List Nat)) :
    NoWrap (inferImpl ds buf w h ss) := by
  unfold inferImpl
  cases ss with
  | none =>
    exact NoWrap.bind' (mapM_noWrap _ fun d _ => packedStride_noWrap d w) fun _ => inferLoop_noWrap _ _ _
  | some l =>
    dsimp only
    split
    · exact inferLoop_noWrap _ _ _
    · nofun

theorem infer_noWrap (f : PixelFormat) (buf : Slice) (w h : Nat) (ss : Option (List Nat)) :
    NoWrap (infer f buf w h ss) := by
  cases f <;> rw [infer] <;> first | exact inferImpl_noWrap _ _ _ _ _ | exact NoWrap.ok _

theorem Image.planes_noWrap (i : Image) : NoWrap i.planes := by
  rw [Image.planes]
  cases i.buffer with
  | whole b => exact (infer_noWrap _ _ _ _ _).bind' fun _ => NoWrap.ok _
  | split ps => exact NoWrap.ok _

theorem cropPlane_noWrap {f : PixelFormat} {i : Nat} {d : PlaneDesc} (hd : f.planeDesc[i]? = some d) {p : Plane}
    {win : Window} {w h : Nat} (hlen : p.slice.len < 2 ^ 63) (hf : PlaneFits f w h i p) (hin : WindowInside win w h)
    (hr : vsub f ≤ win.height ∨ p.slice.len < 2 ^ 62) : NoWrap (cropPlane d p win) := by
  obtain ⟨hb, a, ha, hw⟩ := desc_width f i d hd win.x
  have hok := planeDesc_ok f i d hd
  have hx : rowBytes f i win.x ≤ rowBytes f i w := rowBytes_mono f i (by have := hin.1; omega)
  have hpu := hf.packed_usize
  have hge := hf.stride_ge
  have rows : ∀ n, n ≤ rowCount f i h → n * p.stride ≤ p.slice.len := fun n hn => by
    have : n * p.stride ≤ rowCount f i h * p.stride := Nat.mul_le_mul_right _ hn
    rw [Nat.mul_comm (rowCount f i h)] at this
    exact Nat.le_trans this hf.size_le
  have hrow : rowCount f i win.y ≤ rowCount f i h ∧ rowCount f i win.height ≤ rowCount f i h ∧
      (vsub f ≤ win.height → rowCount f i win.y + 1 ≤ rowCount f i h) := by
    have h1 := hin.2.1
    clear hf hx hd hok ha hw hb hr hpu hge rows
    cases f <;> simp only [rowCount, vsub] <;> (try split) <;> omega
  have key := rows _ hrow.1
  have key2 := rows _ hrow.2.1
  have hsb : sampleBytes f = 1 ∨ sampleBytes f = 2 := by cases f <;> simp [sampleBytes]
  have hu : usizeSize = 2 ^ 64 := rfl
  have e3 : (rowCount f i win.y * p.stride + a) * sampleBytes f < usizeSize := by
    rcases hr with hr | hr
    · have := rows _ (hrow.2.2 hr)
      rw [Nat.add_mul, Nat.one_mul] at this
      rcases hsb with e | e <;> rw [e] at ha ⊢ <;> omega
    · rcases Nat.eq_zero_or_pos (rowCount f i win.y) with hy | hy
      · rw [hy, Nat.zero_mul, Nat.zero_add, ha]
        omega
      · have := Nat.le_mul_of_pos_left p.stride hy
        rcases hsb with e | e <;> rw [e] at ha ⊢ <;> omega
  have e2 : rowCount f i win.y * p.stride + a < usizeSize := by rcases hsb with e | e <;> rw [e] at e3 <;> omega
  rcases hw with hw | ⟨hw, hw2⟩
  · simp only [cropPlane, hok.rows, hb, hw, ok_bind]
    rw [mulP_ok (by omega), ok_bind, addP_ok e2, ok_bind, mulP_ok e3, ok_bind]
    refine (splitAt_noWrap _ _).bind' fun t => ?_
    rw [mulP_ok (by omega), ok_bind]
    exact (splitAt_noWrap _ _).bind' fun _ => NoWrap.ok _
  · rw [cropPlane, hw]; nofun

theorem mapM_result_mem {α β : Type} {f : α → Exec β} : ∀ {l : List α} {bs : List β}, l.mapM f = .ok bs →
    ∀ b ∈ bs, ∃ a ∈ l, f a = .ok b
  | [], bs, h, b, hb => by cases h; cases hb
  | a :: l, bs, h, b, hb => by
    rw [List.mapM_cons] at h
    obtain ⟨b0, h0, h⟩ := bind_ok_inv h
    obtain ⟨bs0, h1, h⟩ := bind_ok_inv h
    cases h
    rcases List.mem_cons.1 hb with rfl | hb
    · exact ⟨a, List.mem_cons_self .., h0⟩
    · obtain ⟨a', ha, h'⟩ := mapM_result_mem h1 b hb
      exact ⟨a', List.mem_cons_of_mem _ ha, h'⟩

theorem inferLoop_len {h n : Nat} : ∀ (l : List (PlaneDesc × Nat)) (buf : Slice) (ss : List Slice),
    buf.len < n → inferLoop h l buf = .ok ss → ∀ s ∈ ss, s.len < n
  | [], _, ss, _, he, s, hs => by cases he; cases hs
  | (d, st) :: rest, buf, ss, hb, he, s, hs => by
    rw [inferLoop] at he
    obtain ⟨r, -, he⟩ := bind_ok_inv he
    obtain ⟨k, -, he⟩ := bind_ok_inv he
    obtain ⟨pr, hp, he⟩ := bind_ok_inv he
    rw [Slice.splitAt] at hp
    split at hp <;> cases hp
    obtain ⟨out, ho, he⟩ := bind_ok_inv he
    cases he
    rcases List.mem_cons.1 hs with rfl | hs
    · dsimp only; omega
    · exact inferLoop_len rest _ out (by dsimp only; omega) ho s hs

theorem infer_len {f : PixelFormat} {buf : Slice} {w h n : Nat} {st : Option (List Nat)} {ss : List Slice}
    (hb : buf.len < n) (he : infer f buf w h st = .ok ss) : ∀ s ∈ ss, s.len < n := by
  have key : ∀ ds, inferImpl ds buf w h st = .ok ss → ∀ s ∈ ss, s.len < n := by
    intro ds he
    unfold inferImpl at he
    cases st with
    | none =>
      obtain ⟨l, -, he⟩ := bind_ok_inv he
      exact inferLoop_len _ _ _ hb he
    | some l =>
      dsimp only at he
      split at he
      · exact inferLoop_len _ _ _ hb he
      · cases he
  have one : ∀ l : List Slice, (.ok [buf] : Exec (List Slice)) = .ok l → ∀ s ∈ l, s.len < n := by
    rintro l h s hs
    cases h
    rcases List.mem_singleton.1 hs with rfl
    exact hb
  cases f <;> rw [infer] at he <;> first | exact key _ he | exact one _ he

theorem cropPlane_len_le {d : PlaneDesc} {p q : Plane} {win : Window} {n : Nat} (hp : p.slice.len < n)
    (h : cropPlane d p win = .ok q) : q.slice.len < n := by
  rw [cropPlane] at h
  obtain ⟨_, -, h⟩ := bind_ok_inv h
  obtain ⟨_, -, h⟩ := bind_ok_inv h
  obtain ⟨_, -, h⟩ := bind_ok_inv h
  obtain ⟨_, -, h⟩ := bind_ok_inv h
  obtain ⟨_, -, h⟩ := bind_ok_inv h
  obtain ⟨t, ht, h⟩ := bind_ok_inv h
  obtain ⟨_, -, h⟩ := bind_ok_inv h
  obtain ⟨_, -, h⟩ := bind_ok_inv h
  obtain ⟨u, hu, h⟩ := bind_ok_inv h
  rw [Slice.splitAt] at ht hu
  split at ht <;> cases ht
  split at hu <;> cases hu
  cases h
  dsimp only at *
  omega

theorem zip_mem_getElem? {α β : Type} {l : List α} {r : List β} {x : α × β} (h : x ∈ l.zip r) :
    ∃ i : Nat, l[i]? = some x.1 ∧ r[i]? = some x.2 := by
  obtain ⟨i, hi⟩ := List.mem_iff_getElem?.1 h
  rw [List.getElem?_zip_eq_some] at hi
  exact ⟨i, hi⟩

theorem Possible.facts : ∀ {n : Nat} {t : Img}, Possible n t → n ≤ 2 ^ 63 → vsub t.format ≤ t.height ∨ n ≤ 2 ^ 62 →
    NoWrap t.planes ∧ (∀ ps, t.planes = .ok ps → ∀ p ∈ ps, p.slice.len < n) ∧ t.width < 2 ^ 64 ∧ t.height < 2 ^ 64
  | n, .image i, h, _, _ => by
    obtain ⟨h1, h2, h3⟩ := h
    refine ⟨Image.planes_noWrap i, ?_, h1, h2⟩
    intro ps he p hp
    rw [Img.planes, Image.planes] at he
    cases hb : i.buffer with
    | whole s =>
      rw [hb] at he h3
      obtain ⟨ss, hs, he⟩ := bind_ok_inv he
      cases he
      obtain ⟨x, hx, rfl⟩ := List.mem_map.1 hp
      exact infer_len h3 hs _ (List.of_mem_zip hx).1
    | split ss =>
      rw [hb] at he h3
      cases he
      obtain ⟨x, hx, rfl⟩ := List.mem_map.1 hp
      exact h3 _ (List.of_mem_zip hx).1
  | n, .raw _ _ _ _ _, h, _, _ => ⟨NoWrap.ok _, fun _ he => by cases he; exact h.2.2, h.1, h.2.1⟩
  | n, .cropped t win, h, hn, hh => by
    obtain ⟨h1, h2⟩ := h
    obtain ⟨hb, hin, -⟩ := crop_ok_inv h2
    have hh : vsub t.format ≤ win.height ∨ n ≤ 2 ^ 62 := hh
    obtain ⟨f1, f2, f3, f4⟩ := Possible.facts h1 hn (hh.imp_left fun h => Nat.le_trans h (by have := hin.2.1; omega))
    refine ⟨?_, ?_, Nat.lt_of_le_of_lt (Nat.le_add_left _ _) hin.2.2.1,
      Nat.lt_of_le_of_lt (Nat.le_add_left _ _) hin.2.2.2⟩
    · rw [Img.planes]
      refine f1.bind fun ps he => mapM_noWrap _ fun x hx => ?_
      obtain ⟨sps, hv⟩ := valid_of_check hb
      rw [hv.planes] at he
      injection he with he
      subst he
      obtain ⟨i, hi1, hi2⟩ := zip_mem_getElem? hx
      have hidx := (planeDesc_ok _ i _ hi1).idx
      have hl := f2 _ hv.planes _ (List.mem_of_getElem? hi2)
      exact cropPlane_noWrap hi1 (Nat.lt_of_lt_of_le hl hn) (hv.fits.2 i hidx _ hi2) hin
        (hh.imp_right fun h => Nat.lt_of_lt_of_le hl h)
    · intro qs he q hq
      rw [Img.planes] at he
      obtain ⟨ps, hps, he⟩ := bind_ok_inv he
      obtain ⟨x, hx, hq⟩ := mapM_result_mem he q hq
      exact cropPlane_len_le (f2 ps hps _ (List.of_mem_zip hx).2) hq

end Ezk

import Verif.Spec.Resize
import Verif.Proofs.Threads
import Verif.Proofs.Run

/-!
# `Resizer::resize`: helper lemmas
-/

namespace Ezk
open FOps Spec

/-! ## Views -/

theorem mapM_eq {α β : Type} {f : α → Exec β} {g : α → β} : ∀ l : List α, (∀ a ∈ l, f a = .ok (g a)) →
    l.mapM f = .ok (l.map g)
  | [], _ => rfl
  | a :: l, h => by
    rw [List.mapM_cons, h a (List.mem_cons_self ..), ok_bind, mapM_eq l fun b hb => h b (List.mem_cons_of_mem _ hb)]
    rfl

theorem mapM_mem {α β : Type} {f : α → Exec β} : ∀ (l : List α) (r : List β), l.mapM f = .ok r →
    ∀ b ∈ r, ∃ a ∈ l, f a = .ok b
  | [], r, h, b, hb => by cases h; cases hb
  | a :: l, r, h, b, hb => by
    rw [List.mapM_cons] at h
    cases h1 : f a with
    | error e => rw [h1] at h; cases h
    | ok x =>
      rw [h1, ok_bind] at h
      cases h2 : l.mapM f with
      | error e => rw [h2] at h; cases h
      | ok xs =>
        rw [h2, ok_bind] at h
        cases h
        rcases List.mem_cons.1 hb with rfl | hb
        · exact ⟨a, List.mem_cons_self .., h1⟩
        · obtain ⟨a', h3, h4⟩ := mapM_mem l xs h2 b hb
          exact ⟨a', List.mem_cons_of_mem _ h3, h4⟩

theorem mapM_get {α β : Type} {f : α → Exec β} : ∀ (l : List α) (r : List β), l.mapM f = .ok r →
    ∀ (i : Nat) (b : β), r[i]? = some b → ∃ a, l[i]? = some a ∧ f a = .ok b
  | [], r, h, i, b, hb => by cases h; simp at hb
  | a :: l, r, h, i, b, hb => by
    rw [List.mapM_cons] at h
    cases h1 : f a with
    | error e => rw [h1] at h; cases h
    | ok x =>
      rw [h1, ok_bind] at h
      cases h2 : l.mapM f with
      | error e => rw [h2] at h; cases h
      | ok xs =>
        rw [h2, ok_bind] at h
        cases h
        cases i with
        | zero => cases hb; exact ⟨a, rfl, h1⟩
        | succ i =>
          obtain ⟨a', h3, h4⟩ := mapM_get l xs h2 i b (by simpa using hb)
          exact ⟨a', by simpa using h3, h4⟩

/-- The planes of a window end with its last row. -/
theorem cropPlane_len {d : PlaneDesc} {p q : Plane} {w : Window} {k : Nat} (h : cropPlane d p w = .ok q)
    (hk : d.heightOp.op w.height = .ok k) : q.slice.len = k * q.stride := by
  simp only [cropPlane, hk, Bind.bind, Except.bind] at h
  repeat (split at h; · cases h)
  cases h
  rename_i h1 _ _ h2
  simp only [mulP] at h1
  split at h1
  · cases h1
    simp only [Slice.splitAt] at h2
    split at h2
    · cases h2; rfl
    · cases h2
  · cases h1

theorem size_eq (t : PixelType) : t.size = kindBytes t := by cases t <;> rfl

/-- The rows of a view. -/
theorem rows_eq {v : FirView} {n : Nat} (h0 : 0 < v.stride) (h1 : v.width * v.pixelType.size ≤ v.stride)
    (h2 : v.width * v.pixelType.size < 2 ^ 64) (hn : v.plane.len / v.stride = n)
    (ha : v.plane.addr % v.pixelType.align = 0 ∧ v.stride % v.pixelType.align = 0) :
    v.rows = .ok ((List.range n).map fun r => ⟨v.plane.addr + r * v.stride, v.width * v.pixelType.size⟩) := by
  subst hn
  rw [FirView.rows, Slice.chunksExact, if_neg (by omega), ok_bind,
    mapM_eq (g := fun s => ⟨s.addr, v.width * v.pixelType.size⟩)]
  · rw [List.map_map]; rfl
  · intro s hs
    obtain ⟨r, -, rfl⟩ := List.mem_map.1 hs
    rw [FirView.row, mulP_ok h2, ok_bind, Slice.takeTo]
    dsimp only
    rw [if_pos h1, ok_bind]
    have : (v.plane.addr + r * v.stride) % v.pixelType.align = 0 := by
      rw [Nat.add_mod, ha.1, Nat.mul_mod, ha.2]; simp
    rw [if_neg (by dsimp only; omega)]; rfl

/-- Every row of a view is inside of the plane. -/
theorem rows_mem {v : FirView} {l : List Slice} (h : v.rows = .ok l) {s : Slice} (hs : s ∈ l) :
    s.len = v.width * v.pixelType.size ∧ v.plane.addr ≤ s.addr ∧ s.addr + s.len ≤ v.plane.addr + v.plane.len := by
  rw [FirView.rows, Slice.chunksExact] at h
  by_cases h0 : v.stride = 0
  · rw [if_pos h0] at h; cases h
  rw [if_neg h0, ok_bind] at h
  obtain ⟨c, hc, e⟩ := mapM_mem _ _ h s hs
  obtain ⟨r, hr, rfl⟩ := List.mem_map.1 hc
  have hr := List.mem_range.1 hr
  have h3 : (r + 1) * v.stride ≤ v.plane.len :=
    Nat.le_trans (Nat.mul_le_mul_right _ hr) (Nat.div_mul_le_self _ _)
  rw [Nat.succ_mul] at h3
  rw [FirView.row, mulP] at e
  by_cases h1 : v.width * v.pixelType.size < usizeSize
  · rw [if_pos h1, ok_bind, Slice.takeTo] at e
    dsimp only at e
    by_cases h2 : v.width * v.pixelType.size ≤ v.stride
    · rw [if_pos h2, ok_bind] at e
      split at e
      · cases e
      · cases e; dsimp only; omega
    · rw [if_neg h2] at e; cases e
  · rw [if_neg h1] at e; cases e

theorem asU32_le (n : Nat) : asU32 n ≤ n := Nat.mod_le ..
theorem asU32_eq {n : Nat} (h : n < 2 ^ 32) : asU32 n = n := Nat.mod_eq_of_lt h

/-- A store of `n` bytes that stays inside of a slice. -/
def StaysIn (p : Slice) (st : Mem → Exec Mem) : Prop :=
  ∃ a n v, st = (fun m => .ok (m.store a n v)) ∧ p.addr ≤ a ∧ a + n ≤ p.addr + p.len

theorem rowStores_in {out : Nat → Nat → UInt8} {n : Nat} {rows : List Slice} {p : Slice}
    (h : ∀ s ∈ rows, n ≤ s.len ∧ p.addr ≤ s.addr ∧ s.addr + s.len ≤ p.addr + p.len) :
    ∀ st ∈ rowStores out n rows, StaysIn p st := by
  intro st hst
  rw [rowStores, List.mem_mapIdx] at hst
  obtain ⟨i, hi, rfl⟩ := hst
  obtain ⟨h1, h2, h3⟩ := h _ (List.getElem_mem hi)
  refine ⟨rows[i].addr, n, fun j => out i j, ?_, h2, by omega⟩
  funext m
  rw [rawWrite, if_pos h1]

/-- Whatever it is given, the closure for a plane only stores into that plane. -/
theorem resizePlane_in {fir : Fir} {sw dw : Nat} {t : PlaneDesc × Plane × Plane} {m : Mem}
    {sts : List (Mem → Exec Mem)} (h : resizePlane fir sw dw t m = .ok sts) : ∀ st ∈ sts, StaysIn t.2.2.slice st := by
  rw [resizePlane] at h
  simp only [Bind.bind, Except.bind] at h
  repeat (split at h; · cases h)
  rw [firResize] at h
  dsimp only at h
  rw [if_neg (fun h => h rfl)] at h
  split at h
  · cases h; intro st hst; cases hst
  · simp only [Bind.bind, Except.bind] at h
    repeat (split at h; · cases h)
    cases h
    rename_i hrows
    refine rowStores_in fun s hs => ?_
    obtain ⟨h1, h2, h3⟩ := rows_mem hrows (List.mem_of_mem_take hs)
    dsimp only at h1 h2 h3
    refine ⟨?_, h2, h3⟩
    rw [h1]
    exact Nat.mul_le_mul_right _ (asU32_le _)

theorem divU_ok {a b : Nat} (h : b ≠ 0) : divU a b = .ok (a / b) := by rw [divU, if_neg h]

theorem divU_panics (a b : Nat) : OnlyPanics (divU a b) := by rw [divU]; split <;> nofun

theorem rows_panics (v : FirView) : OnlyPanics v.rows := by
  rw [FirView.rows]
  refine OnlyPanics.bind (by rw [Slice.chunksExact]; split <;> nofun) fun _ _ => mapM_panics (fun a => ?_) _
  rw [FirView.row]
  refine (mulP_panics _ _).bind fun n _ => OnlyPanics.bind (by rw [Slice.takeTo]; split <;> nofun) fun _ _ => ?_
  split <;> nofun

/-- The closure may panic, but there is no undefined behaviour. -/
theorem resizePlane_panics (fir : Fir) (sw dw : Nat) (t : PlaneDesc × Plane × Plane) (m : Mem) :
    OnlyPanics (resizePlane fir sw dw t m) := by
  rw [resizePlane]
  refine (op_panics _ _).bind fun _ _ => (divU_panics _ _).bind fun _ _ => (divU_panics _ _).bind fun _ _ =>
    (op_panics _ _).bind fun _ _ => (divU_panics _ _).bind fun _ _ => (divU_panics _ _).bind fun _ _ =>
    (divU_panics _ _).bind fun _ _ => (divU_panics _ _).bind fun _ _ => ?_
  rw [firResize]
  split
  · nofun
  · split
    · nofun
    · exact (rows_panics _).bind fun _ _ => (rows_panics _).bind fun _ _ => OnlyPanics.ok _

/-! ## Planes against the specification -/

theorem pixels_le (f : PixelFormat) (i w : Nat) : planePixels f i w ≤ w := by
  unfold planePixels; split <;> (try split) <;> omega

theorem pixels_bytes (f : PixelFormat) (i w : Nat) : planePixels f i w * kindBytes (pixelKind f i) ≤ rowBytes f i w := by
  cases f <;> simp only [planePixels, pixelKind, rowBytes] <;> (try split) <;> simp only [kindBytes] <;> omega

theorem pixels_bytes_eq {f : PixelFormat} {i w : Nat} (h : w % hsub f = 0) :
    planePixels f i w * kindBytes (pixelKind f i) = rowBytes f i w := by
  cases f <;> simp only [hsub] at h <;> simp only [planePixels, pixelKind, rowBytes] <;> (try split) <;>
    simp only [kindBytes] <;> omega

theorem pixels_pos {f : PixelFormat} {i w : Nat} (h : hsub f ≤ w) : 0 < planePixels f i w := by
  cases f <;> simp only [hsub] at h <;> simp only [planePixels] <;> (try split) <;> omega

theorem rowCount_pos {f : PixelFormat} {i h : Nat} (hh : vsub f ≤ h) : 0 < rowCount f i h := by
  cases f <;> simp only [vsub] at hh <;> simp only [rowCount] <;> (try split) <;> omega

theorem rowCount_le (f : PixelFormat) (i h : Nat) : rowCount f i h ≤ h := by
  unfold rowCount; split <;> (try split) <;> omega

/-- The table of plane descriptions, for resizing. -/
structure FirDesc (f : PixelFormat) (i : Nat) (d : PlaneDesc) : Prop where
  kind : d.pixelType = pixelKind f i
  width : ∀ w, rowBytes f i w < 2 ^ 64 → ∃ o k, d.widthOp.op w = .ok o ∧
    divU d.pixelType.size d.bytesPerPrimitive = .ok k ∧ divU o k = .ok (planePixels f i w)

theorem firDesc_id {f : PixelFormat} {i bpp k : Nat} {ho : Op} {pt : PixelType} (h0 : pt = pixelKind f i)
    (h1 : divU pt.size bpp = .ok k) (h2 : k ≠ 0) (h3 : ∀ w, w / k = planePixels f i w) :
    FirDesc f i ⟨.identity, ho, bpp, pt⟩ :=
  ⟨h0, fun w _ => ⟨w, k, rfl, h1, by rw [divU, if_neg h2, h3]⟩⟩

theorem firDesc_div {f : PixelFormat} {i n bpp k : Nat} {ho : Op} {pt : PixelType} (h0 : pt = pixelKind f i)
    (hn : n ≠ 0) (h1 : divU pt.size bpp = .ok k) (h2 : k ≠ 0) (h3 : ∀ w, w / n / k = planePixels f i w) :
    FirDesc f i ⟨.div n, ho, bpp, pt⟩ :=
  ⟨h0, fun w _ => ⟨w / n, k, by rw [Op.op, divU, if_neg hn], h1, by rw [divU, if_neg h2, h3]⟩⟩

theorem firDesc_mul {f : PixelFormat} {i n bpp k : Nat} {ho : Op} {pt : PixelType} (h0 : pt = pixelKind f i)
    (hn : ∀ w, w * n = rowBytes f i w) (h1 : divU pt.size bpp = .ok k) (h2 : k ≠ 0)
    (h3 : ∀ w, w * n / k = planePixels f i w) : FirDesc f i ⟨.mul n, ho, bpp, pt⟩ :=
  ⟨h0, fun w hw => ⟨w * n, k, mulU_ok (by rw [hn]; exact hw), h1, by rw [divU, if_neg h2, h3]⟩⟩

theorem firDesc (f : PixelFormat) (i : Nat) (d : PlaneDesc) (h : f.planeDesc[i]? = some d) : FirDesc f i d := by
  have hi : i < planeCount f := by rw [← planeDesc_length]; exact (List.getElem?_eq_some_iff.1 h).1
  cases f <;> simp only [planeCount] at hi <;>
    first
    | (obtain rfl | rfl | rfl : i = 0 ∨ i = 1 ∨ i = 2 := by omega) <;> cases h <;>
        first
        | exact firDesc_id rfl rfl (by decide) fun w => by simp [planePixels, PixelType.size]
        | exact firDesc_div rfl (by decide) rfl (by decide) fun w => by simp [planePixels, PixelType.size]
    | (obtain rfl | rfl : i = 0 ∨ i = 1 := by omega) <;> cases h <;>
        first
        | exact firDesc_id rfl rfl (by decide) fun w => by simp [planePixels, PixelType.size]
    | (obtain rfl : i = 0 := by omega) <;> cases h <;>
        exact firDesc_mul rfl (fun w => by simp [rowBytes]; omega) rfl (by decide) fun w => by simp [planePixels, PixelType.size]; try omega

theorem align_of {f : PixelFormat} {i h : Nat} {ps : List Plane} (hs : Showable f h ps) (hi : i < planeCount f)
    {p : Plane} (hp : ps[i]? = some p) :
    p.slice.addr % (pixelKind f i).align = 0 ∧ p.stride % (pixelKind f i).align = 0 := by
  obtain ⟨-, -, h⟩ := hs i hi p hp
  cases f <;> simp only [pixelKind] <;> (try split) <;> simp only [PixelType.align] <;>
    first | exact h rfl | omega

theorem rows_of {f : PixelFormat} {w h i : Nat} {ps : List Plane} (hs : Showable f h ps) (hi : i < planeCount f)
    {p : Plane} (hp : ps[i]? = some p) (hf : PlaneFits f w h i p) : p.slice.len / p.stride = rowCount f i h := by
  obtain ⟨h0, h1, -⟩ := hs i hi p hp
  have := hf.size_le
  rw [Nat.div_eq_iff h0]
  rw [Nat.mul_add, Nat.mul_one] at h1
  constructor
  · rw [Nat.mul_comm]; omega
  · rw [Nat.mul_comm (rowCount f i h)]; omega

/-- What the closure for plane `i` stores. -/
def resizeWrites (fir : Fir) (f : PixelFormat) (i sw sh dw dh : Nat) (s : Plane) (m : Mem) : List RowWrite :=
  if planePixels f i dw = 0 then [] else
  (List.range (rowCount f i dh)).map fun r =>
    ⟨i, r, 0, planePixels f i dw * kindBytes (pixelKind f i), scaledPlane fir f i sw sh dw dh s m r⟩

section
variable {f : PixelFormat} {sw sh dw dh i : Nat} {sps dps : List Plane} {s d : Plane}

theorem shown_eq (hf : PlaneFits f sw sh i s) (m : Mem) :
    shownBytes m ((List.range (rowCount f i sh)).map fun r =>
      ⟨s.slice.addr + r * s.stride, planePixels f i sw * kindBytes (pixelKind f i)⟩) (rowCount f i sh)
      (planePixels f i sw * kindBytes (pixelKind f i)) = planeBytes f i sw sh s m := by
  funext r c
  rw [shownBytes, planeBytes, List.getElem?_map]
  by_cases hr : r < rowCount f i sh
  · rw [List.getElem?_range hr]; rfl
  · rw [List.getElem?_eq_none (by simpa using hr)]
    simp [hr]

theorem resizePlane_eq {fir : Fir} {desc : PlaneDesc} (hdesc : f.planeDesc[i]? = some desc) (hs : sps[i]? = some s)
    (hd : dps[i]? = some d) (fs : PlaneFits f sw sh i s) (fd : PlaneFits f dw dh i d) (ss : Showable f sh sps)
    (sd : Showable f dh dps) (w1 : sw < 2 ^ 32) (h1 : sh < 2 ^ 32) (w2 : dw < 2 ^ 32) (h2 : dh < 2 ^ 32)
    (p1 : hsub f ≤ sw) (p2 : vsub f ≤ sh) (m : Mem) :
    resizePlane fir sw dw (desc, s, d) m = .ok ((resizeWrites fir f i sw sh dw dh s m).map (storeOf dps)) := by
  have hi : i < planeCount f := by rw [← planeDesc_length]; exact (List.getElem?_eq_some_iff.1 hdesc).1
  have fde := firDesc f i desc hdesc
  obtain ⟨o1, k1, e1, e2, e3⟩ := fde.width sw fs.packed_usize
  obtain ⟨o2, k2, e4, e5, e6⟩ := fde.width dw fd.packed_usize
  have r1 := rows_of ss hi hs fs
  have r2 := rows_of sd hi hd fd
  have z1 := (ss i hi s hs).1
  have z2 := (sd i hi d hd).1
  have b1 := pixels_bytes f i sw
  have b2 := pixels_bytes f i dw
  have u1 := fs.packed_usize
  have u2 := fd.packed_usize
  have g1 := fs.stride_ge
  have g2 := fd.stride_ge
  have q1 := pixels_pos (i := i) p1
  have q2 := rowCount_pos (i := i) p2
  rw [e2] at e5
  cases e5
  simp only [resizePlane, e1, e2, e3, e4, e6, ok_bind]
  rw [divU_ok (a := s.slice.len) (b := s.stride) (by omega), ok_bind,
    divU_ok (a := d.slice.len) (b := d.stride) (by omega), ok_bind, r1, r2, firResize]
  dsimp only
  rw [if_neg (fun h => h rfl), asU32_eq (Nat.lt_of_le_of_lt (pixels_le f i sw) w1),
    asU32_eq (Nat.lt_of_le_of_lt (pixels_le f i dw) w2), asU32_eq (Nat.lt_of_le_of_lt (rowCount_le f i sh) h1),
    asU32_eq (Nat.lt_of_le_of_lt (rowCount_le f i dh) h2)]
  by_cases hz : planePixels f i dw = 0 ∨ rowCount f i dh = 0
  · rw [if_pos (by omega), resizeWrites]
    split
    · rfl
    · rw [show rowCount f i dh = 0 by omega]; rfl
  rw [if_neg (by omega), resizeWrites, if_neg (by omega), fde.kind,
    rows_eq (n := rowCount f i sh) z1 (by dsimp only; rw [size_eq]; omega) (by dsimp only; rw [size_eq]; omega) r1
      (align_of ss hi hs), ok_bind,
    rows_eq (n := rowCount f i dh) z2 (by dsimp only; rw [size_eq]; omega) (by dsimp only; rw [size_eq]; omega) r2
      (align_of sd hi hd), ok_bind]
  dsimp only
  rw [size_eq, shown_eq fs]
  refine congrArg Except.ok ?_
  rw [rowStores, List.map_map]
  apply List.ext_getElem?
  intro r
  rw [List.getElem?_mapIdx, List.getElem?_map]
  by_cases hr : r < rowCount f i dh
  · rw [List.getElem?_take, if_pos hr, List.getElem?_map, List.getElem?_range hr]
    simp only [Option.map_some, Option.some.injEq, Function.comp]
    funext m'
    rw [rawWrite, if_pos (Nat.le_refl _), storeOf, RowWrite.apply]
    dsimp only
    rw [hd]
    dsimp only
    rw [Nat.add_zero]
    rfl
  · rw [List.getElem?_take, if_neg hr, List.getElem?_eq_none (by simpa using hr)]
    rfl

theorem resizeWrites_good (fir : Fir) (hi : i < planeCount f) (m : Mem) (g : Nat → Nat → Nat → UInt8)
    (hg : ∀ r c, g i r c = scaledPlane fir f i sw sh dw dh s m r c) :
    ∀ r ∈ resizeWrites fir f i sw sh dw dh s m, r.Good f dw dh g := by
  intro r hr
  rw [resizeWrites] at hr
  split at hr
  · cases hr
  obtain ⟨k, hk, rfl⟩ := List.mem_map.1 hr
  refine ⟨hi, List.mem_range.1 hk, by dsimp only; rw [Nat.zero_add]; exact pixels_bytes f i dw, fun j _ => ?_⟩
  dsimp only
  rw [Nat.zero_add, hg]

theorem resizeWrites_cover (fir : Fir) (m : Mem) (hw : dw % hsub f = 0) {row col : Nat} (hd : InDom f dw dh i row col) :
    ∃ r ∈ resizeWrites fir f i sw sh dw dh s m, r.Covers i row col := by
  have e := pixels_bytes_eq (i := i) hw
  have := hd.col
  rw [resizeWrites, if_neg (by intro h; rw [h] at e; omega)]
  exact ⟨_, List.mem_map.2 ⟨row, List.mem_range.2 hd.row, rfl⟩, rfl, rfl, Nat.zero_le _, by dsimp only; omega⟩

end

/-! ## Executions -/

section
variable {F : Type} [FOps F]

/-- Bytes outside of some slices do not change, whatever the images: the invariant. -/
structure Confined (fir : Fir) (sw dw : Nat) (ts : List (PlaneDesc × Plane × Plane)) (m0 : Mem) (s : Threads F) :
    Prop where
  mem : ∀ a, (∀ t ∈ ts, ¬ t.2.2.slice.Has a) → s.mem a = m0 a
  workers : ∀ wk ∈ s.workers, ∃ t ∈ ts, wk.visitor = ⟨fun _ _ _ m => resizePlane fir sw dw t m⟩ ∧
    ∀ st ∈ wk.pending, StaysIn t.2.2.slice st

theorem StaysIn.same {p : Slice} {st : Mem → Exec Mem} (h : StaysIn p st) {m m' : Mem} (e : st m = .ok m') {a : Nat}
    (ha : ¬ p.Has a) : m' a = m a := by
  obtain ⟨b, n, v, rfl, h1, h2⟩ := h
  cases e
  rw [Mem.store, dif_neg]
  intro hin
  exact ha ⟨by omega, by omega⟩

theorem Confined.reach {c : Cpu F} {fir : Fir} {sw dw : Nat} {ts : List (PlaneDesc × Plane × Plane)} {m0 : Mem}
    {s t : Threads F} (h : Confined fir sw dw ts m0 s) (hr : Reach c s t) : Confined fir sw dw ts m0 t := by
  induction hr with
  | refl => exact h
  | advance _ ha ih =>
    cases ha with
    | call i wk k ks view sts hw hk hview hp =>
      refine ⟨ih.mem, fun wk' hwk' => ?_⟩
      rcases List.mem_or_eq_of_mem_set hwk' with h1 | rfl
      · exact ih.workers wk' h1
      · obtain ⟨t, ht, hv, hst⟩ := ih.workers wk (List.mem_of_getElem? hw)
        refine ⟨t, ht, hv, fun st h => ?_⟩
        rcases List.mem_append.1 h with h | h
        · exact hst st h
        · rw [hv] at hp
          exact resizePlane_in hp st h
    | store i wk l₁ st l₂ m hw hp hm =>
      obtain ⟨t, ht, hv, hst⟩ := ih.workers wk (List.mem_of_getElem? hw)
      refine ⟨fun a ha => ?_, fun wk' hwk' => ?_⟩
      · exact ((hst st (by rw [hp]; simp)).same hm (ha t ht)).trans (ih.mem a ha)
      · rcases List.mem_or_eq_of_mem_set hwk' with h1 | rfl
        · exact ih.workers wk' h1
        · refine ⟨t, ht, hv, fun st' h' => hst st' ?_⟩
          rw [hp]
          rcases List.mem_append.1 h' with h1 | h1 <;> simp [h1]
  | tear _ ht ih =>
    cases ht with
    | mk i wk st m₁ m₂ hw hst hm h2 =>
      obtain ⟨t, ht, hv, hst'⟩ := ih.workers wk (List.mem_of_getElem? hw)
      refine ⟨fun a ha => ?_, ih.workers⟩
      show m₂ a = _
      rcases h2 a with e | e
      · rw [e]; exact ih.mem a ha
      · rw [e]; exact ((hst' st hst).same hm (ha t ht)).trans (ih.mem a ha)

theorem Confined.no_ub {c : Cpu F} {fir : Fir} {sw dw : Nat} {ts : List (PlaneDesc × Plane × Plane)} {m0 : Mem}
    {s : Threads F} (h : Confined fir sw dw ts m0 s) : ¬ Faulty c s .ub := by
  rintro (⟨i, wk, k, ks, view, _, hw, hk, hview, hp⟩ | ⟨i, wk, st, _, hw, hst, hm⟩)
  · obtain ⟨t, ht, hv, hst⟩ := h.workers wk (List.mem_of_getElem? hw)
    rw [hv] at hp
    exact resizePlane_panics _ _ _ _ _ hp
  · obtain ⟨t, ht, hv, hst'⟩ := h.workers wk (List.mem_of_getElem? hw)
    obtain ⟨b, n, v, rfl, -⟩ := hst' st hst
    cases hm

theorem confined_start (fir : Fir) (src dst : Img) (sps dps : List Plane) (n : Nat) (m : Mem) :
    Confined (F := F) fir src.width dst.width ((src.format.planeDesc.zip (sps.zip dps)).take n) m
      (resizeStart fir src dst sps dps n m) := by
  refine ⟨fun _ _ => rfl, fun wk hwk => ?_⟩
  obtain ⟨t, ht, rfl⟩ := List.mem_map.1 hwk
  exact ⟨t, ht, rfl, fun st h => by cases h⟩

/-- The picture that the planes of the destination should show. -/
def scaled (fir : Fir) (f : PixelFormat) (sps : List Plane) (sw sh dw dh : Nat) (m : Mem) (i row col : Nat) : UInt8 :=
  match sps[i]? with
  | some s => scaledPlane fir f i sw sh dw dh s m row col
  | none => 0

/-- The conditions under which resizing works. -/
structure CanResize (f : PixelFormat) (sps dps : List Plane) (sw sh dw dh : Nat) : Prop where
  src : Fits f sps sw sh
  dst : Fits f dps dw dh
  showSrc : Showable f sh sps
  showDst : Showable f dh dps
  u32 : sw < 2 ^ 32 ∧ sh < 2 ^ 32 ∧ dw < 2 ^ 32 ∧ dh < 2 ^ 32
  srcW : hsub f ≤ sw
  srcH : vsub f ≤ sh
  dstW : dw % hsub f = 0
  sep : Separate f sps f dps

theorem scaledPlane_congr {fir : Fir} {f : PixelFormat} {i sw sh dw dh : Nat} {s : Plane} {m m' : Mem}
    (hf : PlaneFits f sw sh i s) (h : ∀ a, s.slice.Has a → m a = m' a) :
    scaledPlane fir f i sw sh dw dh s m = scaledPlane fir f i sw sh dw dh s m' := by
  have : planeBytes f i sw sh s m = planeBytes f i sw sh s m' := by
    funext r c
    rw [planeBytes, planeBytes]
    split
    · next hc =>
      apply h
      have h1 := pixels_bytes f i sw
      have h2 := hf.stride_ge
      have h3 : (r + 1) * s.stride ≤ rowCount f i sh * s.stride := Nat.mul_le_mul_right _ hc.1
      have h4 := hf.size_le
      rw [Nat.mul_comm] at h4
      rw [Nat.succ_mul] at h3
      exact ⟨by omega, by omega⟩
    · rfl
  rw [scaledPlane, scaledPlane, this]

theorem outside_of_separate {f : PixelFormat} {sps dps : List Plane} {dw dh i : Nat} {s : Plane}
    (hd : Fits f dps dw dh) (hsep : Separate f sps f dps) (hi : i < planeCount f) (hs : sps[i]? = some s) {a : Nat}
    (ha : s.slice.Has a) : Outside f dps dw dh a := by
  intro j row col p hD hp e
  have hf := hd.2 j hD.plane p hp
  have h2 := hf.stride_ge
  have h3 : (row + 1) * p.stride ≤ rowCount f j dh * p.stride := Nat.mul_le_mul_right _ hD.row
  have h4 := hf.size_le
  have h5 := hD.col
  rw [Nat.mul_comm] at h4
  rw [Nat.succ_mul] at h3
  rw [Plane.at] at e
  exact hsep i j s p hi hD.plane hs hp a ha.1 ha.2 (by omega) (by omega)

theorem resize_call {c : Cpu F} {fir : Fir} {f : PixelFormat} {sps dps : List Plane} {sw sh dw dh i : Nat}
    (h : CanResize f sps dps sw sh dw dh) {desc : PlaneDesc} {s d : Plane} (hdesc : f.planeDesc[i]? = some desc)
    (hs : sps[i]? = some s) (hd : dps[i]? = some d) (m0 : Mem) (k : VisitCall) :
    CallSound c f dps dw dh (scaled fir f sps sw sh dw dh m0) m0 ⟨fun _ _ _ m => resizePlane fir sw dw (desc, s, d) m⟩ k
      fun i' _ _ => i' = i := by
  intro m hm
  have hi : i < planeCount f := by rw [← planeDesc_length]; exact (List.getElem?_eq_some_iff.1 hdesc).1
  have fs := h.src.2 i hi s hs
  refine ⟨resizeWrites fir f i sw sh dw dh s m, ?_, ?_, ?_⟩
  · exact resizePlane_eq hdesc hs hd fs (h.dst.2 i hi d hd) h.showSrc h.showDst h.u32.1 h.u32.2.1 h.u32.2.2.1
      h.u32.2.2.2 h.srcW h.srcH m
  · refine resizeWrites_good fir hi m _ fun r c => ?_
    simp only [scaled, hs]
    rw [scaledPlane_congr fs fun a ha => (hm a (outside_of_separate h.dst h.sep hi hs ha)).symm]
  · rintro i' row col hD rfl
    exact resizeWrites_cover fir m h.dstW hD

theorem resize_inv {c : Cpu F} {fir : Fir} {src dst : Img} {sps dps : List Plane} (hf : src.format = dst.format)
    (h : CanResize src.format sps dps src.width src.height dst.width dst.height) {n : Nat} (hn : sps.length ≤ n)
    (m0 : Mem) :
    Inv c src.format dps dst.width dst.height
      (scaled fir src.format sps src.width src.height dst.width dst.height m0) m0
      (resizeStart fir src dst sps dps n m0) := by
  have wk : ∀ wk ∈ (resizeStart (F := F) fir src dst sps dps n m0).workers, ∃ (i : Nat) (desc : PlaneDesc) (s d : Plane),
      src.format.planeDesc[i]? = some desc ∧ sps[i]? = some s ∧ dps[i]? = some d ∧
      wk = resizeWorker fir src.width dst.width (desc, s, d) := by
    intro wk hwk
    obtain ⟨t, ht, rfl⟩ := List.mem_map.1 hwk
    obtain ⟨i, hi⟩ := List.getElem?_of_mem (List.mem_of_mem_take ht)
    obtain ⟨desc, s, d⟩ := t
    rw [List.getElem?_zip_eq_some, List.getElem?_zip_eq_some] at hi
    exact ⟨i, desc, s, d, hi.1, hi.2.1, hi.2.2, rfl⟩
  refine ⟨fun a _ => ⟨rfl, fun b hb => hb⟩, fun a => rfl, ?_, ?_, ?_⟩
  · intro w hw k hk
    obtain ⟨i, desc, s, d, h1, h2, h3, rfl⟩ := wk w hw
    exact (resize_call h h1 h2 h3 m0 k).weaken fun _ _ _ h => h.elim
  · intro w hw st hst
    obtain ⟨i, desc, s, d, h1, h2, h3, rfl⟩ := wk w hw
    cases hst
  · intro i row col p hD hp
    right
    have l1 : i < src.format.planeDesc.length := by rw [planeDesc_length]; exact hD.plane
    have l2 : i < sps.length := Nat.lt_of_lt_of_le hD.plane h.src.1
    have e1 := List.getElem?_eq_getElem l1
    have e2 := List.getElem?_eq_getElem l2
    refine ⟨resizeWorker fir src.width dst.width (src.format.planeDesc[i], sps[i], p), List.mem_map.2 ⟨_, ?_, rfl⟩,
      Or.inl ⟨_, List.mem_cons_self .., (resize_call h e1 e2 hp m0 _).weaken fun i' _ _ h => h.1⟩⟩
    refine List.mem_of_getElem? (i := i) ?_
    rw [List.getElem?_take, if_pos (by omega), List.getElem?_zip_eq_some, List.getElem?_zip_eq_some]
    exact ⟨e1, e2, hp⟩

end
end Ezk

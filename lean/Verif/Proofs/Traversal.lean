import Verif.Proofs.PackedWriters
import Verif.Proofs.Scalar

/-!
# The traversal covers the image, and what memory looks like afterwards
-/

namespace Ezk
open FOps Spec

variable {F : Type} [FOps F]

/-! ## Calls -/

theorem mem_stepBy {hi step v : Nat} (hs : 0 < step) : v ∈ stepBy hi step ↔ v % step = 0 ∧ v < hi := by
  simp only [stepBy, List.mem_map, List.mem_range]
  constructor
  · rintro ⟨k, hk, rfl⟩
    refine ⟨Nat.mul_mod_left _ _, ?_⟩
    rw [Nat.lt_iff_add_one_le, Nat.le_div_iff_mul_le hs, Nat.add_mul] at hk
    omega
  · rintro ⟨h1, h2⟩
    refine ⟨v / step, ?_, ?_⟩
    · rw [Nat.lt_iff_add_one_le, Nat.le_div_iff_mul_le hs, Nat.add_mul, Nat.mul_comm]
      have := Nat.div_add_mod v step
      omega
    · have := Nat.div_add_mod v step
      rw [Nat.mul_comm]; omega

theorem nodup_stepBy {hi step : Nat} (hs : 0 < step) : (stepBy hi step).Nodup := by
  rw [stepBy, List.nodup_iff_pairwise_ne, List.pairwise_map]
  refine List.Pairwise.imp ?_ (List.nodup_range (n := _))
  intro a b hab h
  exact hab (Nat.eq_of_mul_eq_mul_right hs h)

theorem mem_visitCalls {L w h : Nat} (hL : 0 < L) {k : VisitCall} :
    k ∈ visitCalls L w h ↔ (k.y % 2 = 0 ∧ k.y < h) ∧
      (if k.vectored = true then k.x % (L * 2) = 0 ∧ k.x < w - w % (L * 2)
       else (k.x - (w - w % (L * 2))) % 2 = 0 ∧ w - w % (L * 2) ≤ k.x ∧ k.x < w) := by
  have hm : w % (L * 2) ≤ w := Nat.mod_le _ _
  obtain ⟨b, x, y⟩ := k
  simp only [visitCalls, List.mem_flatMap, List.mem_append, List.mem_map, mem_stepBy (show 0 < L * 2 by omega),
    mem_stepBy (show 0 < 2 by omega), VisitCall.mk.injEq]
  constructor
  · rintro ⟨y', hy, ⟨x', hx, rfl, rfl, rfl⟩ | ⟨x', hx, rfl, rfl, rfl⟩⟩
    · exact ⟨hy, by rw [if_pos rfl]; exact hx⟩
    · refine ⟨hy, ?_⟩
      rw [if_neg (by decide)]; omega
  · rintro ⟨hy, hx⟩
    refine ⟨y, hy, ?_⟩
    cases b
    · right
      rw [if_neg (by decide)] at hx
      exact ⟨x - (w - w % (L * 2)), by omega, rfl, by omega, rfl⟩
    · left
      rw [if_pos rfl] at hx
      exact ⟨x, hx, rfl, rfl, rfl⟩

/-- The backend and block of a column. -/
def cpuBlk (c : Cpu F) (w : Nat) : Blk F := fun X =>
  if X < w - w % (c.vec.LEN * 2) then (c.vec, X / (c.vec.LEN * 2) * (c.vec.LEN * 2))
  else (scalarBackend c.sar, X / 2 * 2)

/-- The arithmetic of a column. -/
theorem cpuBlk_ar (c : Cpu F) (w X : Nat) :
    (cpuBlk c w).ar X = if X < w - w % (c.vec.LEN * 2) then c.vec.ar else (scalarBackend c.sar).ar := by
  rw [Blk.ar, cpuBlk]; split <;> rfl

theorem vectored_even {w L : Nat} (hw : w % 2 = 0) : (w - w % (L * 2)) % 2 = 0 := by
  have h1 : w % (L * 2) % 2 = w % 2 := Nat.mod_mod_of_dvd _ (Nat.dvd_mul_left ..)
  have h2 : w % (L * 2) ≤ w := Nat.mod_le _ _
  omega

theorem block_end {x V L : Nat} (hL : 0 < L) (h1 : x % L = 0) (h2 : V % L = 0) (h3 : x < V) : x + L ≤ V := by
  have e1 := Nat.div_add_mod x L
  have e2 := Nat.div_add_mod V L
  have h4 : x / L < V / L := by
    apply Nat.lt_of_mul_lt_mul_left (a := L); omega
  have h5 : L * (x / L + 1) ≤ L * (V / L) := Nat.mul_le_mul_left _ h4
  rw [Nat.mul_add] at h5
  omega

theorem vectored_mod (w L : Nat) : (w - w % L) % L = 0 := by
  have e := Nat.div_add_mod w L
  rw [show w - w % L = L * (w / L) by omega]
  exact Nat.mul_mod_right ..

/-- Every call made by the traversal is a proper visit. -/
theorem call_of_mem {c : Cpu F} (hc : c.vec.Lawful) {w h : Nat} (hw : w % 2 = 0) (hh : h % 2 = 0) {k : VisitCall}
    (hk : k ∈ visitCalls c.vec.LEN w h) : Call (cpuBlk c w) w h (c.backend k.vectored) k.x k.y := by
  have pos := c.vec.pos
  rw [mem_visitCalls pos] at hk
  obtain ⟨b, x, y⟩ := k
  obtain ⟨hy, hx⟩ := hk
  have hm : w % (c.vec.LEN * 2) ≤ w := Nat.mod_le _ _
  have hev := vectored_even (L := c.vec.LEN) hw
  dsimp only at hy hx ⊢
  cases b
  · rw [if_neg (by decide)] at hx
    refine ⟨scalar_lawful _, by omega, hy.1, ?_, by omega, ?_⟩
    · show x + 2 * 1 ≤ w
      omega
    · intro X h1 h2
      replace h2 : X < x + 2 * 1 := h2
      rw [cpuBlk, if_neg (by omega)]
      show _ = (scalarBackend c.sar, x)
      congr 1; omega
  · rw [if_pos rfl] at hx
    have he := block_end (by omega) hx.1 (vectored_mod w (c.vec.LEN * 2)) hx.2
    refine ⟨hc, ?_, hy.1, ?_, by omega, ?_⟩
    · have : x % (c.vec.LEN * 2) % 2 = x % 2 := Nat.mod_mod_of_dvd _ (Nat.dvd_mul_left ..)
      omega
    · show x + 2 * c.vec.LEN ≤ w
      omega
    · intro X h1 h2
      replace h2 : X < x + 2 * c.vec.LEN := h2
      rw [cpuBlk, if_pos (by omega)]
      show _ = (c.vec, x)
      congr 1
      have e := Nat.div_add_mod x (c.vec.LEN * 2)
      have : X / (c.vec.LEN * 2) = x / (c.vec.LEN * 2) := by
        apply Nat.div_eq_of_lt_le
        · rw [Nat.mul_comm]; omega
        · rw [Nat.add_mul, Nat.mul_comm]; omega
      rw [this, Nat.mul_comm]; omega

/-- Every pixel is visited. -/
theorem visited {c : Cpu F} {w h : Nat} (hh : h % 2 = 0) {X Y : Nat} (hX : X < w) (hY : Y < h) :
    ∃ k ∈ visitCalls c.vec.LEN w h, InBlock (c.backend k.vectored).LEN k.x k.y X Y := by
  have pos := c.vec.pos
  have hm : w % (c.vec.LEN * 2) ≤ w := Nat.mod_le _ _
  by_cases hv : X < w - w % (c.vec.LEN * 2)
  · refine ⟨⟨true, X / (c.vec.LEN * 2) * (c.vec.LEN * 2), Y / 2 * 2⟩, ?_, ?_⟩
    · rw [mem_visitCalls pos, if_pos rfl]
      have := Nat.div_mul_le_self X (c.vec.LEN * 2)
      exact ⟨by dsimp only; omega, Nat.mul_mod_left _ _, by dsimp only; omega⟩
    · have e := Nat.div_add_mod X (c.vec.LEN * 2)
      have := Nat.mod_lt X (show 0 < c.vec.LEN * 2 by omega)
      rw [Nat.mul_comm (c.vec.LEN * 2) (X / _)] at e
      show InBlock c.vec.LEN _ _ _ _
      exact ⟨by dsimp only; omega, by dsimp only; omega, by dsimp only; omega, by dsimp only; omega⟩
  · refine ⟨⟨false, w - w % (c.vec.LEN * 2) + (X - (w - w % (c.vec.LEN * 2))) / 2 * 2, Y / 2 * 2⟩, ?_, ?_⟩
    · rw [mem_visitCalls pos, if_neg (by simp)]
      dsimp only
      omega
    · show InBlock 1 _ _ _ _
      exact ⟨by dsimp only; omega, by dsimp only; omega, by dsimp only; omega, by dsimp only; omega⟩

/-! ## Cells and addresses -/

/-- Address of a byte of a plane. -/
def Plane.at (p : Plane) (row col : Nat) : Nat := p.slice.addr + (row * p.stride + col)

theorem InDom.inside {f : PixelFormat} {w h i row col : Nat} (hd : InDom f w h i row col) {ps : List Plane}
    (hf : Fits f ps w h) {p : Plane} (hp : ps[i]? = some p) :
    p.slice.addr ≤ p.at row col ∧ p.at row col < p.slice.addr + p.slice.len := by
  have hfit := hf.2 i hd.plane p hp
  have := row_fits hd.row (Nat.le_trans hd.col hfit.stride_ge) hfit.size_le
  rw [Plane.at]; omega

/-- Different bytes have different addresses. -/
theorem cell_inj {f : PixelFormat} {w h : Nat} {ps : List Plane} (hf : Fits f ps w h) (hdis : PlanesDisjoint f ps)
    {i row col j row' col' : Nat} {p q : Plane} (hi : InDom f w h i row col) (hj : InDom f w h j row' col')
    (hp : ps[i]? = some p) (hq : ps[j]? = some q) (e : p.at row col = q.at row' col') :
    i = j ∧ row = row' ∧ col = col' := by
  by_cases hij : i = j
  · subst hij
    obtain rfl : p = q := by rw [hp] at hq; exact Option.some.inj hq
    have hfit := hf.2 i hi.plane p hp
    have h1 := hi.col
    have h2 := hj.col
    have h3 := hfit.stride_ge
    simp only [Plane.at] at e
    have e' : row * p.stride + col = row' * p.stride + col' := by omega
    have m1 : (row * p.stride + col) % p.stride = col := by
      rw [Nat.add_comm, Nat.add_mul_mod_self_right, Nat.mod_eq_of_lt (by omega)]
    have m2 : (row' * p.stride + col') % p.stride = col' := by
      rw [Nat.add_comm, Nat.add_mul_mod_self_right, Nat.mod_eq_of_lt (by omega)]
    have d1 : (row * p.stride + col) / p.stride = row := by
      rw [Nat.add_comm, Nat.add_mul_div_right _ _ (by omega), Nat.div_eq_of_lt (by omega), Nat.zero_add]
    have d2 : (row' * p.stride + col') / p.stride = row' := by
      rw [Nat.add_comm, Nat.add_mul_div_right _ _ (by omega), Nat.div_eq_of_lt (by omega), Nat.zero_add]
    refine ⟨rfl, ?_, ?_⟩
    · rw [← d1, ← d2, e']
    · rw [← m1, ← m2, e']
  · exfalso
    have a1 := hi.inside hf hp
    have a2 := hj.inside hf hq
    rw [← e] at a2
    exact hdis i j p q hi.plane hj.plane hij hp hq _ a1.1 a1.2 a2.1 a2.2

/-- The address is not one of a byte of the image's rows. -/
def Outside (f : PixelFormat) (ps : List Plane) (w h : Nat) (a : Nat) : Prop :=
  ∀ i row col p, InDom f w h i row col → ps[i]? = some p → p.at row col ≠ a

/-- Part of the image has been written: the bytes in `S` are as prescribed, nothing outside of the image changed. -/
structure Painted (f : PixelFormat) (ps : List Plane) (w h : Nat) (g : Nat → Nat → Nat → UInt8)
    (S : Nat → Nat → Nat → Prop) (m0 m : Mem) : Prop where
  inside : ∀ i row col p, InDom f w h i row col → ps[i]? = some p → S i row col → m (p.at row col) = g i row col
  outside : ∀ a, Outside f ps w h a → m a = m0 a

theorem Painted.start (f : PixelFormat) (ps : List Plane) (w h : Nat) (g : Nat → Nat → Nat → UInt8) (m0 : Mem) :
    Painted f ps w h g (fun _ _ _ => False) m0 m0 :=
  ⟨fun _ _ _ _ _ _ hS => hS.elim, fun _ _ => rfl⟩

theorem Painted.mono {f : PixelFormat} {ps : List Plane} {w h : Nat} {g : Nat → Nat → Nat → UInt8}
    {S T : Nat → Nat → Nat → Prop} {m0 m : Mem} (hP : Painted f ps w h g S m0 m)
    (hST : ∀ i row col, T i row col → S i row col) : Painted f ps w h g T m0 m :=
  ⟨fun i row col p hd hp hT => hP.inside i row col p hd hp (hST _ _ _ hT), hP.outside⟩

/-- A good write extends the painted part. -/
theorem Painted.write {f : PixelFormat} {ps : List Plane} {w h : Nat} {g : Nat → Nat → Nat → UInt8}
    {S : Nat → Nat → Nat → Prop} {m0 m : Mem} (hP : Painted f ps w h g S m0 m) (hf : Fits f ps w h)
    (hdis : PlanesDisjoint f ps) {r : RowWrite} (hr : r.Good f w h g) :
    Painted f ps w h g (fun i row col => S i row col ∨ r.Covers i row col) m0 (r.apply ps m) := by
  have hlt : r.plane < ps.length := Nat.lt_of_lt_of_le hr.plane hf.1
  have hq : ps[r.plane]? = some ps[r.plane] := List.getElem?_eq_getElem hlt
  generalize ps[r.plane] = q at hq
  have inDom : ∀ j < r.n, InDom f w h r.plane r.row (r.col + j) :=
    fun j hj => ⟨hr.plane, hr.row, by have := hr.col; omega⟩
  have hap : r.apply ps m = m.store (q.at r.row r.col) r.n (fun i => r.val i) := by
    rw [RowWrite.apply, hq]; rfl
  have hat : ∀ j, q.at r.row (r.col + j) = q.at r.row r.col + j := by intro j; simp only [Plane.at]; omega
  rw [hap]
  constructor
  · intro i row col p hd hp hS
    rw [Mem.store]
    split
    · next hin =>
      have hj : p.at row col - q.at r.row r.col < r.n := by omega
      have e : p.at row col = q.at r.row (r.col + (p.at row col - q.at r.row r.col)) := by rw [hat]; omega
      obtain ⟨h1, h2, h3⟩ := cell_inj hf hdis hd (inDom _ hj) hp hq e
      dsimp only
      rw [hr.val _ hj, ← h3, h1, h2]
    · next hin =>
      rcases hS with hS | ⟨h1, h2, h3, h4⟩
      · exact hP.inside i row col p hd hp hS
      · exfalso
        apply hin
        subst h1 h2
        obtain rfl : p = q := by rw [hp] at hq; exact Option.some.inj hq
        have := hat (col - r.col)
        rw [Nat.add_sub_cancel' h3] at this
        omega
  · intro a ha
    rw [Mem.store]
    split
    · next hin =>
      exfalso
      have hj : a - q.at r.row r.col < r.n := by omega
      exact ha _ _ _ q (inDom _ hj) hq (by rw [hat]; omega)
    · exact hP.outside a ha

/-- A sequence of good writes. -/
theorem Painted.writes {f : PixelFormat} {ps : List Plane} {w h : Nat} {g : Nat → Nat → Nat → UInt8} {m0 : Mem}
    (hf : Fits f ps w h) (hdis : PlanesDisjoint f ps) (ws : List RowWrite) (hws : ∀ r ∈ ws, r.Good f w h g) :
    ∀ {S : Nat → Nat → Nat → Prop} {m : Mem}, Painted f ps w h g S m0 m →
    ∃ m', runStores (ws.map (fun r m => .ok (r.apply ps m))) m = .ok m' ∧
      Painted f ps w h g (fun i row col => S i row col ∨ ∃ r ∈ ws, r.Covers i row col) m0 m' := by
  induction ws with
  | nil =>
    intro S m hP
    exact ⟨m, rfl, hP.mono fun _ _ _ h => by simpa using h⟩
  | cons r ws ih =>
    intro S m hP
    obtain ⟨m', h1, h2⟩ := ih (fun r hr => hws r (List.mem_cons_of_mem _ hr)) (hP.write hf hdis (hws r (List.mem_cons_self ..)))
    refine ⟨m', ?_, h2.mono ?_⟩
    · simp only [List.map_cons, runStores, ok_bind]
      exact h1
    · intro i row col hS
      simp only [List.mem_cons, exists_eq_or_imp] at hS
      rcases hS with h | h | h
      · exact Or.inl (Or.inl h)
      · exact Or.inl (Or.inr h)
      · exact Or.inr h

/-- The block of a cell. -/
def CellIn (f : PixelFormat) (L x y i row col : Nat) : Prop :=
  InBlock L x y (cellOf f i row col).2.1 (cellOf f i row col).2.2.1

/-- One visit. -/
theorem visit_painted {f : PixelFormat} {ps : List Plane} {w h : Nat} {m0 m : Mem} {blk : Blk F} {pic : Pic F}
    (hf : Fits f ps w h) (hdis : PlanesDisjoint f ps) {v : Visitor F} (hv : VisitSound v f ps m w h blk pic)
    {B : Backend F} {x y : Nat} (hc : Call blk w h B x y) {S : Nat → Nat → Nat → Prop}
    (hP : Painted f ps w h (cellByte blk f pic) S m0 m) :
    ∃ m', v.visit B x y m = .ok m' ∧ Painted f ps w h (cellByte blk f pic)
      (fun i row col => S i row col ∨ InDom f w h i row col ∧ CellIn f B.LEN x y i row col) m0 m' := by
  obtain ⟨sts, ws, h1, h2, h3, h4, _⟩ := hv B x y hc
  obtain ⟨m', h5, h6⟩ := hP.writes hf hdis ws h3
  refine ⟨m', ?_, h6.mono ?_⟩
  · rw [Visitor.visit, h1, ok_bind, h2]; exact h5
  · rintro i row col (hS | ⟨hd, hb⟩)
    · exact Or.inl hS
    · exact Or.inr (h4 i row col hd hb.1 hb.2.1 hb.2.2.1 hb.2.2.2)

/-- A sequence of visits. -/
theorem runVisits_painted {f : PixelFormat} {ps : List Plane} {w h : Nat} {m0 : Mem} {blk : Blk F} {pic : Pic F}
    (hf : Fits f ps w h) (hdis : PlanesDisjoint f ps) {v : Visitor F} {c : Cpu F}
    (hv : ∀ m, (∀ a, Outside f ps w h a → m a = m0 a) → VisitSound v f ps m w h blk pic) (ks : List VisitCall)
    (hks : ∀ k ∈ ks, Call blk w h (c.backend k.vectored) k.x k.y) :
    ∀ {S : Nat → Nat → Nat → Prop} {m : Mem}, Painted f ps w h (cellByte blk f pic) S m0 m →
    ∃ m', runVisits c v ks m = .ok m' ∧ Painted f ps w h (cellByte blk f pic)
      (fun i row col => S i row col ∨
        InDom f w h i row col ∧ ∃ k ∈ ks, CellIn f (c.backend k.vectored).LEN k.x k.y i row col) m0 m' := by
  induction ks with
  | nil =>
    intro S m hP
    exact ⟨m, rfl, hP.mono fun _ _ _ h => by simpa using h⟩
  | cons k ks ih =>
    intro S m hP
    obtain ⟨m1, h1, h2⟩ := visit_painted hf hdis (hv m hP.outside) (hks k (List.mem_cons_self ..)) hP
    obtain ⟨m2, h3, h4⟩ := ih (fun k hk => hks k (List.mem_cons_of_mem _ hk)) h2
    refine ⟨m2, ?_, h4.mono ?_⟩
    · rw [runVisits, h1, ok_bind]; exact h3
    · intro i row col hS
      simp only [List.mem_cons, exists_eq_or_imp] at hS
      rcases hS with h | ⟨hd, h | h⟩
      · exact Or.inl (Or.inl h)
      · exact Or.inl (Or.inr ⟨hd, h⟩)
      · exact Or.inr ⟨hd, h⟩

/-- Bytes of the image belong to pixels of the image. -/
theorem cellOf_lt {f : PixelFormat} {w h i row col : Nat} (hd : InDom f w h i row col) :
    (cellOf f i row col).2.1 < w ∧ (cellOf f i row col).2.2.1 < h := by
  obtain ⟨h1, h2, h3⟩ := hd
  by_cases hi : i = 0
  · subst hi
    cases f <;> simp only [rowCount, rowBytes, if_true] at h2 h3 <;>
      simp only [cellOf, sampleBytes, hsub, vsub, if_true] <;> (try split) <;> (try dsimp only) <;> constructor <;> omega
  · cases f <;> simp only [planeCount, rowCount, rowBytes, hi, if_false] at h1 h2 h3 <;>
      simp only [cellOf, sampleBytes, hsub, vsub, hi, if_false] <;> constructor <;> omega

/-- A whole traversal. -/
theorem visit_all {f : PixelFormat} {ps : List Plane} {w h : Nat} {m0 : Mem} {pic : Pic F} {c : Cpu F}
    (hc : c.vec.Lawful) (hw : w % 2 = 0) (hh : h % 2 = 0)
    (hf : Fits f ps w h) (hdis : PlanesDisjoint f ps) {v : Visitor F}
    (hv : ∀ m, (∀ a, Outside f ps w h a → m a = m0 a) → VisitSound v f ps m w h (cpuBlk c w) pic) :
    ∃ m', visit c ⟨w, h, v⟩ m0 = .ok m' ∧
      Painted f ps w h (cellByte (cpuBlk c w) f pic) (InDom f w h) m0 m' := by
  obtain ⟨m', h1, h2⟩ := runVisits_painted hf hdis hv (visitCalls c.vec.LEN w h)
    (fun k hk => call_of_mem hc hw hh hk) (Painted.start f ps w h (cellByte (cpuBlk c w) f pic) m0)
  refine ⟨m', ?_, h2.mono ?_⟩
  · rw [visit]
    simp only [hw, hh, ne_eq, not_true_eq_false, if_false]
    exact h1
  · intro i row col hd
    obtain ⟨hX, hY⟩ := cellOf_lt hd
    exact Or.inr ⟨hd, visited hh hX hY⟩

end Ezk

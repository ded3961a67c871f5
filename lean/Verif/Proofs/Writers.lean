import Verif.Proofs.ColorStages

/-!
# Writers: every store of a visit writes the bytes the picture prescribes, and a visit writes its whole block
-/

namespace Ezk
open FOps Spec

variable {F : Type} [FOps F]

/-! ## Which sample a byte of a plane belongs to -/

/-- Byte `col` of row `row` of plane `p`: channel, (first) pixel and byte number of the sample it belongs to. -/
def cellOf (f : PixelFormat) (p row col : Nat) : Chan × Nat × Nat × Nat :=
  match f with
  | .RGBA => (match col % 4 with | 0 => .R | 1 => .G | 2 => .B | _ => .A, col / 4, row, 0)
  | .BGRA => (match col % 4 with | 0 => .B | 1 => .G | 2 => .R | _ => .A, col / 4, row, 0)
  | .RGB => (match col % 3 with | 0 => .R | 1 => .G | _ => .B, col / 3, row, 0)
  | .BGR => (match col % 3 with | 0 => .B | 1 => .G | _ => .R, col / 3, row, 0)
  | .YUYV =>
    if col % 2 = 0 then (.Y, col / 2, row, 0)
    else (if col % 4 = 1 then .U else .V, col / 4 * 2, row, 0)
  | .NV12 =>
    if p = 0 then (.Y, col, row, 0)
    else (if col % 2 = 0 then .U else .V, col / 2 * 2, row * 2, 0)
  | _ =>
    if p = 0 then (.Y, col / sampleBytes f, row, col % sampleBytes f)
    else (if p = 1 then .U else .V, col / sampleBytes f * hsub f, row * vsub f, col % sampleBytes f)

/-- Byte `k` of the stored form of a scaled float. -/
def byteOf (f : PixelFormat) (ar : Arith F) (v : F) (k : Nat) : UInt8 :=
  if isYuv f = false then ar.q8i v
  else if sampleBytes f = 1 then ar.q8 v else u16byte (ar.q16 v) k

/-- The byte that a picture prescribes. -/
def cellByte (blk : Blk F) (f : PixelFormat) (pic : Pic F) (p row col : Nat) : UInt8 :=
  let c := cellOf f p row col
  byteOf f (blk.ar c.2.1) ((blk.ar c.2.1).mul (pic c.1 c.2.1 c.2.2.1) (maxSample f)) c.2.2.2

/-! ## Writes -/

/-- A store into one row of a plane. -/
structure RowWrite where
  plane : Nat
  row : Nat
  col : Nat
  n : Nat
  val : Nat → UInt8

/-- The store. -/
def RowWrite.apply (ps : List Plane) (w : RowWrite) (m : Mem) : Mem :=
  match ps[w.plane]? with
  | some p => m.store (p.slice.addr + (w.row * p.stride + w.col)) w.n (fun i => w.val i)
  | none => m

/-- The bytes inside of the rows of an image. -/
structure InDom (f : PixelFormat) (w h p row col : Nat) : Prop where
  plane : p < planeCount f
  row : row < rowCount f p h
  col : col < rowBytes f p w

/-- The store stays inside of a row and writes what `g` prescribes. -/
structure RowWrite.Good (r : RowWrite) (f : PixelFormat) (w h : Nat) (g : Nat → Nat → Nat → UInt8) : Prop where
  plane : r.plane < planeCount f
  row : r.row < rowCount f r.plane h
  col : r.col + r.n ≤ rowBytes f r.plane w
  val : ∀ j < r.n, r.val j = g r.plane r.row (r.col + j)

/-- The store writes that byte. -/
def RowWrite.Covers (r : RowWrite) (p row col : Nat) : Prop :=
  r.plane = p ∧ r.row = row ∧ r.col ≤ col ∧ col < r.col + r.n

/-- Pixel `(X, Y)` belongs to the block of a call with `L` lanes. -/
def InBlock (L x y X Y : Nat) : Prop := x ≤ X ∧ X < x + 2 * L ∧ y ≤ Y ∧ Y < y + 2

/-- The visitor writes, at every block, what the picture prescribes for that block, and nothing else. -/
def VisitSound (v : Visitor F) (f : PixelFormat) (ps : List Plane) (m : Mem) (w h : Nat) (blk : Blk F) (pic : Pic F) :
    Prop :=
  ∀ B x y, Call blk w h B x y → ∃ (sts : List (Mem → Exec Mem)) (ws : List RowWrite),
    v.prepare B x y m = .ok sts ∧ sts = ws.map (fun r m => .ok (r.apply ps m)) ∧
    (∀ r ∈ ws, r.Good f w h (cellByte blk f pic)) ∧
    (∀ p row col, InDom f w h p row col →
      x ≤ (cellOf f p row col).2.1 → (cellOf f p row col).2.1 < x + 2 * B.LEN →
      y ≤ (cellOf f p row col).2.2.1 → (cellOf f p row col).2.2.1 < y + 2 → ∃ r ∈ ws, r.Covers p row col) ∧
    ∀ r ∈ ws, ∀ p row col, r.Covers p row col → InBlock B.LEN x y (cellOf f p row col).2.1 (cellOf f p row col).2.2.1

/-! ## Stores -/

/-- Byte `k` of a stored sample. -/
def Prim.byteOf (P : Prim) (ar : Arith F) (v : F) (k : Nat) : UInt8 :=
  match P with
  | .u8 => ar.q8 v
  | .u16 => u16byte (ar.q16 v) k

theorem store_congr {m : Mem} {a n a' n' : Nat} {v : Fin n → UInt8} {v' : Fin n' → UInt8} (ha : a = a') (hn : n = n')
    (hv : ∀ (j : Nat) (h : j < n) (h' : j < n'), v ⟨j, h⟩ = v' ⟨j, h'⟩) : m.store a n v = m.store a' n' v' := by
  subst ha hn
  congr 1
  funext ⟨j, hj⟩
  exact hv j hj hj

theorem store2At_eq {B : Backend F} (hB : B.Lawful) {P : Prim} {p : Plane} {cols rows row col : Nat}
    (hr : Room P p.slice p.stride cols rows) (h1 : row < rows) (h2 : col + 2 * B.LEN ≤ cols) (v0 v1 : B.V)
    (g : Nat → F) (hg : ∀ j h, concat v0 v1 j h = g j) (m : Mem) :
    store2At P B p row col v0 v1 m = .ok (m.store (p.slice.addr + (row * p.stride + col * P.SIZE)) (2 * B.LEN * P.SIZE)
      (fun j => P.byteOf B.ar (g (j / P.SIZE)) (j % P.SIZE))) := by
  have ho := hr.off h1 h2
  rw [store2At, hr.offset h1 (by omega), ok_bind, Slice.dropFrom, if_pos (by omega), ok_bind]
  cases P with
  | u8 =>
    simp only [Prim.SIZE, Nat.mul_one] at ho ⊢
    rw [Prim.write2x, hB.writeU8_2x, if_pos (by dsimp only; omega)]
    congr 1
    refine store_congr rfl (Nat.mul_one _).symm fun j h h' => ?_
    simp only [hg, Prim.byteOf, Nat.div_one]
  | u16 =>
    simp only [Prim.SIZE] at ho ⊢
    rw [Prim.write2x, hB.writeU16_2x, if_pos (by dsimp only; omega)]
    congr 1
    refine store_congr rfl (by omega) fun j h h' => ?_
    simp only [hg, Prim.byteOf]

theorem storeAt_eq {B : Backend F} (hB : B.Lawful) {P : Prim} {p : Plane} {cols rows row col : Nat}
    (hr : Room P p.slice p.stride cols rows) (h1 : row < rows) (h2 : col + B.LEN ≤ cols) (v : B.V)
    (g : Nat → F) (hg : ∀ j, v j = g j) (m : Mem) :
    storeAt P B p row col v m = .ok (m.store (p.slice.addr + (row * p.stride + col * P.SIZE)) (B.LEN * P.SIZE)
      (fun j => P.byteOf B.ar (g (j / P.SIZE)) (j % P.SIZE))) := by
  have ho := hr.off h1 h2
  rw [storeAt, hr.offset h1 (by omega), ok_bind, Slice.dropFrom, if_pos (by omega), ok_bind]
  cases P with
  | u8 =>
    simp only [Prim.SIZE, Nat.mul_one] at ho ⊢
    rw [Prim.write, hB.writeU8, if_pos (by dsimp only; omega)]
    congr 1
    refine store_congr rfl (Nat.mul_one _).symm fun j h h' => ?_
    simp only [hg, Prim.byteOf, Nat.div_one]
  | u16 =>
    simp only [Prim.SIZE] at ho ⊢
    rw [Prim.write, hB.writeU16, if_pos (by dsimp only; omega)]
    congr 1
    refine store_congr rfl (by omega) fun j h h' => ?_
    simp only [hg, Prim.byteOf]

/-- Two vectors that hold a function of the column. -/
theorem concat_cols {B : Backend F} {x : Nat} (g : Nat → F) (a b : B.V)
    (ha : ∀ i : Fin B.LEN, a i = g (x + i)) (hb : ∀ i : Fin B.LEN, b i = g (x + B.LEN + i)) (j : Nat)
    (h : j < 2 * B.LEN) : concat a b j h = g (x + j) := by
  rw [concat]; split
  · rw [ha]
  · rw [hb]; congr 1; dsimp only; omega

/-- A row of samples: `n` samples from sample column `col` on, sample `j` showing pixel `(X + sx * j, Y)`. -/
def sampleRow (P : Prim) (B : Backend F) (f : PixelFormat) (pic : Pic F) (plane row col n : Nat) (c : Chan)
    (X sx Y : Nat) : RowWrite :=
  ⟨plane, row, col * P.SIZE, n * P.SIZE,
    fun j => P.byteOf B.ar (B.ar.mul (pic c (X + sx * (j / P.SIZE)) Y) (maxSample f)) (j % P.SIZE)⟩

/-- Planar formats. -/
def isPlanar (f : PixelFormat) : Prop := planeCount f = 3

theorem cellOf_planar {f : PixelFormat} (hf : isPlanar f) (p row col : Nat) :
    cellOf f p row col = if p = 0 then (.Y, col / sampleBytes f, row, col % sampleBytes f)
      else (if p = 1 then .U else .V, col / sampleBytes f * hsub f, row * vsub f, col % sampleBytes f) := by
  cases f <;> first | rfl | (simp [isPlanar, planeCount] at hf; done)

theorem planar_dims {f : PixelFormat} (hf : isPlanar f) (i w h : Nat) :
    rowBytes f i w = (if i = 0 then w else w / hsub f) * (primOf f).SIZE ∧
    rowCount f i h = if i = 0 then h else h / vsub f := by
  cases f <;> first
    | (simp [isPlanar, planeCount] at hf; done)
    | (constructor <;> simp [rowBytes, rowCount, hsub, vsub, primOf, sampleBytes, Prim.SIZE, Nat.mul_comm] <;> split <;> omega)

theorem byteOf_planar {f : PixelFormat} (hf : isPlanar f) (ar : Arith F) (v : F) (k : Nat) :
    byteOf f ar v k = (primOf f).byteOf ar v k := by
  cases f <;> first | rfl | (simp [isPlanar, planeCount] at hf; done)

/-- A sample row in a planar image is good. -/
theorem sampleRow_good {f : PixelFormat} (hf : isPlanar f) {w h : Nat} {blk : Blk F} {B : Backend F} {x y : Nat}
    (hc : Call blk w h B x y) (pic : Pic F) {plane row col n X sx Y : Nat} {c : Chan}
    (h1 : plane < 3) (h2 : row < if plane = 0 then h else h / vsub f)
    (h3 : col + n ≤ if plane = 0 then w else w / hsub f)
    (h4 : c = if plane = 0 then .Y else if plane = 1 then .U else .V)
    (h5 : Y = if plane = 0 then row else row * vsub f)
    (h6 : X = if plane = 0 then col else col * hsub f) (h7 : sx = if plane = 0 then 1 else hsub f)
    (h8 : x ≤ X) (h9 : X + sx * n ≤ x + 2 * B.LEN) :
    (sampleRow (primOf f) B f pic plane row col n c X sx Y).Good f w h (cellByte blk f pic) := by
  have hd := planar_dims hf plane w h
  refine ⟨by rw [hf]; exact h1, by dsimp only [sampleRow]; rw [hd.2]; exact h2, ?_, ?_⟩
  · dsimp only [sampleRow]
    rw [hd.1, ← Nat.add_mul]
    exact Nat.mul_le_mul_right _ h3
  · intro j hj
    simp only [sampleRow] at hj ⊢
    have hS := (primOf f).size_pos
    have e1 : (col * (primOf f).SIZE + j) / (primOf f).SIZE = col + j / (primOf f).SIZE := by
      rw [Nat.add_comm, Nat.add_mul_div_right _ _ hS, Nat.add_comm]
    have e2 : (col * (primOf f).SIZE + j) % (primOf f).SIZE = j % (primOf f).SIZE := by
      rw [Nat.add_comm, Nat.add_mul_mod_self_right]
    have hj' : j / (primOf f).SIZE < n := Nat.div_lt_of_lt_mul (by rw [Nat.mul_comm]; exact hj)
    have hXj : X + sx * (j / (primOf f).SIZE) < x + 2 * B.LEN := by
      have hsx : 0 < sx := by
        rw [h7]; split
        · decide
        · cases f <;> decide
      have : sx * (j / (primOf f).SIZE) < sx * n := Nat.mul_lt_mul_of_pos_left hj' hsx
      omega
    have har := hc.ar (X := X + sx * (j / (primOf f).SIZE)) (by omega) hXj
    rw [cellByte, cellOf_planar hf, ← primOf_size, e1, e2]
    by_cases hp : plane = 0
    · rw [if_pos hp]; rw [if_pos hp] at h4 h5 h6 h7
      dsimp only
      subst h4 h5 h6 h7
      rw [Nat.one_mul] at har ⊢
      rw [har, byteOf_planar hf]
    · rw [if_neg hp]; rw [if_neg hp] at h4 h5 h6 h7
      dsimp only
      subst h4 h5 h6 h7
      rw [Nat.add_mul, Nat.mul_comm (j / _) (hsub f), har, byteOf_planar hf]

/-- A sample row covers the samples in it. -/
theorem sampleRow_covers {f : PixelFormat} (P : Prim) (B : Backend F) (pic : Pic F)
    {plane row col n X sx Y : Nat} {c : Chan} {cc : Nat} (h1 : col ≤ cc / P.SIZE) (h2 : cc / P.SIZE < col + n) :
    (sampleRow P B f pic plane row col n c X sx Y).Covers plane row cc := by
  have hS := P.size_pos
  refine ⟨rfl, rfl, ?_, ?_⟩
  · simp only [sampleRow]
    exact Nat.le_trans (Nat.mul_le_mul_right _ h1) (Nat.div_mul_le_self _ _)
  · simp only [sampleRow, ← Nat.add_mul]
    exact Nat.lt_of_div_lt_div (c := P.SIZE) (by rwa [Nat.mul_div_cancel _ hS])

/-- A sample row covers nothing but samples of its block. -/
theorem sampleRow_inside {f : PixelFormat} (hf : isPlanar f) (B : Backend F) (pic : Pic F)
    {plane row col n X sx Y x y : Nat} {c : Chan}
    (h5 : y ≤ if plane = 0 then row else row * vsub f) (h5' : (if plane = 0 then row else row * vsub f) < y + 2)
    (h6 : x ≤ if plane = 0 then col else col * hsub f)
    (h7 : (if plane = 0 then col + n else (col + n) * hsub f) ≤ x + 2 * B.LEN) {p r cc : Nat}
    (hcov : (sampleRow (primOf f) B f pic plane row col n c X sx Y).Covers p r cc) :
    InBlock B.LEN x y (cellOf f p r cc).2.1 (cellOf f p r cc).2.2.1 := by
  have hS := (primOf f).size_pos
  obtain ⟨rfl, rfl, c1, c2⟩ := hcov
  simp only [sampleRow, ← Nat.add_mul] at c1 c2 ⊢
  have d1 : col ≤ cc / (primOf f).SIZE := by rw [Nat.le_div_iff_mul_le hS]; exact c1
  have d2 : cc / (primOf f).SIZE < col + n := Nat.div_lt_of_lt_mul (by rw [Nat.mul_comm]; exact c2)
  rw [cellOf_planar hf, ← primOf_size]
  generalize cc / (primOf f).SIZE = q at d1 d2
  by_cases hp : plane = 0
  · simp only [if_pos hp] at h5 h5' h6 h7 ⊢
    exact ⟨by omega, by omega, h5, h5'⟩
  · simp only [if_neg hp] at h5 h5' h6 h7 ⊢
    have hs : 0 < hsub f := by cases f <;> decide
    have e1 : col * hsub f ≤ q * hsub f := Nat.mul_le_mul_right _ d1
    have e2 : q * hsub f < (col + n) * hsub f := Nat.mul_lt_mul_of_pos_right d2 hs
    exact ⟨by omega, by omega, h5, h5'⟩

/-! ## Planar writers -/

section
variable {f : PixelFormat} {w h : Nat} {m : Mem} {blk : Blk F} {pic : Pic F} {py pu pv : Plane} {rest : List Plane}

/-- The rooms of the three planes. -/
theorem planar_room (hf : isPlanar f) {ps : List Plane} (hfit : Fits f ps w h) {i : Nat} (hi : i < 3) {p : Plane}
    (hp : ps[i]? = some p) :
    Room (primOf f) p.slice p.stride (if i = 0 then w else w / hsub f) (if i = 0 then h else h / vsub f) := by
  have hd := planar_dims hf i w h
  exact Room.of_fits (hfit.2 i (by rw [hf]; exact hi) p hp) (Nat.le_of_eq hd.1.symm) (Nat.le_of_eq hd.2.symm)

/-- Two vectors to one row. -/
theorem put2 (hf : isPlanar f) {ps : List Plane} (hfit : Fits f ps w h) {B : Backend F} {x y : Nat}
    (hc : Call blk w h B x y) {i : Nat} (hi : i < 3) {p : Plane} (hp : ps[i]? = some p) {row col X sx Y : Nat} {c : Chan}
    (h1 : row < if i = 0 then h else h / vsub f) (h2 : col + 2 * B.LEN ≤ if i = 0 then w else w / hsub f) {v0 v1 : B.V}
    (e : sx = 1) (h0 : ∀ j : Fin B.LEN, v0 j = pic c (X + j) Y) (h3 : ∀ j : Fin B.LEN, v1 j = pic c (X + B.LEN + j) Y)
    (m : Mem) :
    store2At (primOf f) B p row col (B.vmulf v0 (maxValueForBits f.bitsPerComponent))
      (B.vmulf v1 (maxValueForBits f.bitsPerComponent)) m =
      .ok ((sampleRow (primOf f) B f pic i row col (2 * B.LEN) c X sx Y).apply ps m) := by
  subst e
  rw [store2At_eq hc.law (planar_room hf hfit hi hp) h1 h2 _ _
    (fun j => B.ar.mul (pic c (X + 1 * j) Y) (maxSample f)) (fun j hj => ?_) m]
  · simp only [RowWrite.apply, sampleRow, hp]
  · rw [concat_cols (x := X) (fun X => B.ar.mul (pic c X Y) (maxSample f)), Nat.one_mul]
    · intro k; show B.ar.mul (v0 k) _ = _; rw [h0, maxSample_eq]; rfl
    · intro k; show B.ar.mul (v1 k) _ = _; rw [h3, maxSample_eq]; rfl

/-- One vector to one row. -/
theorem put1 (hf : isPlanar f) {ps : List Plane} (hfit : Fits f ps w h) {B : Backend F} {x y : Nat}
    (hc : Call blk w h B x y) {i : Nat} (hi : i < 3) {p : Plane} (hp : ps[i]? = some p) {row col X sx Y : Nat} {c : Chan}
    (h1 : row < if i = 0 then h else h / vsub f) (h2 : col + B.LEN ≤ if i = 0 then w else w / hsub f) {v0 : B.V}
    (e : sx = 2) (h0 : ∀ j : Fin B.LEN, v0 j = pic c (X + 2 * j) Y) (m : Mem) :
    storeAt (primOf f) B p row col (B.vmulf v0 (maxValueForBits f.bitsPerComponent)) m =
      .ok ((sampleRow (primOf f) B f pic i row col B.LEN c X sx Y).apply ps m) := by
  subst e
  rw [storeAt_eq hc.law (planar_room hf hfit hi hp) h1 h2 _
    (fun j => B.ar.mul (pic c (X + 2 * j) Y) (maxSample f)) (fun j => ?_) m]
  · simp only [RowWrite.apply, sampleRow, hp]
  · show B.ar.mul (v0 j) _ = _; rw [h0, maxSample_eq]; rfl

theorem i420Visitor_sound (hf : isPlanar f) (hh : hsub f = 2) (hv : vsub f = 2)
    (hfit : Fits f (py :: pu :: pv :: rest) w h) {s : I420Src F} (hs : I420Sound s m w h blk pic) :
    VisitSound (i420Visitor (primOf f) py pu pv (maxValueForBits f.bitsPerComponent) s) f (py :: pu :: pv :: rest)
      m w h blk pic := by
  intro B x y hc
  obtain ⟨b, hr, hl⟩ := hs B x y hc
  have ⟨law, xe, ye, xw, yh, hblk⟩ := hc
  have hb := hfit.height hc.wpos
  have pos := B.pos
  refine ⟨_, [sampleRow (primOf f) B f pic 0 y x (2 * B.LEN) .Y x 1 y,
      sampleRow (primOf f) B f pic 0 (y + 1) x (2 * B.LEN) .Y x 1 (y + 1),
      sampleRow (primOf f) B f pic 1 (y / 2) (x / 2) B.LEN .U x 2 y,
      sampleRow (primOf f) B f pic 2 (y / 2) (x / 2) B.LEN .V x 2 y],
    by simp only [i420Visitor, hr, ok_bind, pure_ok]; rfl, ?_, ?_, ?_, ?_⟩
  · have ha : addP y 1 = .ok (y + 1) := addP_ok (by omega)
    simp only [List.map_cons, List.map_nil, ha, ok_bind]
    simp only [List.cons.injEq, and_true]
    refine ⟨?_, ?_, ?_, ?_⟩ <;> funext m
    · exact put2 hf hfit hc (by decide) rfl (by simp; omega) (by simp; omega) rfl (fun j => (hl j).1.y00) (fun j => (hl j).1.y01) m
    · exact put2 hf hfit hc (by decide) rfl (by simp; omega) (by simp; omega) rfl (fun j => (hl j).1.y10) (fun j => (hl j).1.y11) m
    · exact put1 hf hfit hc (by decide) rfl (by simp [hv]; omega) (by simp [hh]; omega) rfl (fun j => (hl j).2.1) m
    · exact put1 hf hfit hc (by decide) rfl (by simp [hv]; omega) (by simp [hh]; omega) rfl (fun j => (hl j).2.2) m
  · simp only [List.mem_cons, List.not_mem_nil, or_false]
    rintro r (rfl | rfl | rfl | rfl)
    all_goals refine sampleRow_good hf hc pic ?_ ?_ ?_ ?_ ?_ ?_ ?_ ?_ ?_
    all_goals simp [hh, hv]
    all_goals omega
  · intro p row col hd
    have dims := planar_dims hf p w h
    have d1 := hd.plane
    have d2 := hd.row
    rw [hf] at d1
    rw [dims.2] at d2
    rw [cellOf_planar hf, ← primOf_size]
    by_cases hp : p = 0
    · rw [if_pos hp] at d2 ⊢
      subst hp
      dsimp only
      intro a1 a2 a3 a4
      by_cases hy : row = y
      · subst hy
        exact ⟨_, List.mem_cons_self .., sampleRow_covers _ _ _ (by omega) (by omega)⟩
      · obtain rfl : row = y + 1 := by omega
        exact ⟨_, List.mem_cons_of_mem _ (List.mem_cons_self ..), sampleRow_covers _ _ _ (by omega) (by omega)⟩
    · rw [if_neg hp] at d2 ⊢
      dsimp only
      rw [hh, hv]
      intro a1 a2 a3 a4
      obtain rfl : row = y / 2 := by omega
      by_cases hp1 : p = 1
      · subst hp1
        exact ⟨_, List.mem_cons_of_mem _ (List.mem_cons_of_mem _ (List.mem_cons_self ..)),
          sampleRow_covers _ _ _ (by omega) (by omega)⟩
      · obtain rfl : p = 2 := by omega
        exact ⟨_, List.mem_cons_of_mem _ (List.mem_cons_of_mem _ (List.mem_cons_of_mem _ (List.mem_cons_self ..))),
          sampleRow_covers _ _ _ (by omega) (by omega)⟩
  · simp only [List.mem_cons, List.not_mem_nil, or_false]
    rintro r (rfl | rfl | rfl | rfl) p row col hcov
    all_goals refine sampleRow_inside hf B pic ?_ ?_ ?_ ?_ hcov
    all_goals simp [hh, hv]
    all_goals omega

theorem i422Visitor_sound (hf : isPlanar f) (hh : hsub f = 2) (hv : vsub f = 1)
    (hfit : Fits f (py :: pu :: pv :: rest) w h) {s : I422Src F} (hs : I422Sound s m w h blk pic) :
    VisitSound (i422Visitor (primOf f) py pu pv (maxValueForBits f.bitsPerComponent) s) f (py :: pu :: pv :: rest)
      m w h blk pic := by
  intro B x y hc
  obtain ⟨b, hr, hl⟩ := hs B x y hc
  have ⟨law, xe, ye, xw, yh, hblk⟩ := hc
  have hb := hfit.height hc.wpos
  have pos := B.pos
  refine ⟨_, [sampleRow (primOf f) B f pic 0 y x (2 * B.LEN) .Y x 1 y,
      sampleRow (primOf f) B f pic 0 (y + 1) x (2 * B.LEN) .Y x 1 (y + 1),
      sampleRow (primOf f) B f pic 1 y (x / 2) B.LEN .U x 2 y,
      sampleRow (primOf f) B f pic 1 (y + 1) (x / 2) B.LEN .U x 2 (y + 1),
      sampleRow (primOf f) B f pic 2 y (x / 2) B.LEN .V x 2 y,
      sampleRow (primOf f) B f pic 2 (y + 1) (x / 2) B.LEN .V x 2 (y + 1)],
    by simp only [i422Visitor, hr, ok_bind, pure_ok]; rfl, ?_, ?_, ?_, ?_⟩
  · have ha : addP y 1 = .ok (y + 1) := addP_ok (by omega)
    simp only [List.map_cons, List.map_nil, ha, ok_bind]
    simp only [List.cons.injEq, and_true]
    refine ⟨?_, ?_, ?_, ?_, ?_, ?_⟩ <;> funext m
    · exact put2 hf hfit hc (by decide) rfl (by simp; omega) (by simp; omega) rfl (fun j => (hl j).1.y00) (fun j => (hl j).1.y01) m
    · exact put2 hf hfit hc (by decide) rfl (by simp; omega) (by simp; omega) rfl (fun j => (hl j).1.y10) (fun j => (hl j).1.y11) m
    · exact put1 hf hfit hc (by decide) rfl (by simp [hv]; omega) (by simp [hh]; omega) rfl (fun j => (hl j).2.1) m
    · exact put1 hf hfit hc (by decide) rfl (by simp [hv]; omega) (by simp [hh]; omega) rfl (fun j => (hl j).2.2.1) m
    · exact put1 hf hfit hc (by decide) rfl (by simp [hv]; omega) (by simp [hh]; omega) rfl (fun j => (hl j).2.2.2.1) m
    · exact put1 hf hfit hc (by decide) rfl (by simp [hv]; omega) (by simp [hh]; omega) rfl (fun j => (hl j).2.2.2.2) m
  · simp only [List.mem_cons, List.not_mem_nil, or_false]
    rintro r (rfl | rfl | rfl | rfl | rfl | rfl)
    all_goals refine sampleRow_good hf hc pic ?_ ?_ ?_ ?_ ?_ ?_ ?_ ?_ ?_
    all_goals simp [hh, hv]
    all_goals omega
  · intro p row col hd
    have dims := planar_dims hf p w h
    have d1 := hd.plane
    have d2 := hd.row
    rw [hf] at d1
    rw [dims.2] at d2
    rw [cellOf_planar hf, ← primOf_size]
    simp only [List.mem_cons, List.not_mem_nil, or_false, exists_eq_or_imp, exists_eq_left]
    by_cases hp : p = 0
    · rw [if_pos hp] at d2 ⊢
      subst hp
      dsimp only
      intro a1 a2 a3 a4
      by_cases hy : row = y
      · subst hy
        exact Or.inl (sampleRow_covers _ _ _ (by omega) (by omega))
      · obtain rfl : row = y + 1 := by omega
        exact Or.inr (Or.inl (sampleRow_covers _ _ _ (by omega) (by omega)))
    · rw [if_neg hp] at d2 ⊢
      dsimp only
      rw [hh, hv]
      intro a1 a2 a3 a4
      by_cases hp1 : p = 1
      · subst hp1
        by_cases hy : row = y
        · subst hy
          exact Or.inr (Or.inr (Or.inl (sampleRow_covers _ _ _ (by omega) (by omega))))
        · obtain rfl : row = y + 1 := by omega
          exact Or.inr (Or.inr (Or.inr (Or.inl (sampleRow_covers _ _ _ (by omega) (by omega)))))
      · obtain rfl : p = 2 := by omega
        by_cases hy : row = y
        · subst hy
          exact Or.inr (Or.inr (Or.inr (Or.inr (Or.inl (sampleRow_covers _ _ _ (by omega) (by omega))))))
        · obtain rfl : row = y + 1 := by omega
          exact Or.inr (Or.inr (Or.inr (Or.inr (Or.inr (sampleRow_covers _ _ _ (by omega) (by omega))))))
  · simp only [List.mem_cons, List.not_mem_nil, or_false]
    rintro r (rfl | rfl | rfl | rfl | rfl | rfl) p row col hcov
    all_goals refine sampleRow_inside hf B pic ?_ ?_ ?_ ?_ hcov
    all_goals simp [hh, hv]
    all_goals omega

theorem i444Visitor_sound (hf : isPlanar f) (hh : hsub f = 1) (hv : vsub f = 1)
    (hfit : Fits f (py :: pu :: pv :: rest) w h) {s : I444Src F} (hs : I444Sound s m w h blk pic) :
    VisitSound (i444Visitor (primOf f) py pu pv (maxValueForBits f.bitsPerComponent) s) f (py :: pu :: pv :: rest)
      m w h blk pic := by
  intro B x y hc
  obtain ⟨b, hr, hl⟩ := hs B x y hc
  have ⟨law, xe, ye, xw, yh, hblk⟩ := hc
  have hb := hfit.height hc.wpos
  have pos := B.pos
  refine ⟨_, [sampleRow (primOf f) B f pic 0 y x (2 * B.LEN) .Y x 1 y,
      sampleRow (primOf f) B f pic 0 (y + 1) x (2 * B.LEN) .Y x 1 (y + 1),
      sampleRow (primOf f) B f pic 1 y x (2 * B.LEN) .U x 1 y,
      sampleRow (primOf f) B f pic 1 (y + 1) x (2 * B.LEN) .U x 1 (y + 1),
      sampleRow (primOf f) B f pic 2 y x (2 * B.LEN) .V x 1 y,
      sampleRow (primOf f) B f pic 2 (y + 1) x (2 * B.LEN) .V x 1 (y + 1)],
    by simp only [i444Visitor, hr, ok_bind, pure_ok]; rfl, ?_, ?_, ?_, ?_⟩
  · have ha : addP y 1 = .ok (y + 1) := addP_ok (by omega)
    simp only [List.map_cons, List.map_nil, ha, ok_bind]
    simp only [List.cons.injEq, and_true]
    refine ⟨?_, ?_, ?_, ?_, ?_, ?_⟩ <;> funext m
    · exact put2 hf hfit hc (by decide) rfl (by simp; omega) (by simp; omega) rfl (fun j => (hl j).1.y) (fun j => (hl j).2.1.y) m
    · exact put2 hf hfit hc (by decide) rfl (by simp; omega) (by simp; omega) rfl (fun j => (hl j).2.2.1.y) (fun j => (hl j).2.2.2.y) m
    · exact put2 hf hfit hc (by decide) rfl (by simp [hv]; omega) (by simp [hh]; omega) rfl (fun j => (hl j).1.u) (fun j => (hl j).2.1.u) m
    · exact put2 hf hfit hc (by decide) rfl (by simp [hv]; omega) (by simp [hh]; omega) rfl (fun j => (hl j).2.2.1.u) (fun j => (hl j).2.2.2.u) m
    · exact put2 hf hfit hc (by decide) rfl (by simp [hv]; omega) (by simp [hh]; omega) rfl (fun j => (hl j).1.v) (fun j => (hl j).2.1.v) m
    · exact put2 hf hfit hc (by decide) rfl (by simp [hv]; omega) (by simp [hh]; omega) rfl (fun j => (hl j).2.2.1.v) (fun j => (hl j).2.2.2.v) m
  · simp only [List.mem_cons, List.not_mem_nil, or_false]
    rintro r (rfl | rfl | rfl | rfl | rfl | rfl)
    all_goals refine sampleRow_good hf hc pic ?_ ?_ ?_ ?_ ?_ ?_ ?_ ?_ ?_
    all_goals simp [hh, hv]
    all_goals omega
  · intro p row col hd
    have dims := planar_dims hf p w h
    have d1 := hd.plane
    have d2 := hd.row
    rw [hf] at d1
    rw [dims.2] at d2
    rw [cellOf_planar hf, ← primOf_size]
    simp only [List.mem_cons, List.not_mem_nil, or_false, exists_eq_or_imp, exists_eq_left]
    by_cases hp : p = 0
    · rw [if_pos hp] at d2 ⊢
      subst hp
      dsimp only
      intro a1 a2 a3 a4
      by_cases hy : row = y
      · subst hy
        exact Or.inl (sampleRow_covers _ _ _ (by omega) (by omega))
      · obtain rfl : row = y + 1 := by omega
        exact Or.inr (Or.inl (sampleRow_covers _ _ _ (by omega) (by omega)))
    · rw [if_neg hp] at d2 ⊢
      dsimp only
      rw [hh, hv]
      intro a1 a2 a3 a4
      by_cases hp1 : p = 1
      · subst hp1
        by_cases hy : row = y
        · subst hy
          exact Or.inr (Or.inr (Or.inl (sampleRow_covers _ _ _ (by omega) (by omega))))
        · obtain rfl : row = y + 1 := by omega
          exact Or.inr (Or.inr (Or.inr (Or.inl (sampleRow_covers _ _ _ (by omega) (by omega)))))
      · obtain rfl : p = 2 := by omega
        by_cases hy : row = y
        · subst hy
          exact Or.inr (Or.inr (Or.inr (Or.inr (Or.inl (sampleRow_covers _ _ _ (by omega) (by omega))))))
        · obtain rfl : row = y + 1 := by omega
          exact Or.inr (Or.inr (Or.inr (Or.inr (Or.inr (sampleRow_covers _ _ _ (by omega) (by omega))))))
  · simp only [List.mem_cons, List.not_mem_nil, or_false]
    rintro r (rfl | rfl | rfl | rfl | rfl | rfl) p row col hcov
    all_goals refine sampleRow_inside hf B pic ?_ ?_ ?_ ?_ hcov
    all_goals simp [hh, hv]
    all_goals omega

end
end Ezk

import Verif.Proofs.Split
import Verif.Proofs.Threads

/-!
# The strips of an image: what `convert` does to a strip is what it does to that part of the image
-/

namespace Ezk
open FOps Spec

variable {F : Type} [FOps F]

/-! ## Shifted pictures -/

/-- The picture from row `o` on. -/
def shiftPic {α : Type} (o : Nat) (p : Pic α) : Pic α := fun c x y => p c x (y + o)

theorem normalize_shift (ar : Nat → Arith F) (f : PixelFormat) (o : Nat) (V : Pic Nat) :
    normalize ar f (shiftPic o V) = shiftPic o (normalize ar f V) := rfl

theorem decode_shift (ar : Nat → Arith F) (i : YuvColorInfo) (o : Nat) (p : Pic F) :
    decode ar i (shiftPic o p) = shiftPic o (decode ar i p) := by
  funext c x y; cases c <;> rfl

theorem withAlpha_shift (f : PixelFormat) (o : Nat) (p : Pic F) :
    withAlpha f (shiftPic o p) = shiftPic o (withAlpha f p) := rfl

theorem readPic_shift (ar : Nat → Arith F) (f : PixelFormat) (c : ColorInfo) (o : Nat) (V : Pic Nat) :
    readPic ar f c (shiftPic o V) = shiftPic o (readPic ar f c V) := by
  cases c with
  | RGB i => rw [readPic, readPic, normalize_shift, withAlpha_shift]
  | YUV i =>
    rw [readPic, readPic, normalize_shift]
    split
    · exact decode_shift ..
    · exact withAlpha_shift ..

theorem changeColor_shift (ar : Nat → Arith F) (sc dc : ColorInfo) (o : Nat) (p : Pic F) :
    changeColor ar sc dc (shiftPic o p) = shiftPic o (changeColor ar sc dc p) := by
  funext c x y; cases c <;> rfl

theorem adaptPic_shift (ar : Nat → Arith F) (sc dc : ColorInfo) (o : Nat) (p : Pic F) :
    adaptPic ar sc dc (shiftPic o p) = shiftPic o (adaptPic ar sc dc p) := by
  rw [adaptPic, adaptPic]
  split
  · rfl
  · exact changeColor_shift ..

theorem yuvAt_shift (ar : Nat → Arith F) (i : YuvColorInfo) (o : Nat) (p : Pic F) (x y : Nat) :
    yuvAt ar i (shiftPic o p) x y = yuvAt ar i p x (y + o) := rfl

theorem chromaBlk_shift (blk : Blk F) (f : PixelFormat) (i : YuvColorInfo) {o : Nat} (ho : o % 2 = 0) (p : Pic F)
    (x y : Nat) : chromaBlk blk f i (shiftPic o p) x y = chromaBlk blk f i p x (y + o) := by
  have e : (y + o) / 2 * 2 = y / 2 * 2 + o := by omega
  have e' : y / 2 * 2 + 1 + o = y / 2 * 2 + o + 1 := by omega
  rw [chromaBlk, chromaBlk]
  split
  · simp only [ictcpChroma, yuvAt_shift, e]
  · rw [chromaOf, chromaOf]
    split
    · rfl
    · split
      · rfl
      · simp only [chroma420, yuvAt_shift, e, e', shiftPic]

theorem encodeBlk_shift (blk : Blk F) (f : PixelFormat) (i : YuvColorInfo) {o : Nat} (ho : o % 2 = 0) (p : Pic F) :
    encodeBlk blk f i (shiftPic o p) = shiftPic o (encodeBlk blk f i p) := by
  funext c x y
  cases c <;> simp only [encodeBlk, shiftPic, chromaBlk_shift blk f i ho] <;> first | rfl | skip
  all_goals
    have := chromaBlk_shift blk f i ho p x y
    simp only [shiftPic] at this
    first | exact congrArg (fun z => compressChroma (blk.ar x) i.fullRange z.1) this
          | exact congrArg (fun z => compressChroma (blk.ar x) i.fullRange z.2) this

theorem floatBlk_shift (blk : Blk F) (sf : PixelFormat) (sc : ColorInfo) (df : PixelFormat) (dc : ColorInfo) {o : Nat}
    (ho : o % 2 = 0) (V : Pic Nat) :
    floatBlk blk sf sc df dc (shiftPic o V) = shiftPic o (floatBlk blk sf sc df dc V) := by
  rw [floatBlk, floatBlk]
  split
  · rfl
  · rw [readPic_shift, adaptPic_shift]
    cases dc with
    | RGB i => rfl
    | YUV i =>
      rw [writeBlk, writeBlk]
      split
      · exact encodeBlk_shift blk df i ho _
      · rfl

/-! ## Cells of a strip -/

theorem cellOf_shift (f : PixelFormat) {i : Nat} (hi : i < planeCount f) (row col : Nat) {o : Nat} (ho : o % 2 = 0) :
    cellOf f i (row + rowCount f i o) col =
      ((cellOf f i row col).1, (cellOf f i row col).2.1, (cellOf f i row col).2.2.1 + o, (cellOf f i row col).2.2.2) := by
  have e2 : (row + o / 2) * 2 = row * 2 + o := by omega
  by_cases h : i = 0
  · subst h
    cases f <;> simp only [cellOf, rowCount, if_true] <;> (try split) <;> rfl
  · cases f <;> simp only [planeCount] at hi <;> first | omega | skip
    all_goals simp only [cellOf, rowCount, vsub, hsub, h, if_false, e2, Nat.mul_one]

theorem cellByte_shift (blk : Blk F) (f : PixelFormat) (p : Pic F) {i : Nat} (hi : i < planeCount f) (row col : Nat)
    {o : Nat} (ho : o % 2 = 0) :
    cellByte blk f (shiftPic o p) i row col = cellByte blk f p i (row + rowCount f i o) col := by
  rw [cellByte, cellByte, cellOf_shift f hi row col ho]
  rfl

theorem sampleLoc_strip (f : PixelFormat) (c : Chan) (x y : Nat) {o : Nat} (ho : o % 2 = 0) :
    sampleLoc f c x (y + o) = (sampleLoc f c x y).map fun l => ⟨l.plane, l.row + rowCount f l.plane o, l.col⟩ := by
  have e : (y + o) / 2 = y / 2 + o / 2 := by omega
  cases f <;> cases c <;> simp [sampleLoc, rowCount, e]

theorem stripPlanes_get (f : PixelFormat) (ps : List Plane) (o h i : Nat) :
    (stripPlanes f ps o h)[i]? = if i < planeCount f then ps[i]?.map (stripPlane f o h i) else none := by
  rw [stripPlanes, List.getElem?_mapIdx, List.getElem?_take]
  split <;> rfl

theorem stripPlanes_length {f : PixelFormat} {ps : List Plane} {w H : Nat} (hf : Fits f ps w H) (o h : Nat) :
    (stripPlanes f ps o h).length = planeCount f := by
  have := hf.1
  rw [stripPlanes, List.length_mapIdx, List.length_take]; omega

theorem stripPlanes_some {f : PixelFormat} {ps : List Plane} {o h i : Nat} {p : Plane}
    (hp : (stripPlanes f ps o h)[i]? = some p) : i < planeCount f ∧ ∃ q, ps[i]? = some q ∧ p = stripPlane f o h i q := by
  rw [stripPlanes_get] at hp
  split at hp
  · next hi =>
    rw [Option.map_eq_some_iff] at hp
    obtain ⟨q, hq, rfl⟩ := hp
    exact ⟨hi, q, hq, rfl⟩
  · cases hp

theorem Fits.strip {f : PixelFormat} {ps : List Plane} {w H : Nat} (hf : Fits f ps w H) {o h : Nat} (h1 : h ≤ H) :
    Fits f (stripPlanes f ps o h) w h := by
  refine ⟨Nat.le_of_eq (stripPlanes_length hf o h).symm, ?_⟩
  intro i hi p hp
  obtain ⟨-, q, hq, rfl⟩ := stripPlanes_some hp
  have hfit := hf.2 i hi q hq
  have := Nat.mul_le_mul_left q.stride (rowCount_mono f i h1)
  exact ⟨hfit.packed_usize, hfit.stride_ge, Nat.lt_of_le_of_lt this hfit.size_usize, Nat.le_refl _⟩

theorem UniformStrides.strip {f : PixelFormat} {ps : List Plane} (hu : UniformStrides f ps) (o h : Nat) :
    UniformStrides f (stripPlanes f ps o h) := by
  intro hy i hi p p0 hp hp0
  obtain ⟨-, q, hq, rfl⟩ := stripPlanes_some hp
  obtain ⟨-, q0, hq0, rfl⟩ := stripPlanes_some hp0
  exact hu hy i hi q q0 hq hq0

theorem Depicts.strip {f : PixelFormat} {ps : List Plane} {w H : Nat} {m : Mem} {V : Pic Nat}
    (hd : Depicts f ps w H m V) {o h : Nat} (ho : o % 2 = 0) (hoh : o + h ≤ H) :
    Depicts f (stripPlanes f ps o h) w h m (shiftPic o V) := by
  intro c X Y l hX hY hl
  have hl' := sampleLoc_strip f c X Y ho
  rw [hl, Option.map_some] at hl'
  have := hd c X (Y + o) _ hX (by omega) hl'
  rw [sample, hl', Option.bind_some, locAddr] at this
  rw [sample, hl, Option.bind_some, locAddr, stripPlanes_get]
  have hp : l.plane < planeCount f := by
    cases f <;> cases c <;> simp only [sampleLoc, Option.some.injEq, reduceCtorEq] at hl <;> subst hl <;> simp [planeCount]
  rw [if_pos hp]
  cases hq : ps[l.plane]? with
  | none => rw [hq] at this; cases this
  | some q =>
    rw [hq] at this
    simp only [Option.map_some] at this ⊢
    rw [show shiftPic o V c X Y = V c X (Y + o) from rfl, ← this]
    simp only [stripPlane]
    congr 2
    rw [Nat.add_mul, Nat.mul_comm (rowCount f l.plane o)]
    omega

/-! ## Writes to a strip -/

/-- A write to a strip as a write to the image. -/
def RowWrite.up (f : PixelFormat) (o : Nat) (r : RowWrite) : RowWrite := { r with row := r.row + rowCount f r.plane o }

theorem RowWrite.up_apply {f : PixelFormat} {ps : List Plane} {o h : Nat} {r : RowWrite}
    (hr : r.plane < planeCount f) (m : Mem) : r.apply (stripPlanes f ps o h) m = (r.up f o).apply ps m := by
  rw [RowWrite.apply, RowWrite.apply, stripPlanes_get, if_pos hr]
  simp only [RowWrite.up]
  cases ps[r.plane]? with
  | none => rfl
  | some q =>
    simp only [Option.map_some, stripPlane]
    congr 1
    rw [Nat.add_mul, Nat.mul_comm (rowCount f r.plane o)]
    omega

theorem RowWrite.Good.up {f : PixelFormat} {w h H o : Nat} {r : RowWrite} {blk : Blk F} {p : Pic F}
    (hr : r.Good f w h (cellByte blk f (shiftPic o p))) (ho : o % 2 = 0) (hoh : o + h ≤ H) :
    (r.up f o).Good f w H (cellByte blk f p) := by
  refine ⟨hr.plane, ?_, hr.col, ?_⟩
  · have h1 := hr.row
    have h2 := rowCount_mono f r.plane hoh
    rw [rowCount_even_add f r.plane h ho] at h2
    show r.row + rowCount f r.plane o < rowCount f r.plane H
    omega
  · intro j hj
    show r.val j = cellByte blk f p r.plane (r.row + rowCount f r.plane o) (r.col + j)
    rw [← cellByte_shift blk f p hr.plane _ _ ho]
    exact hr.val j hj

/-- The cells of strip rows `o .. o + h`. -/
def InStrip (f : PixelFormat) (o h i row col : Nat) : Prop :=
  o ≤ (cellOf f i row col).2.2.1 ∧ (cellOf f i row col).2.2.1 < o + h

/-- A visit to a strip as part of a visit to the image. -/
theorem VisitSound.up {v : Visitor F} {f : PixelFormat} {ps : List Plane} {m : Mem} {w h H o : Nat} {blk : Blk F}
    {p : Pic F} (hv : VisitSound v f (stripPlanes f ps o h) m w h blk (shiftPic o p)) (ho : o % 2 = 0)
    (hoh : o + h ≤ H) {B : Backend F} {x y : Nat} (hc : Call blk w h B x y) :
    ∃ ws : List RowWrite, v.prepare B x y m = .ok (ws.map (storeOf ps)) ∧
      (∀ r ∈ ws, r.Good f w H (cellByte blk f p)) ∧
      (∀ i row col, InDom f w H i row col → CellIn f B.LEN x (y + o) i row col → ∃ r ∈ ws, r.Covers i row col) ∧
      ∀ r ∈ ws, ∀ i row col, r.Covers i row col → InStrip f o h i row col := by
  obtain ⟨sts, ws, h1, h2, h3, h4, h5⟩ := hv B x y hc
  have ye := hc.ye
  have yh := hc.yh
  refine ⟨ws.map (RowWrite.up f o), ?_, ?_, ?_, ?_⟩
  · rw [h1, h2, List.map_map]
    congr 1
    apply List.map_congr_left
    intro r hr
    funext m'
    show Except.ok _ = storeOf ps (r.up f o) m'
    rw [storeOf, RowWrite.up_apply (h3 r hr).plane]
  · intro r hr
    obtain ⟨r', hr', rfl⟩ := List.mem_map.1 hr
    exact (h3 r' hr').up ho hoh
  · intro i row col hd hb
    have hrow : rowCount f i o ≤ row := by
      have b3 := hb.2.2.1
      have hi := hd.plane
      by_cases h0 : i = 0
      · subst h0
        cases f <;> simp only [cellOf, rowCount, if_true] at b3 ⊢ <;> (try split at b3) <;> (try dsimp only at b3) <;> omega
      · cases f <;> simp only [planeCount] at hi <;> first | omega | skip
        all_goals
          simp only [cellOf, rowCount, vsub, h0, if_false] at b3 ⊢
          omega
    obtain ⟨row', rfl⟩ : ∃ row', row = row' + rowCount f i o := ⟨row - rowCount f i o, by omega⟩
    have e := cellOf_shift f hd.plane row' col ho
    obtain ⟨b1, b2, b3, b4⟩ := hb
    rw [e] at b1 b2 b3 b4
    dsimp only at b1 b2 b3 b4
    have hd' : InDom f w h i row' col := by
      refine ⟨hd.plane, ?_, hd.col⟩
      have hi := hd.plane
      have b5 : (cellOf f i row' col).2.2.1 < y + 2 := by omega
      clear e b1 b2 b3 b4 h4 h5
      by_cases h0 : i = 0
      · subst h0
        cases f <;> simp only [cellOf, rowCount, if_true] at b5 ⊢ <;> (try split at b5) <;> (try dsimp only at b5) <;> omega
      · cases f <;> simp only [planeCount] at hi <;> first | omega | skip
        all_goals
          simp only [cellOf, rowCount, vsub, h0, if_false] at b5 ⊢
          omega
    obtain ⟨r, hr, g1, g2, g3, g4⟩ := h4 i row' col hd' b1 b2 (by omega) (by omega)
    refine ⟨r.up f o, List.mem_map.2 ⟨r, hr, rfl⟩, g1, ?_, g3, g4⟩
    show r.row + rowCount f r.plane o = _
    rw [g1, g2]
  · intro r hr i row col hcov
    obtain ⟨r', hr', rfl⟩ := List.mem_map.1 hr
    obtain ⟨g1, g2, g3, g4⟩ := hcov
    have g2 : r'.row + rowCount f r'.plane o = row := g2
    have g1 : r'.plane = i := g1
    subst g1 g2
    have e := cellOf_shift f (h3 r' hr').plane r'.row col ho
    obtain ⟨-, -, b3, b4⟩ := h5 r' hr' r'.plane r'.row col ⟨rfl, rfl, g3, g4⟩
    rw [InStrip, e]
    dsimp only
    omega

end Ezk

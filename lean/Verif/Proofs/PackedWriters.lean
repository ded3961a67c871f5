import Verif.Proofs.Writers

/-!
# Writers of the semi-planar and packed formats
-/

namespace Ezk
open FOps Spec

variable {F : Type} [FOps F]

/-- The prescribed bytes of a stretch of a row. -/
def goodRow (blk : Blk F) (f : PixelFormat) (pic : Pic F) (plane row col n : Nat) : RowWrite :=
  ⟨plane, row, col, n, fun j => cellByte blk f pic plane row (col + j)⟩

theorem goodRow_good {blk : Blk F} {f : PixelFormat} {pic : Pic F} {plane row col n w h : Nat} (h1 : plane < planeCount f)
    (h2 : row < rowCount f plane h) (h3 : col + n ≤ rowBytes f plane w) :
    (goodRow blk f pic plane row col n).Good f w h (cellByte blk f pic) :=
  ⟨h1, h2, h3, fun _ _ => rfl⟩

theorem concat_zip {B : Backend F} (hB : B.Lawful) (a b : B.V) (j : Nat) (h : j < 2 * B.LEN) :
    concat (B.zip a b).1 (B.zip a b).2 j h = interleave a b j h := by
  rw [concat]; split
  · rw [hB.zip_fst]
  · rw [hB.zip_snd]; congr 1; dsimp only; omega

section
variable {f : PixelFormat} {w h : Nat} {m : Mem} {blk : Blk F} {pic : Pic F} {py puv : Plane} {rest : List Plane}

theorem nv12Visitor_sound (hfit : Fits .NV12 (py :: puv :: rest) w h) {s : I420Src F} (hs : I420Sound s m w h blk pic) :
    VisitSound (nv12Visitor (primOf .NV12) py puv (maxValueForBits PixelFormat.NV12.bitsPerComponent) s) .NV12
      (py :: puv :: rest) m w h blk pic := by
  intro B x y hc
  obtain ⟨b, hr, hl⟩ := hs B x y hc
  have ⟨law, xe, ye, xw, yh, hblk⟩ := hc
  have hb := hfit.height hc.wpos
  have pos := B.pos
  have r0 : Room .u8 py.slice py.stride w h := Room.of_fits (hfit.2 0 (by decide) py rfl)
    (by simp [rowBytes, Prim.SIZE]) (by simp [rowCount])
  have r1 : Room .u8 puv.slice puv.stride w (h / 2) := Room.of_fits (hfit.2 1 (by decide) puv rfl)
    (by simp [rowBytes, Prim.SIZE]) (by simp [rowCount])
  have luma : ∀ (row : Nat) (v0 v1 : B.V), row < h → (∀ j : Fin B.LEN, v0 j = pic .Y (x + j) row) →
      (∀ j : Fin B.LEN, v1 j = pic .Y (x + B.LEN + j) row) → ∀ m,
      store2At .u8 B py row x (B.vmulf v0 (maxValueForBits PixelFormat.NV12.bitsPerComponent))
        (B.vmulf v1 (maxValueForBits PixelFormat.NV12.bitsPerComponent)) m =
      .ok ((goodRow blk .NV12 pic 0 row x (2 * B.LEN)).apply (py :: puv :: rest) m) := by
    intro row v0 v1 hrow h0 h1 m
    rw [store2At_eq law r0 hrow (by omega) _ _ (fun j => B.ar.mul (pic .Y (x + j) row) (maxSample .NV12))
      (concat_cols (x := x) (fun X => B.ar.mul (pic .Y X row) (maxSample .NV12)) _ _
        (fun k => by show B.ar.mul (v0 k) _ = _; rw [h0, maxSample_eq]; rfl)
        (fun k => by show B.ar.mul (v1 k) _ = _; rw [h1, maxSample_eq]; rfl)) m]
    simp only [RowWrite.apply, goodRow, List.getElem?_cons_zero]
    congr 1
    refine store_congr (by simp [Prim.SIZE]) (by simp [Prim.SIZE]) fun j hj hj' => ?_
    simp only [Prim.SIZE, Nat.div_one, Prim.byteOf]
    have har := hc.ar (X := x + j) (by omega) (by omega)
    simp only [cellByte, cellOf, if_pos, har]
    rfl
  have chroma : ∀ m,
      store2At .u8 B puv (y / 2) x (B.zip (B.vmulf b.u (maxValueForBits PixelFormat.NV12.bitsPerComponent))
        (B.vmulf b.v (maxValueForBits PixelFormat.NV12.bitsPerComponent))).1
        (B.zip (B.vmulf b.u (maxValueForBits PixelFormat.NV12.bitsPerComponent))
        (B.vmulf b.v (maxValueForBits PixelFormat.NV12.bitsPerComponent))).2 m =
      .ok ((goodRow blk .NV12 pic 1 (y / 2) x (2 * B.LEN)).apply (py :: puv :: rest) m) := by
    intro m
    rw [store2At_eq law r1 (by omega) (by omega) _ _
      (fun j => B.ar.mul (pic (if j % 2 = 0 then .U else .V) (x + 2 * (j / 2)) y) (maxSample .NV12))
      (fun j hj => by
        rw [concat_zip law, interleave]
        by_cases e : j % 2 = 0
        · rw [if_pos e, if_pos e]
          show B.ar.mul (b.u _) _ = _
          rw [(hl _).2.1, maxSample_eq]; rfl
        · rw [if_neg e, if_neg e]
          show B.ar.mul (b.v _) _ = _
          rw [(hl _).2.2, maxSample_eq]; rfl) m]
    simp only [RowWrite.apply, goodRow, List.getElem?_cons_succ, List.getElem?_cons_zero]
    congr 1
    refine store_congr (by simp [Prim.SIZE]) (by simp [Prim.SIZE]) fun j hj hj' => ?_
    simp only [Prim.SIZE, Nat.div_one, Prim.byteOf]
    have e1 : (x + j) / 2 * 2 = x + 2 * (j / 2) := by omega
    have e2 : (x + j) % 2 = j % 2 := by omega
    have e3 : y / 2 * 2 = y := by omega
    have har := hc.ar (X := x + 2 * (j / 2)) (by omega) (by omega)
    simp only [cellByte, cellOf, Nat.one_ne_zero, if_false, e1, e2, e3, har]
    rfl
  refine ⟨_, [goodRow blk .NV12 pic 0 y x (2 * B.LEN), goodRow blk .NV12 pic 0 (y + 1) x (2 * B.LEN),
      goodRow blk .NV12 pic 1 (y / 2) x (2 * B.LEN)],
    by simp only [nv12Visitor, hr, ok_bind, pure_ok]; rfl, ?_, ?_, ?_, ?_⟩
  · have ha : addP y 1 = .ok (y + 1) := addP_ok (by omega)
    simp only [List.map_cons, List.map_nil, ha, ok_bind]
    simp only [List.cons.injEq, and_true]
    refine ⟨?_, ?_, ?_⟩ <;> funext m
    · exact luma y _ _ (by omega) (fun j => (hl j).1.y00) (fun j => (hl j).1.y01) m
    · exact luma (y + 1) _ _ (by omega) (fun j => (hl j).1.y10) (fun j => (hl j).1.y11) m
    · exact chroma m
  · simp only [List.mem_cons, List.not_mem_nil, or_false]
    rintro r (rfl | rfl | rfl)
    all_goals refine goodRow_good (by decide) ?_ ?_
    all_goals simp [rowBytes, rowCount]
    all_goals omega
  · intro p row col hd
    have d1 := hd.plane
    have d2 := hd.row
    simp only [planeCount] at d1
    simp only [rowCount] at d2
    simp only [cellOf]
    simp only [List.mem_cons, List.not_mem_nil, or_false, exists_eq_or_imp, exists_eq_left, RowWrite.Covers, goodRow]
    by_cases hp : p = 0
    · rw [if_pos hp]
      subst hp
      dsimp only
      omega
    · rw [if_neg hp]
      dsimp only
      omega
  · simp only [List.mem_cons, List.not_mem_nil, or_false]
    rintro r (rfl | rfl | rfl) p row col ⟨rfl, rfl, c1, c2⟩
    all_goals simp only [goodRow] at c1 c2 ⊢
    all_goals simp only [cellOf, InBlock, if_true, Nat.one_ne_zero, if_false]
    all_goals omega

/-- A row of YUYV samples. -/
theorem writeYuyv_eq (hfit : Fits .YUYV (py :: rest) w h) {B : Backend F} {x y : Nat} (hc : Call blk w h B x y)
    {k row : Nat} (hk : k < 2) (hrow : row < h) {yv uv : B.V}
    (h0 : ∀ j : Fin B.LEN, yv j = B.ar.mul (pic .Y (x + k * B.LEN + j) row) (maxSample .YUYV))
    (h1 : ∀ j : Fin B.LEN, uv j = B.ar.mul (pic (if (k * B.LEN + j) % 2 = 0 then .U else .V)
      (x + 2 * ((k * B.LEN + j) / 2)) row) (maxSample .YUYV)) (m : Mem) :
    writeYuyv .u8 B py yv uv (row * py.stride + 2 * (x + k * B.LEN)) m =
      .ok ((goodRow blk .YUYV pic 0 row (2 * (x + k * B.LEN)) (2 * B.LEN)).apply (py :: rest) m) := by
  have ⟨law, xe, ye, xw, yh, hblk⟩ := hc
  have r0 : Room .u8 py.slice py.stride (2 * w) h := Room.of_fits (hfit.2 0 (by decide) py rfl)
    (by simp [rowBytes, Prim.SIZE]) (by simp [rowCount])
  have hkl : k * B.LEN ≤ B.LEN := by
    have : k = 0 ∨ k = 1 := by omega
    rcases this with rfl | rfl <;> omega
  have ho := r0.off (col := 2 * (x + k * B.LEN)) (n := 2 * B.LEN) hrow (by omega)
  simp only [Prim.SIZE, Nat.mul_one] at ho
  rw [writeYuyv]
  dsimp only
  rw [Slice.dropFrom, if_pos (by omega), ok_bind, Prim.write2x, law.writeU8_2x, if_pos (by dsimp only; omega)]
  simp only [RowWrite.apply, goodRow, List.getElem?_cons_zero]
  congr 1
  refine store_congr rfl rfl fun j hj hj' => ?_
  simp only [concat_zip law, interleave]
  simp only [cellByte, cellOf]
  have e1 : (2 * (x + k * B.LEN) + j) % 2 = j % 2 := by omega
  rw [e1]
  by_cases e : j % 2 = 0
  · rw [if_pos e, if_pos e, h0]
    have e2 : (2 * (x + k * B.LEN) + j) / 2 = x + k * B.LEN + j / 2 := by omega
    have har := hc.ar (X := x + k * B.LEN + j / 2) (by omega) (by omega)
    simp only [e2, har]
    rfl
  · rw [if_neg e, if_neg e, h1]
    have e2 : (2 * (x + k * B.LEN) + j) / 4 * 2 = x + 2 * ((k * B.LEN + j / 2) / 2) := by omega
    have e3 : ((2 * (x + k * B.LEN) + j) % 4 = 1) = ((k * B.LEN + j / 2) % 2 = 0) := by
      apply propext; omega
    have har := hc.ar (X := x + 2 * ((k * B.LEN + j / 2) / 2)) (by omega) (by omega)
    simp only [e2, e3, har]
    rfl

theorem yuyvVisitor_sound (hfit : Fits .YUYV (py :: rest) w h) {s : I422Src F} (hs : I422Sound s m w h blk pic) :
    VisitSound (yuyvVisitor (primOf .YUYV) py (maxValueForBits PixelFormat.YUYV.bitsPerComponent) s) .YUYV
      (py :: rest) m w h blk pic := by
  intro B x y hc
  obtain ⟨b, hr, hl⟩ := hs B x y hc
  have ⟨law, xe, ye, xw, yh, hblk⟩ := hc
  have hb := hfit.height hc.wpos
  have pos := B.pos
  have r0 : Room .u8 py.slice py.stride (2 * w) h := Room.of_fits (hfit.2 0 (by decide) py rfl)
    (by simp [rowBytes, Prim.SIZE]) (by simp [rowCount])
  have off : ∀ row < h, offset row py.stride (x * 2) (primOf .YUYV).SIZE = .ok (row * py.stride + 2 * (x + 0 * B.LEN)) := by
    intro row hrow
    have := r0.offset (row := row) (col := x * 2) hrow (by omega)
    show offset row py.stride (x * 2) Prim.u8.SIZE = _
    rw [this]; congr 1; simp only [Prim.SIZE]; omega
  have o0 := fun row (hrow : row < h) => (r0.off (col := 2 * (x + B.LEN)) (n := 2 * B.LEN) hrow (by omega)).2
  simp only [Prim.SIZE, Nat.mul_one] at o0
  have ha : addP y 1 = .ok (y + 1) := addP_ok (by omega)
  have oy := o0 y (by omega)
  have oy1 := o0 (y + 1) (by omega)
  have hx : mulP x 2 = .ok (x * 2) := mulP_ok (by omega)
  have hh1 : mulP B.LEN 2 = .ok (B.LEN * 2) := mulP_ok (by omega)
  have hh2 : mulP (B.LEN * 2) (primOf .YUYV).SIZE = .ok (B.LEN * 2) := by
    show mulP (B.LEN * 2) 1 = _
    rw [mulP_ok (by omega), Nat.mul_one]
  have add : ∀ row < h, addP (row * py.stride + 2 * (x + 0 * B.LEN)) (B.LEN * 2) =
      .ok (row * py.stride + 2 * (x + 1 * B.LEN)) := by
    intro row hrow
    have := o0 row hrow
    rw [addP_ok (by omega)]; congr 1; omega
  have uv : ∀ (k row : Nat) (u v : B.V) (hk : k < 2), (∀ j : Fin B.LEN, u j = pic .U (x + 2 * j) row) →
      (∀ j : Fin B.LEN, v j = pic .V (x + 2 * j) row) → ∀ j : Fin B.LEN,
      interleave (B.vmulf u (maxValueForBits PixelFormat.YUYV.bitsPerComponent))
        (B.vmulf v (maxValueForBits PixelFormat.YUYV.bitsPerComponent)) (k * B.LEN + j)
        (by have : k * B.LEN ≤ 1 * B.LEN := Nat.mul_le_mul_right _ (by omega)
            omega) =
      B.ar.mul (pic (if (k * B.LEN + j) % 2 = 0 then .U else .V) (x + 2 * ((k * B.LEN + j) / 2)) row)
        (maxSample .YUYV) := by
    intro k row u v hk hu hv j
    rw [interleave]
    by_cases e : (k * B.LEN + j) % 2 = 0
    · rw [if_pos e, if_pos e]
      show B.ar.mul (u _) _ = _
      rw [hu, maxSample_eq]; rfl
    · rw [if_neg e, if_neg e]
      show B.ar.mul (v _) _ = _
      rw [hv, maxSample_eq]; rfl
  have uv0 : ∀ (row : Nat) (u v : B.V), (∀ j : Fin B.LEN, u j = pic .U (x + 2 * j) row) →
      (∀ j : Fin B.LEN, v j = pic .V (x + 2 * j) row) → ∀ j : Fin B.LEN,
      (B.zip (B.vmulf u (maxValueForBits PixelFormat.YUYV.bitsPerComponent))
        (B.vmulf v (maxValueForBits PixelFormat.YUYV.bitsPerComponent))).1 j =
      B.ar.mul (pic (if (0 * B.LEN + j) % 2 = 0 then .U else .V) (x + 2 * ((0 * B.LEN + j) / 2)) row)
        (maxSample .YUYV) := by
    intro row u v hu hv j
    rw [law.zip_fst, ← uv 0 row u v (by omega) hu hv]; congr 1; rw [Nat.zero_mul, Nat.zero_add]
  have uv1 : ∀ (row : Nat) (u v : B.V), (∀ j : Fin B.LEN, u j = pic .U (x + 2 * j) row) →
      (∀ j : Fin B.LEN, v j = pic .V (x + 2 * j) row) → ∀ j : Fin B.LEN,
      (B.zip (B.vmulf u (maxValueForBits PixelFormat.YUYV.bitsPerComponent))
        (B.vmulf v (maxValueForBits PixelFormat.YUYV.bitsPerComponent))).2 j =
      B.ar.mul (pic (if (1 * B.LEN + j) % 2 = 0 then .U else .V) (x + 2 * ((1 * B.LEN + j) / 2)) row)
        (maxSample .YUYV) := by
    intro row u v hu hv j
    rw [law.zip_snd, ← uv 1 row u v (by omega) hu hv]; congr 1; rw [Nat.one_mul]
  have lum : ∀ (k row : Nat) (v : B.V), (∀ j : Fin B.LEN, v j = pic .Y (x + k * B.LEN + j) row) → ∀ j : Fin B.LEN,
      B.vmulf v (maxValueForBits PixelFormat.YUYV.bitsPerComponent) j =
        B.ar.mul (pic .Y (x + k * B.LEN + j) row) (maxSample .YUYV) := by
    intro k row v hv j
    show B.ar.mul (v j) _ = _
    rw [hv, maxSample_eq]; rfl
  refine ⟨_, [goodRow blk .YUYV pic 0 y (2 * (x + 0 * B.LEN)) (2 * B.LEN),
      goodRow blk .YUYV pic 0 y (2 * (x + 1 * B.LEN)) (2 * B.LEN),
      goodRow blk .YUYV pic 0 (y + 1) (2 * (x + 0 * B.LEN)) (2 * B.LEN),
      goodRow blk .YUYV pic 0 (y + 1) (2 * (x + 1 * B.LEN)) (2 * B.LEN)],
    by simp only [yuyvVisitor, hr, ok_bind, pure_ok]; rfl, ?_, ?_, ?_, ?_⟩
  · simp only [List.map_cons, List.map_nil, ha, hx, hh1, hh2, ok_bind, off y (by omega), off (y + 1) (by omega),
      add y (by omega), add (y + 1) (by omega)]
    simp only [List.cons.injEq, and_true]
    refine ⟨?_, ?_, ?_, ?_⟩ <;> funext m
    · exact writeYuyv_eq hfit hc (by omega) (by omega) (lum 0 y _ fun j => by rw [(hl j).1.y00]; congr 1; omega)
        (uv0 y _ _ (fun j => (hl j).2.1) (fun j => (hl j).2.2.2.1)) m
    · exact writeYuyv_eq hfit hc (by omega) (by omega) (lum 1 y _ fun j => by rw [(hl j).1.y01]; congr 1; omega)
        (uv1 y _ _ (fun j => (hl j).2.1) (fun j => (hl j).2.2.2.1)) m
    · exact writeYuyv_eq hfit hc (by omega) (by omega) (lum 0 (y + 1) _ fun j => by rw [(hl j).1.y10]; congr 1; omega)
        (uv0 (y + 1) _ _ (fun j => (hl j).2.2.1) (fun j => (hl j).2.2.2.2)) m
    · exact writeYuyv_eq hfit hc (by omega) (by omega) (lum 1 (y + 1) _ fun j => by rw [(hl j).1.y11]; congr 1; omega)
        (uv1 (y + 1) _ _ (fun j => (hl j).2.2.1) (fun j => (hl j).2.2.2.2)) m
  · simp only [List.mem_cons, List.not_mem_nil, or_false]
    rintro r (rfl | rfl | rfl | rfl)
    all_goals refine goodRow_good (by decide) ?_ ?_
    all_goals simp only [rowBytes, rowCount]
    all_goals omega
  · intro p row col hd
    have d1 := hd.plane
    simp only [planeCount] at d1
    simp only [cellOf]
    simp only [List.mem_cons, List.not_mem_nil, or_false, exists_eq_or_imp, exists_eq_left, RowWrite.Covers, goodRow]
    by_cases e : col % 2 = 0
    · rw [if_pos e]; dsimp only; omega
    · rw [if_neg e]; dsimp only; omega
  · simp only [List.mem_cons, List.not_mem_nil, or_false]
    rintro r (rfl | rfl | rfl | rfl) p row col ⟨rfl, rfl, c1, c2⟩
    all_goals simp only [goodRow] at c1 c2 ⊢
    all_goals simp only [cellOf, InBlock]
    all_goals split <;> dsimp only <;> omega

/-- The channels of a format in the order of memory. -/
def rgbChan (f : PixelFormat) (k : Nat) : Chan :=
  match k with
  | 0 => if isReverse f then .B else .R
  | 1 => .G
  | 2 => if isReverse f then .R else .B
  | _ => .A

theorem multiply3 {B : Backend F} (f : PixelFormat) {q : RgbaPixel B.V} {i : Fin B.LEN} {X Y : Nat} (hq : IsPx q i pic X Y)
    (k : Fin 3) : multiplyAndReverse3 B (isReverse f) (maxValueForBits f.bitsPerComponent) q k i =
      B.ar.mul (pic (rgbChan f k) X Y) (maxSample f) := by
  rw [multiplyAndReverse3, maxSample_eq]
  unfold rgbChan
  cases isReverse f <;>
  · match k with
    | 0 => first | exact congrArg (B.ar.mul · _) hq.r | exact congrArg (B.ar.mul · _) hq.b
    | 1 => exact congrArg (B.ar.mul · _) hq.g
    | 2 => first | exact congrArg (B.ar.mul · _) hq.r | exact congrArg (B.ar.mul · _) hq.b

theorem multiply4 {B : Backend F} (f : PixelFormat) {q : RgbaPixel B.V} {i : Fin B.LEN} {X Y : Nat} (hq : IsPx q i pic X Y)
    (k : Fin 4) : multiplyAndReverse4 B (isReverse f) (maxValueForBits f.bitsPerComponent) q k i =
      B.ar.mul (pic (rgbChan f k) X Y) (maxSample f) := by
  rw [multiplyAndReverse4, maxSample_eq]
  unfold rgbChan
  cases isReverse f <;>
  · match k with
    | 0 => first | exact congrArg (B.ar.mul · _) hq.r | exact congrArg (B.ar.mul · _) hq.b
    | 1 => exact congrArg (B.ar.mul · _) hq.g
    | 2 => first | exact congrArg (B.ar.mul · _) hq.r | exact congrArg (B.ar.mul · _) hq.b
    | 3 => exact congrArg (B.ar.mul · _) hq.a

theorem cellOf_rgb (hf : f = .RGB ∨ f = .BGR) (p row col : Nat) :
    cellOf f p row col = (rgbChan f (col % 3), col / 3, row, 0) := by
  have : col % 3 = 0 ∨ col % 3 = 1 ∨ col % 3 = 2 := by omega
  rcases hf with rfl | rfl <;> rcases this with e | e | e <;> simp [cellOf, rgbChan, isReverse, e]

theorem cellOf_rgba (hf : f = .RGBA ∨ f = .BGRA) (p row col : Nat) :
    cellOf f p row col = (rgbChan f (col % 4), col / 4, row, 0) := by
  have : col % 4 = 0 ∨ col % 4 = 1 ∨ col % 4 = 2 ∨ col % 4 = 3 := by omega
  rcases hf with rfl | rfl <;> rcases this with e | e | e | e <;> simp [cellOf, rgbChan, isReverse, e]

theorem rgbVisitor_sound (hf : f = .RGB ∨ f = .BGR) (hfit : Fits f (py :: rest) w h) {s : RgbaSrc F}
    (hs : RgbaSound s m w h blk pic) :
    VisitSound (rgbVisitor (isReverse f) py (maxValueForBits f.bitsPerComponent) s) f (py :: rest) m w h blk pic := by
  intro B x y hc
  obtain ⟨b, hr, hl⟩ := hs B x y hc
  have ⟨law, xe, ye, xw, yh, hblk⟩ := hc
  have hb := hfit.height hc.wpos
  have pos := B.pos
  have hrb : rowBytes f 0 w = 3 * w := by rcases hf with rfl | rfl <;> rfl
  have hrc : ∀ h, rowCount f 0 h = h := by rcases hf with rfl | rfl <;> exact fun _ => rfl
  have hpc : planeCount f = 1 := by rcases hf with rfl | rfl <;> rfl
  have hbo : ∀ (ar : Arith F) v k, byteOf f ar v k = ar.q8i v := by
    rcases hf with rfl | rfl <;> exact fun _ _ _ => rfl
  have r0 : Room .u8 py.slice py.stride (3 * w) h := Room.of_fits (hfit.2 0 (by omega) py rfl)
    (by simp [Prim.SIZE, hrb]) (Nat.le_of_eq (hrc h).symm)
  have key : ∀ (row : Nat) (q0 q1 : RgbaPixel B.V), row < h → (∀ i, IsPx q0 i pic (x + i) row) →
      (∀ i, IsPx q1 i pic (x + B.LEN + i) row) → ∀ m,
      (mulP x 3 >>= fun a => offset row py.stride a Prim.u8.SIZE >>= fun off => py.slice.dropFrom off >>= fun t =>
        B.writeU8x3 (pair (multiplyAndReverse3 B (isReverse f) (maxValueForBits f.bitsPerComponent) q0)
          (multiplyAndReverse3 B (isReverse f) (maxValueForBits f.bitsPerComponent) q1)) m t) =
      .ok ((goodRow blk f pic 0 row (3 * x) (6 * B.LEN)).apply (py :: rest) m) := by
    intro row q0 q1 hrow h0 h1 m
    have ho := r0.off (col := x * 3) (n := 6 * B.LEN) hrow (by omega)
    have he := r0.offset (col := x * 3) hrow (by omega)
    rw [mulP_ok (by simp only [Prim.SIZE] at ho; omega), ok_bind, he, ok_bind]
    simp only [Prim.SIZE, Nat.mul_one] at ho ⊢
    rw [Slice.dropFrom, if_pos (by omega), ok_bind, law.writeU8x3, if_pos (by dsimp only; omega)]
    simp only [RowWrite.apply, goodRow, List.getElem?_cons_zero]
    congr 1
    refine store_congr (by omega) rfl fun j hj hj' => ?_
    have e1 : (3 * x + j) % 3 = j % 3 := by omega
    have e2 : (3 * x + j) / 3 = x + j / 3 := by omega
    have har := hc.ar (X := x + j / 3) (by omega) (by omega)
    simp only [cellByte, cellOf_rgb hf, e1, e2, har, hbo]
    congr 1
    exact concat_cols (x := x) (fun X => B.ar.mul (pic (rgbChan f (j % 3)) X row) (maxSample f)) _ _
      (fun i => multiply3 f (h0 i) ⟨j % 3, _⟩) (fun i => multiply3 f (h1 i) ⟨j % 3, _⟩) _ _
  refine ⟨_, [goodRow blk f pic 0 y (3 * x) (6 * B.LEN), goodRow blk f pic 0 (y + 1) (3 * x) (6 * B.LEN)],
    by simp only [rgbVisitor, hr, ok_bind, pure_ok]; rfl, ?_, ?_, ?_, ?_⟩
  · have ha : addP y 1 = .ok (y + 1) := addP_ok (by omega)
    simp only [List.map_cons, List.map_nil, ha, ok_bind]
    simp only [List.cons.injEq, and_true]
    refine ⟨?_, ?_⟩ <;> funext m
    · exact key y _ _ (by omega) (fun i => (hl i).1) (fun i => (hl i).2.1) m
    · exact key (y + 1) _ _ (by omega) (fun i => (hl i).2.2.1) (fun i => (hl i).2.2.2) m
  · simp only [List.mem_cons, List.not_mem_nil, or_false]
    rintro r (rfl | rfl)
    all_goals refine goodRow_good (by omega) ?_ ?_
    all_goals simp only [hrb, hrc]
    all_goals omega
  · intro p row col hd
    have d1 := hd.plane
    rw [hpc] at d1
    rw [cellOf_rgb hf]
    simp only [List.mem_cons, List.not_mem_nil, or_false, exists_eq_or_imp, exists_eq_left, RowWrite.Covers, goodRow]
    omega
  · simp only [List.mem_cons, List.not_mem_nil, or_false]
    rintro r (rfl | rfl) p row col ⟨rfl, rfl, c1, c2⟩
    all_goals simp only [goodRow] at c1 c2 ⊢
    all_goals rw [cellOf_rgb hf]
    all_goals simp only [InBlock]
    all_goals omega

theorem rgbaVisitor_sound (hf : f = .RGBA ∨ f = .BGRA) (hfit : Fits f (py :: rest) w h) {s : RgbaSrc F}
    (hs : RgbaSound s m w h blk pic) :
    VisitSound (rgbaVisitor (isReverse f) py (maxValueForBits f.bitsPerComponent) s) f (py :: rest) m w h blk pic := by
  intro B x y hc
  obtain ⟨b, hr, hl⟩ := hs B x y hc
  have ⟨law, xe, ye, xw, yh, hblk⟩ := hc
  have hb := hfit.height hc.wpos
  have pos := B.pos
  have hrb : rowBytes f 0 w = 4 * w := by rcases hf with rfl | rfl <;> rfl
  have hrc : ∀ h, rowCount f 0 h = h := by rcases hf with rfl | rfl <;> exact fun _ => rfl
  have hpc : planeCount f = 1 := by rcases hf with rfl | rfl <;> rfl
  have hbo : ∀ (ar : Arith F) v k, byteOf f ar v k = ar.q8i v := by
    rcases hf with rfl | rfl <;> exact fun _ _ _ => rfl
  have r0 : Room .u8 py.slice py.stride (4 * w) h := Room.of_fits (hfit.2 0 (by omega) py rfl)
    (by simp [Prim.SIZE, hrb]) (Nat.le_of_eq (hrc h).symm)
  have key : ∀ (row : Nat) (q0 q1 : RgbaPixel B.V), row < h → (∀ i, IsPx q0 i pic (x + i) row) →
      (∀ i, IsPx q1 i pic (x + B.LEN + i) row) → ∀ m,
      (mulP x 4 >>= fun a => offset row py.stride a Prim.u8.SIZE >>= fun off => py.slice.dropFrom off >>= fun t =>
        B.writeU8x4 (pair (multiplyAndReverse4 B (isReverse f) (maxValueForBits f.bitsPerComponent) q0)
          (multiplyAndReverse4 B (isReverse f) (maxValueForBits f.bitsPerComponent) q1)) m t) =
      .ok ((goodRow blk f pic 0 row (4 * x) (8 * B.LEN)).apply (py :: rest) m) := by
    intro row q0 q1 hrow h0 h1 m
    have ho := r0.off (col := x * 4) (n := 8 * B.LEN) hrow (by omega)
    have he := r0.offset (col := x * 4) hrow (by omega)
    rw [mulP_ok (by simp only [Prim.SIZE] at ho; omega), ok_bind, he, ok_bind]
    simp only [Prim.SIZE, Nat.mul_one] at ho ⊢
    rw [Slice.dropFrom, if_pos (by omega), ok_bind, law.writeU8x4, if_pos (by dsimp only; omega)]
    simp only [RowWrite.apply, goodRow, List.getElem?_cons_zero]
    congr 1
    refine store_congr (by omega) rfl fun j hj hj' => ?_
    have e1 : (4 * x + j) % 4 = j % 4 := by omega
    have e2 : (4 * x + j) / 4 = x + j / 4 := by omega
    have har := hc.ar (X := x + j / 4) (by omega) (by omega)
    simp only [cellByte, cellOf_rgba hf, e1, e2, har, hbo]
    congr 1
    exact concat_cols (x := x) (fun X => B.ar.mul (pic (rgbChan f (j % 4)) X row) (maxSample f)) _ _
      (fun i => multiply4 f (h0 i) ⟨j % 4, _⟩) (fun i => multiply4 f (h1 i) ⟨j % 4, _⟩) _ _
  refine ⟨_, [goodRow blk f pic 0 y (4 * x) (8 * B.LEN), goodRow blk f pic 0 (y + 1) (4 * x) (8 * B.LEN)],
    by simp only [rgbaVisitor, hr, ok_bind, pure_ok]; rfl, ?_, ?_, ?_, ?_⟩
  · have ha : addP y 1 = .ok (y + 1) := addP_ok (by omega)
    simp only [List.map_cons, List.map_nil, ha, ok_bind]
    simp only [List.cons.injEq, and_true]
    refine ⟨?_, ?_⟩ <;> funext m
    · exact key y _ _ (by omega) (fun i => (hl i).1) (fun i => (hl i).2.1) m
    · exact key (y + 1) _ _ (by omega) (fun i => (hl i).2.2.1) (fun i => (hl i).2.2.2) m
  · simp only [List.mem_cons, List.not_mem_nil, or_false]
    rintro r (rfl | rfl)
    all_goals refine goodRow_good (by omega) ?_ ?_
    all_goals simp only [hrb, hrc]
    all_goals omega
  · intro p row col hd
    have d1 := hd.plane
    rw [hpc] at d1
    rw [cellOf_rgba hf]
    simp only [List.mem_cons, List.not_mem_nil, or_false, exists_eq_or_imp, exists_eq_left, RowWrite.Covers, goodRow]
    omega
  · simp only [List.mem_cons, List.not_mem_nil, or_false]
    rintro r (rfl | rfl) p row col ⟨rfl, rfl, c1, c2⟩
    all_goals simp only [goodRow] at c1 c2 ⊢
    all_goals rw [cellOf_rgba hf]
    all_goals simp only [InBlock]
    all_goals omega

end
end Ezk

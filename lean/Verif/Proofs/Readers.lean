import Verif.Proofs.Sound

/-!
# The readers read the samples of their block
-/

namespace Ezk
open FOps Spec

variable {F : Type} [FOps F]

section
variable {blk : Blk F} {w h : Nat} {B : Backend F} {x y : Nat}

theorem addP_row {P : Prim} {s : Slice} {stride cols rows row : Nat} (hr : Room P s stride cols rows)
    (h1 : row + 1 < rows) (hs : 0 < stride ∨ rows < usizeSize) : addP row 1 = .ok (row + 1) := by
  apply addP_ok
  rcases hs with hs | hs
  · have := hr.usize (row + 1) h1
    have h2 : (row + 1) * 1 ≤ (row + 1) * stride := Nat.mul_le_mul_left _ hs
    omega
  · omega

/-- The block read from three planes with 2×2 chroma. -/
theorem I420Reader.read_eq (hc : Call blk w h B x y) (hh : h < usizeSize) (R : I420Reader F) (m : Mem)
    (hy : Room R.P R.y.slice R.y.stride w h)
    (hu : Room R.P R.u.slice R.u.stride (w / 2) (h / 2))
    (hv : Room R.P R.v.slice R.v.stride (w / 2) (h / 2)) :
    R.read B m x y = .ok
      { y00 := B.vdivf (fun i => cell R.P m R.y.slice R.y.stride y (x + i)) R.maxValue
        y01 := B.vdivf (fun i => cell R.P m R.y.slice R.y.stride y (x + B.LEN + i)) R.maxValue
        y10 := B.vdivf (fun i => cell R.P m R.y.slice R.y.stride (y + 1) (x + i)) R.maxValue
        y11 := B.vdivf (fun i => cell R.P m R.y.slice R.y.stride (y + 1) (x + B.LEN + i)) R.maxValue
        u := B.vdivf (fun i => cell R.P m R.u.slice R.u.stride (y / 2) (x / 2 + i)) R.maxValue
        v := B.vdivf (fun i => cell R.P m R.v.slice R.v.stride (y / 2) (x / 2 + i)) R.maxValue } := by
  obtain ⟨law, xe, ye, xw, yh, -⟩ := hc
  have := B.pos
  simp only [I420Reader.read, hy.offset (row := y) (col := x) (by omega) (by omega),
    hy.offset (row := y + 1) (col := x) (by omega) (by omega),
    hu.offset (row := y / 2) (col := x / 2) (by omega) (by omega),
    hv.offset (row := y / 2) (col := x / 2) (by omega) (by omega),
    addP_row hy (row := y) (by omega) (.inr hh), ok_bind,
    hy.load law (row := y) (col := x) (by omega) (by omega) m,
    hy.load2 law (row := y) (col := x) (by omega) (by omega) m,
    hy.load law (row := y + 1) (col := x) (by omega) (by omega) m,
    hy.load2 law (row := y + 1) (col := x) (by omega) (by omega) m,
    hu.load law (row := y / 2) (col := x / 2) (by omega) (by omega) m,
    hv.load law (row := y / 2) (col := x / 2) (by omega) (by omega) m, pure_ok]

/-- The block read from a luma plane and an interleaved chroma plane. -/
theorem NV12Reader.read_eq (hc : Call blk w h B x y) (hh : h < usizeSize) (R : NV12Reader F) (m : Mem)
    (hy : Room R.P R.y.slice R.y.stride w h)
    (huv : Room R.P R.uv.slice R.uv.stride w (h / 2)) :
    ∃ u v, R.read B m x y = .ok
      { y00 := B.vdivf (fun i => cell R.P m R.y.slice R.y.stride y (x + i)) R.maxValue
        y01 := B.vdivf (fun i => cell R.P m R.y.slice R.y.stride y (x + B.LEN + i)) R.maxValue
        y10 := B.vdivf (fun i => cell R.P m R.y.slice R.y.stride (y + 1) (x + i)) R.maxValue
        y11 := B.vdivf (fun i => cell R.P m R.y.slice R.y.stride (y + 1) (x + B.LEN + i)) R.maxValue
        u := B.vdivf u R.maxValue
        v := B.vdivf v R.maxValue } ∧
      ∀ i : Fin B.LEN, u i = cell R.P m R.uv.slice R.uv.stride (y / 2) (x + 2 * i) ∧
        v i = cell R.P m R.uv.slice R.uv.stride (y / 2) (x + 2 * i + 1) := by
  obtain ⟨law, xe, ye, xw, yh, -⟩ := hc
  have := B.pos
  simp only [NV12Reader.read, hy.offset (row := y) (col := x) (by omega) (by omega),
    hy.offset (row := y + 1) (col := x) (by omega) (by omega),
    huv.offset (row := y / 2) (col := x) (by omega) (by omega),
    addP_row hy (row := y) (by omega) (.inr hh), ok_bind,
    hy.load law (row := y) (col := x) (by omega) (by omega) m,
    hy.load2 law (row := y) (col := x) (by omega) (by omega) m,
    hy.load law (row := y + 1) (col := x) (by omega) (by omega) m,
    hy.load2 law (row := y + 1) (col := x) (by omega) (by omega) m,
    huv.load law (row := y / 2) (col := x) (by omega) (by omega) m,
    huv.load2 law (row := y / 2) (col := x) (by omega) (by omega) m, pure_ok]
  refine ⟨_, _, rfl, fun i => ⟨?_, ?_⟩⟩
  · rw [law.unzip_fst, concat]
    split
    · rfl
    · simp only; congr 1; omega
  · rw [law.unzip_snd, concat]
    split
    · rfl
    · simp only; congr 1; omega

/-- The block read from three planes with 2×1 chroma. -/
theorem I422Reader.read_eq (hc : Call blk w h B x y) (hh : h < usizeSize) (R : I422Reader F) (m : Mem)
    (hy : Room R.P R.y.slice R.y.stride w h)
    (hu : Room R.P R.u.slice R.u.stride (w / 2) h)
    (hv : Room R.P R.v.slice R.v.stride (w / 2) h) :
    R.read B m x y = .ok
      { y00 := B.vdivf (fun i => cell R.P m R.y.slice R.y.stride y (x + i)) R.maxValue
        y01 := B.vdivf (fun i => cell R.P m R.y.slice R.y.stride y (x + B.LEN + i)) R.maxValue
        y10 := B.vdivf (fun i => cell R.P m R.y.slice R.y.stride (y + 1) (x + i)) R.maxValue
        y11 := B.vdivf (fun i => cell R.P m R.y.slice R.y.stride (y + 1) (x + B.LEN + i)) R.maxValue
        u0 := B.vdivf (fun i => cell R.P m R.u.slice R.u.stride y (x / 2 + i)) R.maxValue
        u1 := B.vdivf (fun i => cell R.P m R.u.slice R.u.stride (y + 1) (x / 2 + i)) R.maxValue
        v0 := B.vdivf (fun i => cell R.P m R.v.slice R.v.stride y (x / 2 + i)) R.maxValue
        v1 := B.vdivf (fun i => cell R.P m R.v.slice R.v.stride (y + 1) (x / 2 + i)) R.maxValue } := by
  obtain ⟨law, xe, ye, xw, yh, -⟩ := hc
  have := B.pos
  simp only [I422Reader.read, hy.offset (row := y) (col := x) (by omega) (by omega),
    hy.offset (row := y + 1) (col := x) (by omega) (by omega),
    hu.offset (row := y) (col := x / 2) (by omega) (by omega),
    hv.offset (row := y) (col := x / 2) (by omega) (by omega),
    hu.offset (row := y + 1) (col := x / 2) (by omega) (by omega),
    hv.offset (row := y + 1) (col := x / 2) (by omega) (by omega),
    addP_row hy (row := y) (by omega) (.inr hh), ok_bind,
    hy.load law (row := y) (col := x) (by omega) (by omega) m,
    hy.load2 law (row := y) (col := x) (by omega) (by omega) m,
    hy.load law (row := y + 1) (col := x) (by omega) (by omega) m,
    hy.load2 law (row := y + 1) (col := x) (by omega) (by omega) m,
    hu.load law (row := y) (col := x / 2) (by omega) (by omega) m,
    hv.load law (row := y) (col := x / 2) (by omega) (by omega) m,
    hu.load law (row := y + 1) (col := x / 2) (by omega) (by omega) m,
    hv.load law (row := y + 1) (col := x / 2) (by omega) (by omega) m, pure_ok]

/-- The second-row offsets of U and V use the stride of Y, so there must be room in these planes for that stride. -/
theorem I444Reader.read_eq (hc : Call blk w h B x y) (hh : h < usizeSize) (R : I444Reader F) (m : Mem)
    (hy : Room R.P R.y.slice R.y.stride w h)
    (hu : Room R.P R.u.slice R.u.stride w h) (hv : Room R.P R.v.slice R.v.stride w h)
    (hu' : Room R.P R.u.slice R.y.stride w h) (hv' : Room R.P R.v.slice R.y.stride w h) :
    R.read B m x y = .ok
      { px00 := ⟨B.vdivf (fun i => cell R.P m R.y.slice R.y.stride y (x + i)) R.maxValue,
                 B.vdivf (fun i => cell R.P m R.u.slice R.u.stride y (x + i)) R.maxValue,
                 B.vdivf (fun i => cell R.P m R.v.slice R.v.stride y (x + i)) R.maxValue⟩
        px01 := ⟨B.vdivf (fun i => cell R.P m R.y.slice R.y.stride y (x + B.LEN + i)) R.maxValue,
                 B.vdivf (fun i => cell R.P m R.u.slice R.u.stride y (x + B.LEN + i)) R.maxValue,
                 B.vdivf (fun i => cell R.P m R.v.slice R.v.stride y (x + B.LEN + i)) R.maxValue⟩
        px10 := ⟨B.vdivf (fun i => cell R.P m R.y.slice R.y.stride (y + 1) (x + i)) R.maxValue,
                 B.vdivf (fun i => cell R.P m R.u.slice R.y.stride (y + 1) (x + i)) R.maxValue,
                 B.vdivf (fun i => cell R.P m R.v.slice R.y.stride (y + 1) (x + i)) R.maxValue⟩
        px11 := ⟨B.vdivf (fun i => cell R.P m R.y.slice R.y.stride (y + 1) (x + B.LEN + i)) R.maxValue,
                 B.vdivf (fun i => cell R.P m R.u.slice R.y.stride (y + 1) (x + B.LEN + i)) R.maxValue,
                 B.vdivf (fun i => cell R.P m R.v.slice R.y.stride (y + 1) (x + B.LEN + i)) R.maxValue⟩ } := by
  obtain ⟨law, xe, ye, xw, yh, -⟩ := hc
  have := B.pos
  simp only [I444Reader.read, hy.offset (row := y) (col := x) (by omega) (by omega),
    hy.offset (row := y + 1) (col := x) (by omega) (by omega),
    hu.offset (row := y) (col := x) (by omega) (by omega),
    hv.offset (row := y) (col := x) (by omega) (by omega),
    addP_row hy (row := y) (by omega) (.inr hh), ok_bind,
    hy.load law (row := y) (col := x) (by omega) (by omega) m,
    hy.load2 law (row := y) (col := x) (by omega) (by omega) m,
    hy.load law (row := y + 1) (col := x) (by omega) (by omega) m,
    hy.load2 law (row := y + 1) (col := x) (by omega) (by omega) m,
    hu.load law (row := y) (col := x) (by omega) (by omega) m,
    hu.load2 law (row := y) (col := x) (by omega) (by omega) m,
    hu'.load law (row := y + 1) (col := x) (by omega) (by omega) m,
    hu'.load2 law (row := y + 1) (col := x) (by omega) (by omega) m,
    hv.load law (row := y) (col := x) (by omega) (by omega) m,
    hv.load2 law (row := y) (col := x) (by omega) (by omega) m,
    hv'.load law (row := y + 1) (col := x) (by omega) (by omega) m,
    hv'.load2 law (row := y + 1) (col := x) (by omega) (by omega) m, pure_ok]

/-- `read_yuyv`: `2·LEN` samples at column `col`, even ones first. -/
theorem YUYVReader.readYuyv_eq (law : B.Lawful) (R : YUYVReader F) (m : Mem) {cols rows row col : Nat}
    (hr : Room R.P R.yuyv.slice R.yuyv.stride cols rows) (h1 : row < rows) (h2 : col + 2 * B.LEN ≤ cols) :
    ∃ a b, R.readYuyv B m (row * R.yuyv.stride + col * R.P.SIZE) = .ok (a, b) ∧
      ∀ i : Fin B.LEN, a i = cell R.P m R.yuyv.slice R.yuyv.stride row (col + 2 * i) ∧
        b i = cell R.P m R.yuyv.slice R.yuyv.stride row (col + 2 * i + 1) := by
  simp only [YUYVReader.readYuyv, hr.load law h1 (show col + B.LEN ≤ cols by omega) m,
    hr.load2 law h1 h2 m, pure_ok]
  refine ⟨_, _, rfl, fun i => ⟨?_, ?_⟩⟩
  · rw [law.unzip_fst, concat]
    split
    · rfl
    · simp only; congr 1; omega
  · rw [law.unzip_snd, concat]
    split
    · rfl
    · simp only; congr 1; omega

/-- The block read from a YUYV plane. -/
theorem YUYVReader.read_eq (hc : Call blk w h B x y) (hh : h < usizeSize) (R : YUYVReader F) (m : Mem)
    (hr : Room R.P R.yuyv.slice R.yuyv.stride (2 * w) h) :
    ∃ y00 y01 y10 y11 u0 u1 v0 v1, R.read B m x y = .ok
      { y00 := B.vdivf y00 R.maxValue, y01 := B.vdivf y01 R.maxValue,
        y10 := B.vdivf y10 R.maxValue, y11 := B.vdivf y11 R.maxValue,
        u0 := B.vdivf u0 R.maxValue, u1 := B.vdivf u1 R.maxValue,
        v0 := B.vdivf v0 R.maxValue, v1 := B.vdivf v1 R.maxValue } ∧
      ∀ i : Fin B.LEN,
        y00 i = cell R.P m R.yuyv.slice R.yuyv.stride y (2 * (x + i)) ∧
        y01 i = cell R.P m R.yuyv.slice R.yuyv.stride y (2 * (x + B.LEN + i)) ∧
        y10 i = cell R.P m R.yuyv.slice R.yuyv.stride (y + 1) (2 * (x + i)) ∧
        y11 i = cell R.P m R.yuyv.slice R.yuyv.stride (y + 1) (2 * (x + B.LEN + i)) ∧
        u0 i = cell R.P m R.yuyv.slice R.yuyv.stride y (2 * x + 4 * i + 1) ∧
        u1 i = cell R.P m R.yuyv.slice R.yuyv.stride (y + 1) (2 * x + 4 * i + 1) ∧
        v0 i = cell R.P m R.yuyv.slice R.yuyv.stride y (2 * x + 4 * i + 3) ∧
        v1 i = cell R.P m R.yuyv.slice R.yuyv.stride (y + 1) (2 * x + 4 * i + 3) := by
  obtain ⟨law, xe, ye, xw, yh, -⟩ := hc
  have := B.pos
  have hP := R.P.size_pos
  have e1 : mulP x 2 = .ok (x * 2) := by
    apply mulP_ok
    have := hr.usize y (by omega)
    have h2 : 2 * w * 1 ≤ 2 * w * R.P.SIZE := Nat.mul_le_mul_left _ hP
    omega
  have e2 : mulP B.LEN 2 = .ok (B.LEN * 2) := by
    apply mulP_ok
    have := hr.usize y (by omega)
    have h2 : 2 * w * 1 ≤ 2 * w * R.P.SIZE := Nat.mul_le_mul_left _ hP
    omega
  have e3 : mulP (B.LEN * 2) R.P.SIZE = .ok (B.LEN * 2 * R.P.SIZE) := by
    apply mulP_ok
    have := hr.off (row := y) (col := 0) (n := B.LEN * 2) (by omega) (by omega)
    omega
  have e4 : ∀ row < h, addP (row * R.yuyv.stride + x * 2 * R.P.SIZE) (B.LEN * 2 * R.P.SIZE) =
      .ok (row * R.yuyv.stride + (x * 2 + B.LEN * 2) * R.P.SIZE) := by
    intro row hrow
    have := hr.off (row := row) (col := x * 2) (n := B.LEN * 2) hrow (by omega)
    rw [addP_ok (by omega), Nat.add_mul, Nat.add_assoc]
  obtain ⟨a00, b00, r00, l00⟩ := readYuyv_eq law R m hr (row := y) (col := x * 2) (by omega) (by omega)
  obtain ⟨a01, b01, r01, l01⟩ := readYuyv_eq law R m hr (row := y) (col := x * 2 + B.LEN * 2) (by omega) (by omega)
  obtain ⟨a10, b10, r10, l10⟩ := readYuyv_eq law R m hr (row := y + 1) (col := x * 2) (by omega) (by omega)
  obtain ⟨a11, b11, r11, l11⟩ := readYuyv_eq law R m hr (row := y + 1) (col := x * 2 + B.LEN * 2) (by omega) (by omega)
  simp only [YUYVReader.read, e1, e2, e3, ok_bind,
    hr.offset (row := y) (col := x * 2) (by omega) (by omega),
    addP_row hr (row := y) (by omega) (.inr hh),
    hr.offset (row := y + 1) (col := x * 2) (by omega) (by omega),
    e4 y (by omega), e4 (y + 1) (by omega), r00, r01, r10, r11, pure_ok]
  refine ⟨_, _, _, _, _, _, _, _, rfl, fun i => ⟨?_, ?_, ?_, ?_, ?_, ?_, ?_, ?_⟩⟩
  · rw [(l00 i).1]; congr 1; omega
  · rw [(l01 i).1]; congr 1; omega
  · rw [(l10 i).1]; congr 1; omega
  · rw [(l11 i).1]; congr 1; omega
  · rw [law.unzip_fst, concat]
    split
    · rw [(l00 _).2]; congr 1; simp only; omega
    · rw [(l01 _).2]; congr 1; simp only; omega
  · rw [law.unzip_fst, concat]
    split
    · rw [(l10 _).2]; congr 1; simp only; omega
    · rw [(l11 _).2]; congr 1; simp only; omega
  · rw [law.unzip_snd, concat]
    split
    · rw [(l00 _).2]; congr 1; simp only; omega
    · rw [(l01 _).2]; congr 1; simp only; omega
  · rw [law.unzip_snd, concat]
    split
    · rw [(l10 _).2]; congr 1; simp only; omega
    · rw [(l11 _).2]; congr 1; simp only; omega

/-- The block read from a plane of 3-byte pixels. -/
theorem RgbReader.read_eq (hc : Call blk w h B x y) (hh : h < usizeSize) (R : RgbReader F) (m : Mem)
    (hr : Room .u8 R.rgb.slice R.rgb.stride (3 * w) h) :
    R.read B m x y = .ok
      (let px (row X : Nat) : RgbaPixel B.V := .fromLoaded R.reverse
        (B.vdivf (fun i => cell .u8 m R.rgb.slice R.rgb.stride row (3 * (X + i))) R.maxValue)
        (B.vdivf (fun i => cell .u8 m R.rgb.slice R.rgb.stride row (3 * (X + i) + 1)) R.maxValue)
        (B.vdivf (fun i => cell .u8 m R.rgb.slice R.rgb.stride row (3 * (X + i) + 2)) R.maxValue)
        (B.splat (lit 1.0))
       ⟨px y x, px y (x + B.LEN), px (y + 1) x, px (y + 1) (x + B.LEN)⟩) := by
  obtain ⟨law, xe, ye, xw, yh, -⟩ := hc
  have := B.pos
  have e1 : mulP x 3 = .ok (x * 3) := by
    apply mulP_ok
    have := hr.usize y (by omega)
    simp only [Prim.SIZE] at this
    omega
  have ld : ∀ row < h, ∀ {α : Type} (k : (Fin 2 → Fin 3 → B.V) → Exec α),
      (R.rgb.slice.dropFrom (row * R.rgb.stride + x * 3 * Prim.u8.SIZE) >>= fun t => B.loadU8x3 m t >>= k) =
        k (fun j c i => cell .u8 m R.rgb.slice R.rgb.stride row (3 * (x + j * B.LEN + i) + c)) := by
    intro row hrow α k
    have h3 := (hr.off (row := row) (col := x * 3) (n := 6 * B.LEN) hrow (by omega)).1
    rw [Slice.dropFrom, if_pos (by omega), ok_bind, law.loadU8x3, if_pos (by simp only [Prim.SIZE] at h3 ⊢; omega), ok_bind]
    congr 1; funext j c i; simp only [cell, Prim.val, Prim.SIZE]; congr 3; omega
  simp only [RgbReader.read, e1, ok_bind,
    hr.offset (row := y) (col := x * 3) (by omega) (by omega),
    addP_row hr (row := y) (by omega) (.inr hh),
    hr.offset (row := y + 1) (col := x * 3) (by omega) (by omega), ld y (by omega), ld (y + 1) (by omega), pure_ok]
  simp only [Fin.isValue, Fin.val_zero, Fin.val_one, Fin.val_two, Nat.zero_mul, Nat.one_mul, Nat.add_zero]

/-- The block read from a plane of 4-byte pixels. -/
theorem RgbaReader.read_eq (hc : Call blk w h B x y) (hh : h < usizeSize) (R : RgbaReader F) (m : Mem)
    (hr : Room .u8 R.rgba.slice R.rgba.stride (4 * w) h) :
    R.read B m x y = .ok
      (let px (row X : Nat) : RgbaPixel B.V := .fromLoaded R.reverse
        (B.vdivf (fun i => cell .u8 m R.rgba.slice R.rgba.stride row (4 * (X + i))) R.maxValue)
        (B.vdivf (fun i => cell .u8 m R.rgba.slice R.rgba.stride row (4 * (X + i) + 1)) R.maxValue)
        (B.vdivf (fun i => cell .u8 m R.rgba.slice R.rgba.stride row (4 * (X + i) + 2)) R.maxValue)
        (B.vdivf (fun i => cell .u8 m R.rgba.slice R.rgba.stride row (4 * (X + i) + 3)) R.maxValue)
       ⟨px y x, px y (x + B.LEN), px (y + 1) x, px (y + 1) (x + B.LEN)⟩) := by
  obtain ⟨law, xe, ye, xw, yh, -⟩ := hc
  have := B.pos
  have e1 : mulP x 4 = .ok (x * 4) := by
    apply mulP_ok
    have := hr.usize y (by omega)
    simp only [Prim.SIZE] at this
    omega
  have ld : ∀ row < h, ∀ {α : Type} (k : (Fin 2 → Fin 4 → B.V) → Exec α),
      (R.rgba.slice.dropFrom (row * R.rgba.stride + x * 4 * Prim.u8.SIZE) >>= fun t => B.loadU8x4 m t >>= k) =
        k (fun j c i => cell .u8 m R.rgba.slice R.rgba.stride row (4 * (x + j * B.LEN + i) + c)) := by
    intro row hrow α k
    have h3 := (hr.off (row := row) (col := x * 4) (n := 8 * B.LEN) hrow (by omega)).1
    rw [Slice.dropFrom, if_pos (by omega), ok_bind, law.loadU8x4, if_pos (by simp only [Prim.SIZE] at h3 ⊢; omega), ok_bind]
    congr 1; funext j c i; simp only [cell, Prim.val, Prim.SIZE]; congr 3; omega
  simp only [RgbaReader.read, e1, ok_bind,
    hr.offset (row := y) (col := x * 4) (by omega) (by omega),
    addP_row hr (row := y) (by omega) (.inr hh),
    hr.offset (row := y + 1) (col := x * 4) (by omega) (by omega), ld y (by omega), ld (y + 1) (by omega), pure_ok]
  simp only [Fin.isValue, Fin.val_zero, Fin.val_one, Fin.val_two, Nat.zero_mul, Nat.one_mul, Nat.add_zero]
  rfl

end
end Ezk

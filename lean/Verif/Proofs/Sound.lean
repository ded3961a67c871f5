import Verif.Spec.Convert
import Verif.Spec.Vector
import Verif.Proofs.Lanes
import Verif.Proofs.Layout

/-!
# What it means that a block source shows a picture
-/

namespace Ezk
open FOps Spec

variable {F : Type} [FOps F]

/-- Which block column `X` is processed in: the backend and the first column. -/
abbrev Blk (F : Type) := Nat → Backend F × Nat

/-- The arithmetic for column `X`. -/
def Blk.ar (b : Blk F) (X : Nat) : Arith F := (b X).1.ar

/-- A visit at block `(x, y)` with backend `B`. -/
structure Call (blk : Blk F) (w h : Nat) (B : Backend F) (x y : Nat) : Prop where
  law : B.Lawful
  xe : x % 2 = 0
  ye : y % 2 = 0
  xw : x + 2 * B.LEN ≤ w
  yh : y + 2 ≤ h
  blk : ∀ X, x ≤ X → X < x + 2 * B.LEN → blk X = (B, x)

theorem Call.ar {blk : Blk F} {w h : Nat} {B : Backend F} {x y : Nat} (hc : Call blk w h B x y) {X : Nat}
    (h1 : x ≤ X) (h2 : X < x + 2 * B.LEN) : blk.ar X = B.ar := by
  rw [Blk.ar, hc.blk X h1 h2]

/-- Lane `i` of a pixel is pixel `(X, Y)` of the picture. -/
structure IsPx {B : Backend F} (q : RgbaPixel B.V) (i : Fin B.LEN) (p : Pic F) (X Y : Nat) : Prop where
  r : q.r i = p .R X Y
  g : q.g i = p .G X Y
  b : q.b i = p .B X Y
  a : q.a i = p .A X Y

/-- The source yields, at every block, the pixels of `p`. -/
def RgbaSound (s : RgbaSrc F) (m : Mem) (w h : Nat) (blk : Blk F) (p : Pic F) : Prop :=
  ∀ B x y, Call blk w h B x y → ∃ b, s.read B m x y = .ok b ∧ ∀ i : Fin B.LEN,
    IsPx b.px00 i p (x + i) y ∧ IsPx b.px01 i p (x + B.LEN + i) y ∧
    IsPx b.px10 i p (x + i) (y + 1) ∧ IsPx b.px11 i p (x + B.LEN + i) (y + 1)

/-- Lane `i` of a pixel is pixel `(X, Y)` of the picture. -/
structure IsYuv {B : Backend F} (q : I444Pixel B.V) (i : Fin B.LEN) (p : Pic F) (X Y : Nat) : Prop where
  y : q.y i = p .Y X Y
  u : q.u i = p .U X Y
  v : q.v i = p .V X Y

/-- The source yields, at every block, the pixels of `p`. -/
def I444Sound (s : I444Src F) (m : Mem) (w h : Nat) (blk : Blk F) (p : Pic F) : Prop :=
  ∀ B x y, Call blk w h B x y → ∃ b, s.read B m x y = .ok b ∧ ∀ i : Fin B.LEN,
    IsYuv b.px00 i p (x + i) y ∧ IsYuv b.px01 i p (x + B.LEN + i) y ∧
    IsYuv b.px10 i p (x + i) (y + 1) ∧ IsYuv b.px11 i p (x + B.LEN + i) (y + 1)

/-- The four luma vectors of a block. -/
structure IsLuma {B : Backend F} (y00 y01 y10 y11 : B.V) (i : Fin B.LEN) (p : Pic F) (x y : Nat) : Prop where
  y00 : y00 i = p .Y (x + i) y
  y01 : y01 i = p .Y (x + B.LEN + i) y
  y10 : y10 i = p .Y (x + i) (y + 1)
  y11 : y11 i = p .Y (x + B.LEN + i) (y + 1)

/-- The source yields, at every block, the luma of every pixel and the chroma of every 2×1 cell of `p`. -/
def I422Sound (s : I422Src F) (m : Mem) (w h : Nat) (blk : Blk F) (p : Pic F) : Prop :=
  ∀ B x y, Call blk w h B x y → ∃ b, s.read B m x y = .ok b ∧ ∀ i : Fin B.LEN,
    IsLuma b.y00 b.y01 b.y10 b.y11 i p x y ∧
    b.u0 i = p .U (x + 2 * i) y ∧ b.u1 i = p .U (x + 2 * i) (y + 1) ∧
    b.v0 i = p .V (x + 2 * i) y ∧ b.v1 i = p .V (x + 2 * i) (y + 1)

/-- The source yields, at every block, the luma of every pixel and the chroma of every 2×2 cell of `p`. -/
def I420Sound (s : I420Src F) (m : Mem) (w h : Nat) (blk : Blk F) (p : Pic F) : Prop :=
  ∀ B x y, Call blk w h B x y → ∃ b, s.read B m x y = .ok b ∧ ∀ i : Fin B.LEN,
    IsLuma b.y00 b.y01 b.y10 b.y11 i p x y ∧ b.u i = p .U (x + 2 * i) y ∧ b.v i = p .V (x + 2 * i) y

/-- Chroma is constant on 2×1 cells. -/
def Const21 (p : Pic F) (w h : Nat) : Prop :=
  ∀ X Y, X < w → Y < h → p .U X Y = p .U (X / 2 * 2) Y ∧ p .V X Y = p .V (X / 2 * 2) Y

/-- Chroma is constant on 2×2 cells. -/
def Const22 (p : Pic F) (w h : Nat) : Prop :=
  ∀ X Y, X < w → Y < h → p .U X Y = p .U (X / 2 * 2) (Y / 2 * 2) ∧ p .V X Y = p .V (X / 2 * 2) (Y / 2 * 2)

/-! ## Sequencing -/

theorem ok_bind {α β : Type} (a : α) (f : α → Exec β) : ((.ok a : Exec α) >>= f) = f a := rfl

theorem pure_ok {α : Type} (a : α) : (pure a : Exec α) = .ok a := rfl

/-! ## Loads -/

/-- The number at address `a`. -/
def Prim.val (P : Prim) (m : Mem) (a : Nat) : Nat :=
  match P with
  | .u8 => (m a).toNat
  | .u16 => (m a).toNat + 256 * (m (a + 1)).toNat

/-- Room for `rows` rows of `cols` samples at the given stride (not necessarily the plane's own). -/
structure Room (P : Prim) (s : Slice) (stride cols rows : Nat) : Prop where
  fits : ∀ row < rows, row * stride + cols * P.SIZE ≤ s.len
  usize : ∀ row < rows, row * stride + cols * P.SIZE < usizeSize

theorem Prim.size_pos (P : Prim) : 0 < P.SIZE := by cases P <;> decide

theorem Room.off {P : Prim} {s : Slice} {stride cols rows row col n : Nat} (hr : Room P s stride cols rows)
    (h1 : row < rows) (h2 : col + n ≤ cols) :
    row * stride + col * P.SIZE + n * P.SIZE ≤ s.len ∧ row * stride + col * P.SIZE + n * P.SIZE < usizeSize := by
  have h3 := hr.fits row h1
  have h4 := hr.usize row h1
  have h5 : (col + n) * P.SIZE ≤ cols * P.SIZE := Nat.mul_le_mul_right _ h2
  rw [Nat.add_mul] at h5
  omega

theorem offset_ok {row stride col size : Nat} (h : row * stride + col * size < usizeSize) :
    offset row stride col size = .ok (row * stride + col * size) := by
  rw [offset, mulP_ok (by omega), mulP_ok (by omega)]
  exact addP_ok h

theorem Room.offset {P : Prim} {s : Slice} {stride cols rows row col : Nat} (hr : Room P s stride cols rows)
    (h1 : row < rows) (h2 : col ≤ cols) :
    offset row stride col P.SIZE = .ok (row * stride + col * P.SIZE) := by
  have := hr.off (n := 0) h1 h2
  exact offset_ok (by omega)

/-- `P::load(&s[off..])`. -/
theorem dropLoad {B : Backend F} (hB : B.Lawful) (P : Prim) (m : Mem) (s : Slice) (off : Nat)
    (h : off + B.LEN * P.SIZE ≤ s.len) {α : Type} (k : B.V → Exec α) :
    (s.dropFrom off >>= fun t => P.load B m t >>= k) =
      k (fun i => ofNat (P.val m (s.addr + off + i * P.SIZE))) := by
  rw [Slice.dropFrom, if_pos (by omega), ok_bind]
  cases P with
  | u8 =>
    simp only [Prim.SIZE, Nat.mul_one] at h ⊢
    simp only [Prim.load, hB.loadU8]
    rw [if_pos (by omega), ok_bind]
    rfl
  | u16 =>
    simp only [Prim.SIZE] at h ⊢
    simp only [Prim.load, hB.loadU16]
    rw [if_pos (by omega), ok_bind]
    simp only [Prim.val, Nat.mul_comm]

/-- The sample in row `row`, column `col` of a slice with that stride. -/
def cell (P : Prim) (m : Mem) (s : Slice) (stride row col : Nat) : F :=
  ofNat (P.val m (s.addr + (row * stride + col * P.SIZE)))

/-- First load of a row of a block. -/
theorem Room.load {B : Backend F} (hB : B.Lawful) {P : Prim} {s : Slice} {stride cols rows row col : Nat}
    (hr : Room P s stride cols rows) (h1 : row < rows) (h2 : col + B.LEN ≤ cols) (m : Mem)
    {α : Type} (k : B.V → Exec α) :
    (s.dropFrom (row * stride + col * P.SIZE) >>= fun t => P.load B m t >>= k) =
      k (fun i => cell P m s stride row (col + i)) := by
  rw [dropLoad hB]
  · congr 1; funext i; simp only [cell, Nat.add_mul, Nat.add_assoc]
  · exact (hr.off h1 h2).1

/-- Second load of a row of a block. -/
theorem Room.load2 {B : Backend F} (hB : B.Lawful) {P : Prim} {s : Slice} {stride cols rows row col : Nat}
    (hr : Room P s stride cols rows) (h1 : row < rows) (h2 : col + 2 * B.LEN ≤ cols) (m : Mem)
    {α : Type} (k : B.V → Exec α) :
    (mulP B.LEN P.SIZE >>= fun a => addP (row * stride + col * P.SIZE) a >>= fun o =>
      s.dropFrom o >>= fun t => P.load B m t >>= k) =
      k (fun i => cell P m s stride row (col + B.LEN + i)) := by
  have h3 := hr.off (col := col) (n := B.LEN) h1 (by omega)
  have h4 := hr.load hB (col := col + B.LEN) h1 (by omega) m k
  rw [mulP_ok (by omega), ok_bind, addP_ok (by omega), ok_bind, ← h4]
  simp only [Nat.add_mul, Nat.add_assoc]

end Ezk

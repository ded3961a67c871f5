import Verif.Proofs.Readers

/-!
# Sources built from readers and colour stages show the specified pictures
-/

namespace Ezk
open FOps Spec

variable {F : Type} [FOps F]

/-- The sample type of a format. -/
def primOf (f : PixelFormat) : Prim := if sampleBytes f = 1 then .u8 else .u16

theorem primOf_size (f : PixelFormat) : (primOf f).SIZE = sampleBytes f := by cases f <;> rfl

/-- Formats read by `I444Reader`. -/
def is444 : PixelFormat → Bool
  | .I444 | .I410 | .I412 => true
  | _ => false

/-- What the readers see: the samples, except that `I444Reader` finds odd rows of U and V with the stride of Y. -/
def Seen (f : PixelFormat) (ps : List Plane) (w h : Nat) (m : Mem) (V : Pic Nat) : Prop :=
  ∀ c X Y l p p0, X < w → Y < h → sampleLoc f c X Y = some l → ps[l.plane]? = some p → ps[0]? = some p0 →
    (primOf f).val m (p.slice.addr + (l.row * (if is444 f = true ∧ Y % 2 = 1 then p0.stride else p.stride) + l.col)) =
      V c X Y

/-- `I444Reader` stays in bounds. -/
def ReadSafe (f : PixelFormat) (ps : List Plane) (w h : Nat) : Prop :=
  is444 f = true → 0 < w → 0 < h → ∀ p0, ps[0]? = some p0 → ∀ i < 3, ∀ p, ps[i]? = some p →
    (h - 1) * p0.stride + rowBytes f 0 w ≤ p.slice.len

/-- All planes fit. -/
def Fits (f : PixelFormat) (ps : List Plane) (w h : Nat) : Prop :=
  planeCount f ≤ ps.length ∧ ∀ i < planeCount f, ∀ p, ps[i]? = some p → PlaneFits f w h i p

theorem Room.of_fits {f : PixelFormat} {w h i : Nat} {p : Plane} (hf : PlaneFits f w h i p) {P : Prim}
    {cols rows : Nat} (h1 : cols * P.SIZE ≤ rowBytes f i w) (h2 : rows ≤ rowCount f i h) :
    Room P p.slice p.stride cols rows := by
  have key : ∀ row < rows, row * p.stride + cols * P.SIZE ≤ p.stride * rowCount f i h := by
    intro row hrow
    exact row_fits (Nat.lt_of_lt_of_le hrow h2) (Nat.le_trans h1 hf.stride_ge) (Nat.le_refl _)
  exact ⟨fun row hrow => Nat.le_trans (key row hrow) hf.size_le,
    fun row hrow => Nat.lt_of_le_of_lt (key row hrow) hf.size_usize⟩

theorem Fits.height {f : PixelFormat} {ps : List Plane} {w h : Nat} (hf : Fits f ps w h) (hw : 0 < w) :
    h < usizeSize := by
  have h0 : 0 < planeCount f := by cases f <;> decide
  obtain ⟨p, hp⟩ : ∃ p, ps[0]? = some p := ⟨ps[0]'(by have := hf.1; omega), List.getElem?_eq_getElem _⟩
  have := hf.2 0 h0 p hp
  have h1 := this.stride_ge
  have h2 : 0 < rowBytes f 0 w := by cases f <;> simp [rowBytes] <;> omega
  have h3 : rowCount f 0 h = h := by cases f <;> rfl
  have h4 := this.size_usize
  rw [h3] at h4
  have : 1 * h ≤ p.stride * h := Nat.mul_le_mul_right _ (by omega)
  simp only [usizeSize]; omega

theorem Call.wpos {blk : Blk F} {w h : Nat} {B : Backend F} {x y : Nat} (hc : Call blk w h B x y) : 0 < w := by
  have := hc.xw; have := B.pos; omega

theorem maxSample_eq (f : PixelFormat) : (maxValueForBits f.bitsPerComponent : F) = maxSample f := by
  cases f <;> rfl

/-- A cell seen by a reader. -/
theorem Seen.cell {f : PixelFormat} {ps : List Plane} {w h : Nat} {m : Mem} {V : Pic Nat}
    (hs : Seen f ps w h m V) {c : Chan} {X Y i row col : Nat} {p p0 : Plane} (hX : X < w) (hY : Y < h)
    (hl : sampleLoc f c X Y = some ⟨i, row, col * (primOf f).SIZE⟩) (hp : ps[i]? = some p) (hp0 : ps[0]? = some p0)
    {st : Nat} (hst : st = if is444 f = true ∧ Y % 2 = 1 then p0.stride else p.stride) :
    cell (F := F) (primOf f) m p.slice st row col = ofNat (V c X Y) := by
  subst hst
  rw [Ezk.cell, ← hs c X Y _ p p0 hX hY hl hp hp0]

/-- Lane of a normalised vector. -/
theorem norm_lane {blk : Blk F} {w h : Nat} {B : Backend F} {x y : Nat} (hc : Call blk w h B x y)
    {f : PixelFormat} {V : Pic Nat} {c : Chan} {X Y : Nat} (h1 : x ≤ X) (h2 : X < x + 2 * B.LEN) {i : Fin B.LEN}
    {v : B.V} (hv : v i = ofNat (V c X Y)) :
    B.vdivf v (maxValueForBits f.bitsPerComponent) i = normalize blk.ar f V c X Y := by
  show B.ar.div (v i) _ = _
  rw [hv, maxSample_eq, normalize, hc.ar h1 h2]; rfl

section
variable {f : PixelFormat} {w h : Nat} {m : Mem} {V : Pic Nat} {blk : Blk F} {py pu pv : Plane} {rest : List Plane}

/-- `I420Reader` on I420, I010, I012. -/
theorem i420_sound (hf : f = .I420 ∨ f = .I010 ∨ f = .I012) (hfit : Fits f (py :: pu :: pv :: rest) w h)
    (hs : Seen f (py :: pu :: pv :: rest) w h m V) :
    I420Sound ⟨I420Reader.read ⟨primOf f, py, pu, pv, maxValueForBits f.bitsPerComponent⟩⟩ m w h blk
      (normalize blk.ar f V) := by
  intro B x y hc
  have lY : ∀ X Y, sampleLoc f .Y X Y = some ⟨0, Y, X * (primOf f).SIZE⟩ := by
    intro X Y; rcases hf with rfl | rfl | rfl <;> simp [sampleLoc, primOf, sampleBytes, Prim.SIZE, Nat.mul_comm]
  have lU : ∀ X Y, sampleLoc f .U X Y = some ⟨1, Y / 2, X / 2 * (primOf f).SIZE⟩ := by
    intro X Y; rcases hf with rfl | rfl | rfl <;> simp [sampleLoc, primOf, sampleBytes, Prim.SIZE, Nat.mul_comm]
  have lV : ∀ X Y, sampleLoc f .V X Y = some ⟨2, Y / 2, X / 2 * (primOf f).SIZE⟩ := by
    intro X Y; rcases hf with rfl | rfl | rfl <;> simp [sampleLoc, primOf, sampleBytes, Prim.SIZE, Nat.mul_comm]
  have n4 : is444 f = false := by rcases hf with rfl | rfl | rfl <;> rfl
  have r0 : Room (primOf f) py.slice py.stride w h := Room.of_fits (hfit.2 0 (by rcases hf with rfl | rfl | rfl <;> decide) py rfl)
    (by rcases hf with rfl | rfl | rfl <;> simp [rowBytes, primOf, sampleBytes, Prim.SIZE] <;> omega)
    (by rcases hf with rfl | rfl | rfl <;> simp [rowCount])
  have r1 : Room (primOf f) pu.slice pu.stride (w / 2) (h / 2) :=
    Room.of_fits (hfit.2 1 (by rcases hf with rfl | rfl | rfl <;> decide) pu rfl)
    (by rcases hf with rfl | rfl | rfl <;> simp [rowBytes, primOf, sampleBytes, Prim.SIZE] <;> omega)
    (by rcases hf with rfl | rfl | rfl <;> simp [rowCount])
  have r2 : Room (primOf f) pv.slice pv.stride (w / 2) (h / 2) :=
    Room.of_fits (hfit.2 2 (by rcases hf with rfl | rfl | rfl <;> decide) pv rfl)
    (by rcases hf with rfl | rfl | rfl <;> simp [rowBytes, primOf, sampleBytes, Prim.SIZE] <;> omega)
    (by rcases hf with rfl | rfl | rfl <;> simp [rowCount])
  have hb := hfit.height hc.wpos
  refine ⟨_, I420Reader.read_eq hc hb _ m r0 r1 r2, fun i => ?_⟩
  have ⟨_, xe, ye, xw, yh, _⟩ := hc
  have := i.2
  refine ⟨⟨?_, ?_, ?_, ?_⟩, ?_, ?_⟩
  all_goals dsimp only
  · exact norm_lane hc (by omega) (by omega) (hs.cell (by omega) (by omega) (lY _ _) rfl rfl (by simp [n4]))
  · exact norm_lane hc (by omega) (by omega) (hs.cell (by omega) (by omega) (lY _ _) rfl rfl (by simp [n4]))
  · exact norm_lane hc (by omega) (by omega) (hs.cell (by omega) (by omega) (lY _ _) rfl rfl (by simp [n4]))
  · exact norm_lane hc (by omega) (by omega) (hs.cell (by omega) (by omega) (lY _ _) rfl rfl (by simp [n4]))
  · refine norm_lane hc (by omega) (by omega) (hs.cell (i := 1) (by omega) (by omega) ?_ rfl rfl (by simp [n4]))
    rw [lU]; congr 3; omega
  · refine norm_lane hc (by omega) (by omega) (hs.cell (i := 2) (by omega) (by omega) ?_ rfl rfl (by simp [n4]))
    rw [lV]; congr 3; omega

/-- `I422Reader` on I422, I210, I212. -/
theorem i422_sound (hf : f = .I422 ∨ f = .I210 ∨ f = .I212) (hfit : Fits f (py :: pu :: pv :: rest) w h)
    (hs : Seen f (py :: pu :: pv :: rest) w h m V) :
    I422Sound ⟨I422Reader.read ⟨primOf f, py, pu, pv, maxValueForBits f.bitsPerComponent⟩⟩ m w h blk
      (normalize blk.ar f V) := by
  intro B x y hc
  have lY : ∀ X Y, sampleLoc f .Y X Y = some ⟨0, Y, X * (primOf f).SIZE⟩ := by
    intro X Y; rcases hf with rfl | rfl | rfl <;> simp [sampleLoc, primOf, sampleBytes, Prim.SIZE, Nat.mul_comm]
  have lU : ∀ X Y, sampleLoc f .U X Y = some ⟨1, Y, X / 2 * (primOf f).SIZE⟩ := by
    intro X Y; rcases hf with rfl | rfl | rfl <;> simp [sampleLoc, primOf, sampleBytes, Prim.SIZE, Nat.mul_comm]
  have lV : ∀ X Y, sampleLoc f .V X Y = some ⟨2, Y, X / 2 * (primOf f).SIZE⟩ := by
    intro X Y; rcases hf with rfl | rfl | rfl <;> simp [sampleLoc, primOf, sampleBytes, Prim.SIZE, Nat.mul_comm]
  have n4 : is444 f = false := by rcases hf with rfl | rfl | rfl <;> rfl
  have r0 : Room (primOf f) py.slice py.stride w h := Room.of_fits (hfit.2 0 (by rcases hf with rfl | rfl | rfl <;> decide) py rfl)
    (by rcases hf with rfl | rfl | rfl <;> simp [rowBytes, primOf, sampleBytes, Prim.SIZE] <;> omega)
    (by rcases hf with rfl | rfl | rfl <;> simp [rowCount])
  have r1 : Room (primOf f) pu.slice pu.stride (w / 2) h :=
    Room.of_fits (hfit.2 1 (by rcases hf with rfl | rfl | rfl <;> decide) pu rfl)
    (by rcases hf with rfl | rfl | rfl <;> simp [rowBytes, primOf, sampleBytes, Prim.SIZE] <;> omega)
    (by rcases hf with rfl | rfl | rfl <;> simp [rowCount])
  have r2 : Room (primOf f) pv.slice pv.stride (w / 2) h :=
    Room.of_fits (hfit.2 2 (by rcases hf with rfl | rfl | rfl <;> decide) pv rfl)
    (by rcases hf with rfl | rfl | rfl <;> simp [rowBytes, primOf, sampleBytes, Prim.SIZE] <;> omega)
    (by rcases hf with rfl | rfl | rfl <;> simp [rowCount])
  have hb := hfit.height hc.wpos
  refine ⟨_, I422Reader.read_eq hc hb _ m r0 r1 r2, fun i => ?_⟩
  have ⟨_, xe, ye, xw, yh, _⟩ := hc
  have := i.2
  refine ⟨⟨?_, ?_, ?_, ?_⟩, ?_, ?_, ?_, ?_⟩
  all_goals dsimp only
  · exact norm_lane hc (by omega) (by omega) (hs.cell (by omega) (by omega) (lY _ _) rfl rfl (by simp [n4]))
  · exact norm_lane hc (by omega) (by omega) (hs.cell (by omega) (by omega) (lY _ _) rfl rfl (by simp [n4]))
  · exact norm_lane hc (by omega) (by omega) (hs.cell (by omega) (by omega) (lY _ _) rfl rfl (by simp [n4]))
  · exact norm_lane hc (by omega) (by omega) (hs.cell (by omega) (by omega) (lY _ _) rfl rfl (by simp [n4]))
  · refine norm_lane hc (by omega) (by omega) (hs.cell (i := 1) (by omega) (by omega) ?_ rfl rfl (by simp [n4]))
    rw [lU]; congr 3; omega
  · refine norm_lane hc (by omega) (by omega) (hs.cell (i := 1) (by omega) (by omega) ?_ rfl rfl (by simp [n4]))
    rw [lU]; congr 3; omega
  · refine norm_lane hc (by omega) (by omega) (hs.cell (i := 2) (by omega) (by omega) ?_ rfl rfl (by simp [n4]))
    rw [lV]; congr 3; omega
  · refine norm_lane hc (by omega) (by omega) (hs.cell (i := 2) (by omega) (by omega) ?_ rfl rfl (by simp [n4]))
    rw [lV]; congr 3; omega

/-- `I444Reader` on I444, I410, I412. -/
theorem i444_sound (hf : f = .I444 ∨ f = .I410 ∨ f = .I412) (hfit : Fits f (py :: pu :: pv :: rest) w h)
    (hsafe : ReadSafe f (py :: pu :: pv :: rest) w h)
    (hs : Seen f (py :: pu :: pv :: rest) w h m V) :
    I444Sound ⟨I444Reader.read ⟨primOf f, py, pu, pv, maxValueForBits f.bitsPerComponent⟩⟩ m w h blk
      (normalize blk.ar f V) := by
  intro B x y hc
  have lY : ∀ X Y, sampleLoc f .Y X Y = some ⟨0, Y, X * (primOf f).SIZE⟩ := by
    intro X Y; rcases hf with rfl | rfl | rfl <;> simp [sampleLoc, primOf, sampleBytes, Prim.SIZE, Nat.mul_comm]
  have lU : ∀ X Y, sampleLoc f .U X Y = some ⟨1, Y, X * (primOf f).SIZE⟩ := by
    intro X Y; rcases hf with rfl | rfl | rfl <;> simp [sampleLoc, primOf, sampleBytes, Prim.SIZE, Nat.mul_comm]
  have lV : ∀ X Y, sampleLoc f .V X Y = some ⟨2, Y, X * (primOf f).SIZE⟩ := by
    intro X Y; rcases hf with rfl | rfl | rfl <;> simp [sampleLoc, primOf, sampleBytes, Prim.SIZE, Nat.mul_comm]
  have n4 : is444 f = true := by rcases hf with rfl | rfl | rfl <;> rfl
  have hrb : w * (primOf f).SIZE = rowBytes f 0 w := by
    rcases hf with rfl | rfl | rfl <;> simp [rowBytes, primOf, sampleBytes, Prim.SIZE, Nat.mul_comm]
  have hrc : ∀ i, h = rowCount f i h := by intro i; rcases hf with rfl | rfl | rfl <;> simp [rowCount]
  have hrb' : ∀ i, rowBytes f i w = rowBytes f 0 w := by intro i; rcases hf with rfl | rfl | rfl <;> simp [rowBytes]
  have r0 : Room (primOf f) py.slice py.stride w h := Room.of_fits (hfit.2 0 (by rcases hf with rfl | rfl | rfl <;> decide) py rfl)
    (by rw [hrb]; exact Nat.le_refl _) (Nat.le_of_eq (hrc 0))
  have r1 : Room (primOf f) pu.slice pu.stride w h :=
    Room.of_fits (hfit.2 1 (by rcases hf with rfl | rfl | rfl <;> decide) pu rfl)
    (by rw [hrb, hrb' 1]; exact Nat.le_refl _) (Nat.le_of_eq (hrc 1))
  have r2 : Room (primOf f) pv.slice pv.stride w h :=
    Room.of_fits (hfit.2 2 (by rcases hf with rfl | rfl | rfl <;> decide) pv rfl)
    (by rw [hrb, hrb' 2]; exact Nat.le_refl _) (Nat.le_of_eq (hrc 2))
  have rs : ∀ p : Plane, (h - 1) * py.stride + rowBytes f 0 w ≤ p.slice.len → Room (primOf f) p.slice py.stride w h := by
    intro p hp
    refine ⟨fun row hrow => ?_, r0.usize⟩
    have : row * py.stride ≤ (h - 1) * py.stride := Nat.mul_le_mul_right _ (by omega)
    omega
  have r1' := rs pu (hsafe n4 hc.wpos (by have := hc.yh; omega) py rfl 1 (by decide) pu rfl)
  have r2' := rs pv (hsafe n4 hc.wpos (by have := hc.yh; omega) py rfl 2 (by decide) pv rfl)
  have hb := hfit.height hc.wpos
  refine ⟨_, I444Reader.read_eq hc hb _ m r0 r1 r2 r1' r2', fun i => ?_⟩
  have ⟨_, xe, ye, xw, yh, _⟩ := hc
  have := i.2
  have ye0 : ¬ y % 2 = 1 := by omega
  have ye1 : (y + 1) % 2 = 1 := by omega
  refine ⟨⟨?_, ?_, ?_⟩, ⟨?_, ?_, ?_⟩, ⟨?_, ?_, ?_⟩, ⟨?_, ?_, ?_⟩⟩
  all_goals dsimp only
  · exact norm_lane hc (by omega) (by omega) (hs.cell (by omega) (by omega) (lY _ _) rfl rfl (by simp [n4]))
  · exact norm_lane hc (by omega) (by omega) (hs.cell (by omega) (by omega) (lU _ _) rfl rfl (by simp [n4, ye0]))
  · exact norm_lane hc (by omega) (by omega) (hs.cell (by omega) (by omega) (lV _ _) rfl rfl (by simp [n4, ye0]))
  · exact norm_lane hc (by omega) (by omega) (hs.cell (by omega) (by omega) (lY _ _) rfl rfl (by simp [n4]))
  · exact norm_lane hc (by omega) (by omega) (hs.cell (by omega) (by omega) (lU _ _) rfl rfl (by simp [n4, ye0]))
  · exact norm_lane hc (by omega) (by omega) (hs.cell (by omega) (by omega) (lV _ _) rfl rfl (by simp [n4, ye0]))
  · exact norm_lane hc (by omega) (by omega) (hs.cell (by omega) (by omega) (lY _ _) rfl rfl (by simp [n4]))
  · exact norm_lane hc (by omega) (by omega) (hs.cell (by omega) (by omega) (lU _ _) rfl rfl (by simp [n4, ye1]))
  · exact norm_lane hc (by omega) (by omega) (hs.cell (by omega) (by omega) (lV _ _) rfl rfl (by simp [n4, ye1]))
  · exact norm_lane hc (by omega) (by omega) (hs.cell (by omega) (by omega) (lY _ _) rfl rfl (by simp [n4]))
  · exact norm_lane hc (by omega) (by omega) (hs.cell (by omega) (by omega) (lU _ _) rfl rfl (by simp [n4, ye1]))
  · exact norm_lane hc (by omega) (by omega) (hs.cell (by omega) (by omega) (lV _ _) rfl rfl (by simp [n4, ye1]))

/-- `NV12Reader`. -/
theorem nv12_sound (hfit : Fits .NV12 (py :: pu :: rest) w h) (hs : Seen .NV12 (py :: pu :: rest) w h m V) :
    I420Sound ⟨NV12Reader.read ⟨.u8, py, pu, maxValueForBits PixelFormat.NV12.bitsPerComponent⟩⟩ m w h blk
      (normalize blk.ar .NV12 V) := by
  intro B x y hc
  have r0 : Room .u8 py.slice py.stride w h := Room.of_fits (hfit.2 0 (by decide) py rfl)
    (by simp [rowBytes, Prim.SIZE]) (by simp [rowCount])
  have r1 : Room .u8 pu.slice pu.stride w (h / 2) :=
    Room.of_fits (hfit.2 1 (by decide) pu rfl) (by simp [rowBytes, Prim.SIZE]) (by simp [rowCount])
  have hb := hfit.height hc.wpos
  obtain ⟨u, v, hr, huv⟩ := NV12Reader.read_eq hc hb
    ⟨.u8, py, pu, maxValueForBits PixelFormat.NV12.bitsPerComponent⟩ m r0 r1
  refine ⟨_, hr, fun i => ?_⟩
  have ⟨_, xe, ye, xw, yh, _⟩ := hc
  have := i.2
  have hY : ∀ X Y, X < w → Y < h → cell (F := F) .u8 m py.slice py.stride Y X = ofNat (V .Y X Y) := by
    intro X Y hX hY
    exact hs.cell (i := 0) (c := .Y) hX hY (by simp [sampleLoc, primOf, sampleBytes, Prim.SIZE]) rfl rfl (by simp [is444])
  refine ⟨⟨?_, ?_, ?_, ?_⟩, ?_, ?_⟩
  all_goals dsimp only
  · exact norm_lane hc (by omega) (by omega) (hY _ _ (by omega) (by omega))
  · exact norm_lane hc (by omega) (by omega) (hY _ _ (by omega) (by omega))
  · exact norm_lane hc (by omega) (by omega) (hY _ _ (by omega) (by omega))
  · exact norm_lane hc (by omega) (by omega) (hY _ _ (by omega) (by omega))
  · refine norm_lane hc (by omega) (by omega) ((huv i).1.trans (hs.cell (i := 1) (by omega) (by omega) ?_ rfl rfl (by simp [is444])))
    simp [sampleLoc, primOf, sampleBytes, Prim.SIZE]; omega
  · refine norm_lane hc (by omega) (by omega) ((huv i).2.trans (hs.cell (i := 1) (by omega) (by omega) ?_ rfl rfl (by simp [is444])))
    simp [sampleLoc, primOf, sampleBytes, Prim.SIZE]; omega

/-- `YUYVReader`. -/
theorem yuyv_sound (hfit : Fits .YUYV (py :: rest) w h) (hs : Seen .YUYV (py :: rest) w h m V) :
    I422Sound ⟨YUYVReader.read ⟨.u8, py, maxValueForBits PixelFormat.YUYV.bitsPerComponent⟩⟩ m w h blk
      (normalize blk.ar .YUYV V) := by
  intro B x y hc
  have r0 : Room .u8 py.slice py.stride (2 * w) h := Room.of_fits (hfit.2 0 (by decide) py rfl)
    (by simp [rowBytes, Prim.SIZE]) (by simp [rowCount])
  have hb := hfit.height hc.wpos
  obtain ⟨y00, y01, y10, y11, u0, u1, v0, v1, hr, hl⟩ := YUYVReader.read_eq hc hb
    ⟨.u8, py, maxValueForBits PixelFormat.YUYV.bitsPerComponent⟩ m r0
  refine ⟨_, hr, fun i => ?_⟩
  obtain ⟨a1, a2, a3, a4, b1, b2, c1, c2⟩ := hl i
  have ⟨_, xe, ye, xw, yh, _⟩ := hc
  have := i.2
  have hY : ∀ X Y, X < w → Y < h → cell (F := F) .u8 m py.slice py.stride Y (2 * X) = ofNat (V .Y X Y) := by
    intro X Y hX hY
    exact hs.cell (i := 0) (c := .Y) hX hY (by simp [sampleLoc, primOf, sampleBytes, Prim.SIZE]) rfl rfl (by simp [is444])
  have hU : ∀ Y, Y < h → cell (F := F) .u8 m py.slice py.stride Y (2 * x + 4 * i + 1) = ofNat (V .U (x + 2 * i) Y) := by
    intro Y hY
    refine hs.cell (i := 0) (c := .U) (by omega) hY ?_ rfl rfl (by simp [is444])
    simp [sampleLoc, primOf, sampleBytes, Prim.SIZE]; omega
  have hV : ∀ Y, Y < h → cell (F := F) .u8 m py.slice py.stride Y (2 * x + 4 * i + 3) = ofNat (V .V (x + 2 * i) Y) := by
    intro Y hY
    refine hs.cell (i := 0) (c := .V) (by omega) hY ?_ rfl rfl (by simp [is444])
    simp [sampleLoc, primOf, sampleBytes, Prim.SIZE]; omega
  refine ⟨⟨?_, ?_, ?_, ?_⟩, ?_, ?_, ?_, ?_⟩
  all_goals dsimp only
  · exact norm_lane hc (by omega) (by omega) (a1.trans (hY _ _ (by omega) (by omega)))
  · exact norm_lane hc (by omega) (by omega) (a2.trans (hY _ _ (by omega) (by omega)))
  · exact norm_lane hc (by omega) (by omega) (a3.trans (hY _ _ (by omega) (by omega)))
  · exact norm_lane hc (by omega) (by omega) (a4.trans (hY _ _ (by omega) (by omega)))
  · exact norm_lane hc (by omega) (by omega) (b1.trans (hU _ (by omega)))
  · exact norm_lane hc (by omega) (by omega) (b2.trans (hU _ (by omega)))
  · exact norm_lane hc (by omega) (by omega) (c1.trans (hV _ (by omega)))
  · exact norm_lane hc (by omega) (by omega) (c2.trans (hV _ (by omega)))

/-- The reverse flag of the RGB(A) readers and writers. -/
def isReverse : PixelFormat → Bool
  | .BGRA | .BGR => true
  | _ => false

/-- `RgbReader` on RGB, BGR. -/
theorem rgb_sound (hf : f = .RGB ∨ f = .BGR) (hfit : Fits f (py :: rest) w h) (hs : Seen f (py :: rest) w h m V) :
    RgbaSound ⟨RgbReader.read ⟨isReverse f, py, maxValueForBits f.bitsPerComponent⟩⟩ m w h blk
      (withAlpha f (normalize blk.ar f V)) := by
  intro B x y hc
  have r0 : Room .u8 py.slice py.stride (3 * w) h := Room.of_fits (hfit.2 0 (by rcases hf with rfl | rfl <;> decide) py rfl)
    (by rcases hf with rfl | rfl <;> simp [rowBytes, Prim.SIZE]) (by rcases hf with rfl | rfl <;> simp [rowCount])
  have hb := hfit.height hc.wpos
  have ⟨_, xe, ye, xw, yh, _⟩ := hc
  refine ⟨_, RgbReader.read_eq hc hb ⟨isReverse f, py, maxValueForBits f.bitsPerComponent⟩ m r0, fun i => ?_⟩
  have := i.2
  have key : ∀ X0 Y, x ≤ X0 → X0 + B.LEN ≤ x + 2 * B.LEN → Y < h →
      IsPx (B := B) (.fromLoaded (isReverse f)
        (B.vdivf (fun i => cell .u8 m py.slice py.stride Y (3 * (X0 + i))) (maxValueForBits f.bitsPerComponent))
        (B.vdivf (fun i => cell .u8 m py.slice py.stride Y (3 * (X0 + i) + 1)) (maxValueForBits f.bitsPerComponent))
        (B.vdivf (fun i => cell .u8 m py.slice py.stride Y (3 * (X0 + i) + 2)) (maxValueForBits f.bitsPerComponent))
        (B.splat (lit 1.0))) i (withAlpha f (normalize blk.ar f V)) (X0 + i) Y := by
    intro X0 Y h1 h2 hY
    rcases hf with rfl | rfl
    · have key2 : ∀ c o, (∀ X Y, sampleLoc .RGB c X Y = some ⟨0, Y, (3 * X + o) * (primOf .RGB).SIZE⟩) →
          cell (F := F) .u8 m py.slice py.stride Y (3 * (X0 + i) + o) = ofNat (V c (X0 + i) Y) := by
        intro c o hl
        exact hs.cell (i := 0) (by omega) hY (hl _ _) rfl rfl (by simp [is444])
      show IsPx (B := B) ⟨B.vdivf _ _, B.vdivf _ _, B.vdivf _ _, B.splat _⟩ i _ _ _
      refine ⟨?_, ?_, ?_, ?_⟩
      · dsimp only; simp only [withAlpha, hasAlpha, reduceCtorEq, false_and, if_false]
        exact norm_lane hc (by omega) (by omega) (key2 .R 0 (by simp [sampleLoc, primOf, sampleBytes, Prim.SIZE]))
      · dsimp only; simp only [withAlpha, hasAlpha, reduceCtorEq, false_and, if_false]
        exact norm_lane hc (by omega) (by omega) (key2 .G 1 (by simp [sampleLoc, primOf, sampleBytes, Prim.SIZE]))
      · dsimp only; simp only [withAlpha, hasAlpha, reduceCtorEq, false_and, if_false]
        exact norm_lane hc (by omega) (by omega) (key2 .B 2 (by simp [sampleLoc, primOf, sampleBytes, Prim.SIZE]))
      · simp [withAlpha, hasAlpha, Backend.splat]
    · have key2 : ∀ c o, (∀ X Y, sampleLoc .BGR c X Y = some ⟨0, Y, (3 * X + o) * (primOf .BGR).SIZE⟩) →
          cell (F := F) .u8 m py.slice py.stride Y (3 * (X0 + i) + o) = ofNat (V c (X0 + i) Y) := by
        intro c o hl
        exact hs.cell (i := 0) (by omega) hY (hl _ _) rfl rfl (by simp [is444])
      show IsPx (B := B) ⟨B.vdivf _ _, B.vdivf _ _, B.vdivf _ _, B.splat _⟩ i _ _ _
      refine ⟨?_, ?_, ?_, ?_⟩
      · dsimp only; simp only [withAlpha, hasAlpha, reduceCtorEq, false_and, if_false]
        exact norm_lane hc (by omega) (by omega) (key2 .R 2 (by simp [sampleLoc, primOf, sampleBytes, Prim.SIZE]))
      · dsimp only; simp only [withAlpha, hasAlpha, reduceCtorEq, false_and, if_false]
        exact norm_lane hc (by omega) (by omega) (key2 .G 1 (by simp [sampleLoc, primOf, sampleBytes, Prim.SIZE]))
      · dsimp only; simp only [withAlpha, hasAlpha, reduceCtorEq, false_and, if_false]
        exact norm_lane hc (by omega) (by omega) (key2 .B 0 (by simp [sampleLoc, primOf, sampleBytes, Prim.SIZE]))
      · simp [withAlpha, hasAlpha, Backend.splat]
  exact ⟨key x y (by omega) (by omega) (by omega), key (x + B.LEN) y (by omega) (by omega) (by omega),
    key x (y + 1) (by omega) (by omega) (by omega), key (x + B.LEN) (y + 1) (by omega) (by omega) (by omega)⟩

/-- `RgbaReader` on RGBA, BGRA. -/
theorem rgba_sound (hf : f = .RGBA ∨ f = .BGRA) (hfit : Fits f (py :: rest) w h) (hs : Seen f (py :: rest) w h m V) :
    RgbaSound ⟨RgbaReader.read ⟨isReverse f, py, maxValueForBits f.bitsPerComponent⟩⟩ m w h blk
      (withAlpha f (normalize blk.ar f V)) := by
  intro B x y hc
  have r0 : Room .u8 py.slice py.stride (4 * w) h := Room.of_fits (hfit.2 0 (by rcases hf with rfl | rfl <;> decide) py rfl)
    (by rcases hf with rfl | rfl <;> simp [rowBytes, Prim.SIZE]) (by rcases hf with rfl | rfl <;> simp [rowCount])
  have hb := hfit.height hc.wpos
  have ⟨_, xe, ye, xw, yh, _⟩ := hc
  refine ⟨_, RgbaReader.read_eq hc hb ⟨isReverse f, py, maxValueForBits f.bitsPerComponent⟩ m r0, fun i => ?_⟩
  have := i.2
  have key : ∀ X0 Y, x ≤ X0 → X0 + B.LEN ≤ x + 2 * B.LEN → Y < h →
      IsPx (B := B) (.fromLoaded (isReverse f)
        (B.vdivf (fun i => cell .u8 m py.slice py.stride Y (4 * (X0 + i))) (maxValueForBits f.bitsPerComponent))
        (B.vdivf (fun i => cell .u8 m py.slice py.stride Y (4 * (X0 + i) + 1)) (maxValueForBits f.bitsPerComponent))
        (B.vdivf (fun i => cell .u8 m py.slice py.stride Y (4 * (X0 + i) + 2)) (maxValueForBits f.bitsPerComponent))
        (B.vdivf (fun i => cell .u8 m py.slice py.stride Y (4 * (X0 + i) + 3)) (maxValueForBits f.bitsPerComponent)))
        i (withAlpha f (normalize blk.ar f V)) (X0 + i) Y := by
    intro X0 Y h1 h2 hY
    rcases hf with rfl | rfl
    · have key2 : ∀ c o, (∀ X Y, sampleLoc .RGBA c X Y = some ⟨0, Y, (4 * X + o) * (primOf .RGBA).SIZE⟩) →
          cell (F := F) .u8 m py.slice py.stride Y (4 * (X0 + i) + o) = ofNat (V c (X0 + i) Y) := by
        intro c o hl
        exact hs.cell (i := 0) (by omega) hY (hl _ _) rfl rfl (by simp [is444])
      show IsPx (B := B) ⟨B.vdivf _ _, B.vdivf _ _, B.vdivf _ _, B.vdivf _ _⟩ i _ _ _
      refine ⟨?_, ?_, ?_, ?_⟩
      · dsimp only; simp only [withAlpha, hasAlpha, reduceCtorEq, and_false, if_false]
        exact norm_lane hc (by omega) (by omega) (key2 .R 0 (by simp [sampleLoc, primOf, sampleBytes, Prim.SIZE]))
      · dsimp only; simp only [withAlpha, hasAlpha, reduceCtorEq, and_false, if_false]
        exact norm_lane hc (by omega) (by omega) (key2 .G 1 (by simp [sampleLoc, primOf, sampleBytes, Prim.SIZE]))
      · dsimp only; simp only [withAlpha, hasAlpha, reduceCtorEq, and_false, if_false]
        exact norm_lane hc (by omega) (by omega) (key2 .B 2 (by simp [sampleLoc, primOf, sampleBytes, Prim.SIZE]))
      · dsimp only; simp only [withAlpha, hasAlpha, reduceCtorEq, and_false, if_false]
        exact norm_lane hc (by omega) (by omega) (key2 .A 3 (by simp [sampleLoc, primOf, sampleBytes, Prim.SIZE]))
    · have key2 : ∀ c o, (∀ X Y, sampleLoc .BGRA c X Y = some ⟨0, Y, (4 * X + o) * (primOf .BGRA).SIZE⟩) →
          cell (F := F) .u8 m py.slice py.stride Y (4 * (X0 + i) + o) = ofNat (V c (X0 + i) Y) := by
        intro c o hl
        exact hs.cell (i := 0) (by omega) hY (hl _ _) rfl rfl (by simp [is444])
      show IsPx (B := B) ⟨B.vdivf _ _, B.vdivf _ _, B.vdivf _ _, B.vdivf _ _⟩ i _ _ _
      refine ⟨?_, ?_, ?_, ?_⟩
      · dsimp only; simp only [withAlpha, hasAlpha, reduceCtorEq, and_false, if_false]
        exact norm_lane hc (by omega) (by omega) (key2 .R 2 (by simp [sampleLoc, primOf, sampleBytes, Prim.SIZE]))
      · dsimp only; simp only [withAlpha, hasAlpha, reduceCtorEq, and_false, if_false]
        exact norm_lane hc (by omega) (by omega) (key2 .G 1 (by simp [sampleLoc, primOf, sampleBytes, Prim.SIZE]))
      · dsimp only; simp only [withAlpha, hasAlpha, reduceCtorEq, and_false, if_false]
        exact norm_lane hc (by omega) (by omega) (key2 .B 0 (by simp [sampleLoc, primOf, sampleBytes, Prim.SIZE]))
      · dsimp only; simp only [withAlpha, hasAlpha, reduceCtorEq, and_false, if_false]
        exact norm_lane hc (by omega) (by omega) (key2 .A 3 (by simp [sampleLoc, primOf, sampleBytes, Prim.SIZE]))
  exact ⟨key x y (by omega) (by omega) (by omega), key (x + B.LEN) y (by omega) (by omega) (by omega),
    key x (y + 1) (by omega) (by omega) (by omega), key (x + B.LEN) (y + 1) (by omega) (by omega) (by omega)⟩

end
end Ezk

import Verif.Proofs.Stages

/-!
# Colour stages turn a source showing one picture into a source showing the specified picture
-/

namespace Ezk
open FOps Spec

variable {F : Type} [FOps F]

section
variable {m : Mem} {w h : Nat} {blk : Blk F} {p : Pic F}

theorem zipSame {B : Backend F} (hB : B.Lawful) (u : B.V) (i : Fin B.LEN) :
    (B.zip u u).1 i = u ⟨i / 2, by omega⟩ ∧ (B.zip u u).2 i = u ⟨(B.LEN + i) / 2, by omega⟩ := by
  rw [hB.zip_fst, hB.zip_snd]
  simp only [interleave, ite_self, and_self]

/-- One decoded pixel. -/
theorem decode_px {B : Backend F} {x y : Nat} (hc : Call blk w h B x y) (c : YuvColorInfo)
    (v : B.V × B.V × B.V) (i : Fin B.LEN) {X Y : Nat} (h1 : x ≤ X) (h2 : X < x + 2 * B.LEN)
    {a b d : F} (hv : lane3 v i = Spec.yuvToRgb B.ar c.space c.transfer c.primaries (a, b, d))
    (ha : a = expandLuma B.ar c.fullRange (p .Y X Y)) (hb : b = expandChroma B.ar c.fullRange (p .U X Y))
    (hd : d = expandChroma B.ar c.fullRange (p .V X Y)) :
    IsPx (B := B) ⟨v.1, v.2.1, v.2.2, B.splat (lit 1.0)⟩ i (decode blk.ar c p) X Y := by
  subst ha hb hd
  have e := hc.ar h1 h2
  refine ⟨?_, ?_, ?_, rfl⟩
  · simp only [decode, e]; exact congrArg (·.1) hv
  · simp only [decode, e]; exact congrArg (·.2.1) hv
  · simp only [decode, e]; exact congrArg (·.2.2) hv

theorem i420ToRgb_sound {s : I420Src F} (c : YuvColorInfo) (hs : I420Sound s m w h blk p) (hk : Const22 p w h) :
    RgbaSound (i420ToRgb c s) m w h blk (decode blk.ar c p) := by
  intro B x y hc
  obtain ⟨b, hr, hl⟩ := hs B x y hc
  refine ⟨_, by simp only [i420ToRgb, hr, ok_bind, pure_ok]; rfl, fun i => ?_⟩
  obtain ⟨k00, k01, k10, k11⟩ := lane_yx4UvToRgb B c.space c.transfer c.primaries (expandY B c.fullRange b.y00)
    (expandY B c.fullRange b.y01) (expandY B c.fullRange b.y10) (expandY B c.fullRange b.y11)
    (expandUV B c.fullRange b.u) (expandUV B c.fullRange b.v) i
  have ⟨law, xe, ye, xw, yh, _⟩ := hc
  have hi := i.2
  have zu := zipSame law (expandUV B c.fullRange b.u) i
  have zv := zipSame law (expandUV B c.fullRange b.v) i
  rw [zu.1, zv.1] at k00 k10
  rw [zu.2, zv.2] at k01 k11
  have hu : ∀ X Y j, X < w → Y < h → X / 2 * 2 = x + 2 * j.val → Y / 2 * 2 = y →
      expandUV B c.fullRange b.u j = expandChroma B.ar c.fullRange (p .U X Y) ∧
      expandUV B c.fullRange b.v j = expandChroma B.ar c.fullRange (p .V X Y) := by
    intro X Y j h1 h2 h3 h4
    rw [lane_expandUV, lane_expandUV, (hk X Y h1 h2).1, (hk X Y h1 h2).2, h3, h4, (hl j).2.1, (hl j).2.2]
    exact ⟨rfl, rfl⟩
  have hy := (hl i).1
  refine ⟨decode_px hc c _ i (by omega) (by omega) k00 ?_ (hu _ _ _ ?_ ?_ ?_ ?_).1 (hu _ _ _ ?_ ?_ ?_ ?_).2,
    decode_px hc c _ i (by omega) (by omega) k01 ?_ (hu _ _ _ ?_ ?_ ?_ ?_).1 (hu _ _ _ ?_ ?_ ?_ ?_).2,
    decode_px hc c _ i (by omega) (by omega) k10 ?_ (hu _ _ _ ?_ ?_ ?_ ?_).1 (hu _ _ _ ?_ ?_ ?_ ?_).2,
    decode_px hc c _ i (by omega) (by omega) k11 ?_ (hu _ _ _ ?_ ?_ ?_ ?_).1 (hu _ _ _ ?_ ?_ ?_ ?_).2⟩
  all_goals first
    | omega
    | (dsimp only; omega)
    | rw [lane_expandY, hy.y00]
    | rw [lane_expandY, hy.y01]
    | rw [lane_expandY, hy.y10]
    | rw [lane_expandY, hy.y11]

theorem i422ToRgb_sound {s : I422Src F} (c : YuvColorInfo) (hs : I422Sound s m w h blk p) (hk : Const21 p w h) :
    RgbaSound (i422ToRgb c s) m w h blk (decode blk.ar c p) := by
  intro B x y hc
  obtain ⟨b, hr, hl⟩ := hs B x y hc
  refine ⟨_, by simp only [i422ToRgb, hr, ok_bind, pure_ok]; rfl, fun i => ?_⟩
  have ⟨law, xe, ye, xw, yh, _⟩ := hc
  have hi := i.2
  have zu0 := zipSame law (expandUV B c.fullRange b.u0) i
  have zv0 := zipSame law (expandUV B c.fullRange b.v0) i
  have zu1 := zipSame law (expandUV B c.fullRange b.u1) i
  have zv1 := zipSame law (expandUV B c.fullRange b.v1) i
  have hu0 : ∀ X j, X < w → X / 2 * 2 = x + 2 * j.val →
      expandUV B c.fullRange b.u0 j = expandChroma B.ar c.fullRange (p .U X y) ∧
      expandUV B c.fullRange b.v0 j = expandChroma B.ar c.fullRange (p .V X y) := by
    intro X j h1 h3
    obtain ⟨_, a1, a2, a3, a4⟩ := hl j
    rw [lane_expandUV, lane_expandUV, (hk X y h1 (by omega)).1, (hk X y h1 (by omega)).2, h3, a1, a3]
    exact ⟨rfl, rfl⟩
  have hu1 : ∀ X j, X < w → X / 2 * 2 = x + 2 * j.val →
      expandUV B c.fullRange b.u1 j = expandChroma B.ar c.fullRange (p .U X (y + 1)) ∧
      expandUV B c.fullRange b.v1 j = expandChroma B.ar c.fullRange (p .V X (y + 1)) := by
    intro X j h1 h3
    obtain ⟨_, a1, a2, a3, a4⟩ := hl j
    rw [lane_expandUV, lane_expandUV, (hk X (y + 1) h1 (by omega)).1, (hk X (y + 1) h1 (by omega)).2, h3, a2, a4]
    exact ⟨rfl, rfl⟩
  have hy := (hl i).1
  refine ⟨decode_px hc c _ i (by omega) (by omega) (lane_yuvToRgb ..) ?_ (zu0.1.trans (hu0 _ _ ?_ ?_).1) (zv0.1.trans (hu0 _ _ ?_ ?_).2),
    decode_px hc c _ i (by omega) (by omega) (lane_yuvToRgb ..) ?_ (zu0.2.trans (hu0 _ _ ?_ ?_).1) (zv0.2.trans (hu0 _ _ ?_ ?_).2),
    decode_px hc c _ i (by omega) (by omega) (lane_yuvToRgb ..) ?_ (zu1.1.trans (hu1 _ _ ?_ ?_).1) (zv1.1.trans (hu1 _ _ ?_ ?_).2),
    decode_px hc c _ i (by omega) (by omega) (lane_yuvToRgb ..) ?_ (zu1.2.trans (hu1 _ _ ?_ ?_).1) (zv1.2.trans (hu1 _ _ ?_ ?_).2)⟩
  all_goals first
    | omega
    | (dsimp only; omega)
    | rw [lane_expandY, hy.y00]
    | rw [lane_expandY, hy.y01]
    | rw [lane_expandY, hy.y10]
    | rw [lane_expandY, hy.y11]

theorem i444ToRgb_sound {s : I444Src F} (c : YuvColorInfo) (hs : I444Sound s m w h blk p) :
    RgbaSound (i444ToRgb c s) m w h blk (decode blk.ar c p) := by
  intro B x y hc
  obtain ⟨b, hr, hl⟩ := hs B x y hc
  refine ⟨_, by simp only [i444ToRgb, hr, ok_bind, pure_ok]; rfl, fun i => ?_⟩
  have hi := i.2
  obtain ⟨k00, k01, k10, k11⟩ := hl i
  have key : ∀ (q : I444Pixel B.V) X Y, IsYuv q i p X Y → x ≤ X → X < x + 2 * B.LEN →
      IsPx (i444PixelToRgb c B q) i (decode blk.ar c p) X Y := by
    intro q X Y hq h1 h2
    refine decode_px hc c _ i h1 h2 (lane_yuvToRgb ..) ?_ ?_ ?_
    · rw [lane_expandY, hq.y]
    · rw [lane_expandUV, hq.u]
    · rw [lane_expandUV, hq.v]
  exact ⟨key _ _ _ k00 (by omega) (by omega), key _ _ _ k01 (by omega) (by omega),
    key _ _ _ k10 (by omega) (by omega), key _ _ _ k11 (by omega) (by omega)⟩

theorem transfer_sound {s : RgbaSrc F} (sc dc : ColorInfo) (hs : RgbaSound s m w h blk p) :
    RgbaSound (transferAndPrimariesConvert sc dc s) m w h blk (changeColor blk.ar sc dc p) := by
  intro B x y hc
  obtain ⟨b, hr, hl⟩ := hs B x y hc
  refine ⟨_, by simp only [transferAndPrimariesConvert, hr, ok_bind, pure_ok]; rfl, fun i => ?_⟩
  have hi := i.2
  obtain ⟨k00, k01, k10, k11⟩ := hl i
  have key : ∀ (q : RgbaPixel B.V) X Y, IsPx q i p X Y → x ≤ X → X < x + 2 * B.LEN →
      IsPx (transferPixel sc dc B q) i (changeColor blk.ar sc dc p) X Y := by
    intro q X Y hq h1 h2
    have e := hc.ar h1 h2
    obtain ⟨l1, l2⟩ := lane_transferPixel B sc dc q i
    rw [hq.r, hq.g, hq.b] at l1
    refine ⟨?_, ?_, ?_, l2.trans hq.a⟩
    · simp only [changeColor, e]; exact congrArg (·.1) l1
    · simp only [changeColor, e]; exact congrArg (·.2.1) l1
    · simp only [changeColor, e]; exact congrArg (·.2.2) l1
  exact ⟨key _ _ _ k00 (by omega) (by omega), key _ _ _ k01 (by omega) (by omega),
    key _ _ _ k10 (by omega) (by omega), key _ _ _ k11 (by omega) (by omega)⟩

/-! ## RGB to YUV -/

/-- What `bt2100_rgbx4_to_yx4_uv` computes instead of the mean over a cell: pixels `(x₀+i, y)` and `(x₀+LEN+i, y)` of
the block starting at `x₀`, the first counted three times, where `i` is the index of the cell in the block. -/
def ictcpChroma (blk : Blk F) (i : YuvColorInfo) (p : Pic F) (x y : Nat) : F × F :=
  let a := blk.ar x
  let x0 := (blk x).2
  let k := (x - x0) / 2
  let y := y / 2 * 2
  let p0 := yuvAt blk.ar i p (x0 + k) y
  let p1 := yuvAt blk.ar i p (x0 + (blk x).1.LEN + k) y
  let sum (f : C3 F → F) : F := a.div (a.add (a.add (a.add (f p0) (f p1)) (f p0)) (f p0)) (lit 4.0)
  (sum (·.2.1), sum (·.2.2))

/-- Chroma as the code computes it. -/
def chromaBlk (blk : Blk F) (f : PixelFormat) (i : YuvColorInfo) (p : Pic F) (x y : Nat) : F × F :=
  if vsub f = 2 ∧ isMatrix i.space = false then ictcpChroma blk i p x y else chromaOf blk.ar f i p x y

/-- The YUV picture as the code computes it: `Spec.encode` except for ICtCp with 4:2:0. -/
def encodeBlk (blk : Blk F) (f : PixelFormat) (i : YuvColorInfo) (p : Pic F) : Pic F := fun c x y =>
  match c with
  | .Y => compressLuma (blk.ar x) i.fullRange (yuvAt blk.ar i p x y).1
  | .U => compressChroma (blk.ar x) i.fullRange (chromaBlk blk f i p x y).1
  | .V => compressChroma (blk.ar x) i.fullRange (chromaBlk blk f i p x y).2
  | c => p c x y

theorem encodeBlk_eq {blk : Blk F} {f : PixelFormat} {i : YuvColorInfo} (hf : ¬ (vsub f = 2 ∧ isMatrix i.space = false))
    (p : Pic F) : encodeBlk blk f i p = encode blk.ar f i p := by
  funext c x y
  cases c <;> simp only [encodeBlk, encode, chromaBlk, if_neg hf]

/-- `yuvAt` is lane `i` of the vector conversion. -/
theorem yuvAt_lane {B : Backend F} {x y : Nat} (hc : Call blk w h B x y) (c : YuvColorInfo) {q : RgbaPixel B.V}
    {i : Fin B.LEN} {X Y : Nat} (hq : IsPx q i p X Y) (h1 : x ≤ X) (h2 : X < x + 2 * B.LEN) :
    lane3 (c.space.rgbToYuv B c.transfer c.primaries.rgbToXyzMat q.r q.g q.b) i = yuvAt blk.ar c p X Y := by
  rw [lane_rgbToYuv, yuvAt, hc.ar h1 h2, hq.r, hq.g, hq.b]

theorem rgbToI444_sound {s : RgbaSrc F} (c : YuvColorInfo) {f : PixelFormat} (hf : hsub f = 1)
    (hs : RgbaSound s m w h blk p) : I444Sound (rgbToI444 c s) m w h blk (encodeBlk blk f c p) := by
  intro B x y hc
  obtain ⟨b, hr, hl⟩ := hs B x y hc
  refine ⟨_, by simp only [rgbToI444, hr, ok_bind, pure_ok]; rfl, fun i => ?_⟩
  have hi := i.2
  have hv : ¬ (vsub f = 2 ∧ isMatrix c.space = false) := by
    intro h; have := h.1; cases f <;> simp [hsub, vsub] at hf this
  rw [encodeBlk_eq hv]
  obtain ⟨k00, k01, k10, k11⟩ := hl i
  have key : ∀ (q : RgbaPixel B.V) X Y, IsPx q i p X Y → x ≤ X → X < x + 2 * B.LEN →
      IsYuv (rgbToI444Pixel c B q) i (encode blk.ar f c p) X Y := by
    intro q X Y hq h1 h2
    have e := hc.ar h1 h2
    have l := yuvAt_lane hc c hq h1 h2
    refine ⟨?_, ?_, ?_⟩
    · refine (lane_compressY ..).trans ?_
      simp only [encode, e]; exact congrArg (fun z => compressLuma B.ar c.fullRange z.1) l
    · refine (lane_compressUV ..).trans ?_
      simp only [encode, e, chromaOf, if_pos hf]; exact congrArg (fun z => compressChroma B.ar c.fullRange z.2.1) l
    · refine (lane_compressUV ..).trans ?_
      simp only [encode, e, chromaOf, if_pos hf]; exact congrArg (fun z => compressChroma B.ar c.fullRange z.2.2) l
  exact ⟨key _ _ _ k00 (by omega) (by omega), key _ _ _ k01 (by omega) (by omega),
    key _ _ _ k10 (by omega) (by omega), key _ _ _ k11 (by omega) (by omega)⟩

/-- The pair of neighbouring columns `2j`, `2j+1` of two vectors that hold a function of the column. -/
theorem unzip_cols {B : Backend F} (hB : B.Lawful) {x : Nat} (g : Nat → F) (a b : B.V)
    (ha : ∀ i : Fin B.LEN, a i = g (x + i)) (hb : ∀ i : Fin B.LEN, b i = g (x + B.LEN + i)) (i : Fin B.LEN) :
    (B.unzip a b).1 i = g (x + 2 * i) ∧ (B.unzip a b).2 i = g (x + 2 * i + 1) := by
  rw [hB.unzip_fst, hB.unzip_snd]
  have hi := i.2
  constructor
  · rw [concat]; split
    · rw [ha]
    · rw [hb]; congr 1; dsimp only; omega
  · rw [concat]; split
    · rw [ha]; congr 1
    · rw [hb]; congr 1; dsimp only; omega

theorem rgbToI422_sound {s : RgbaSrc F} (c : YuvColorInfo) {f : PixelFormat} (hf : hsub f = 2) (hf' : vsub f = 1)
    (hs : RgbaSound s m w h blk p) : I422Sound (rgbToI422 c s) m w h blk (encodeBlk blk f c p) := by
  intro B x y hc
  obtain ⟨b, hr, hl⟩ := hs B x y hc
  refine ⟨_, by simp only [rgbToI422, hr, ok_bind, pure_ok]; rfl, ?_⟩
  have hv : ¬ (vsub f = 2 ∧ isMatrix c.space = false) := by omega
  rw [encodeBlk_eq hv]
  have ⟨law, xe, ye, xw, yh, _⟩ := hc
  have key : ∀ (q0 q1 : RgbaPixel B.V) Y, (∀ i, IsPx q0 i p (x + i) Y) → (∀ i, IsPx q1 i p (x + B.LEN + i) Y) →
      ∀ i : Fin B.LEN, (rgbToI422Row c B q0 q1).1.1 i = encode blk.ar f c p .Y (x + i) Y ∧
        (rgbToI422Row c B q0 q1).1.2 i = encode blk.ar f c p .Y (x + B.LEN + i) Y ∧
        (rgbToI422Row c B q0 q1).2.1 i = encode blk.ar f c p .U (x + 2 * i) Y ∧
        (rgbToI422Row c B q0 q1).2.2 i = encode blk.ar f c p .V (x + 2 * i) Y := by
    intro q0 q1 Y h0 h1 i
    have l0 : ∀ i : Fin B.LEN, _ := fun i => yuvAt_lane hc c (h0 i) (by omega) (by omega)
    have l1 : ∀ i : Fin B.LEN, _ := fun i => yuvAt_lane hc c (h1 i) (by omega) (by omega)
    have hi := i.2
    have e0 := hc.ar (X := x + i) (by omega) (by omega)
    have e1 := hc.ar (X := x + B.LEN + i) (by omega) (by omega)
    have e2 := hc.ar (X := x + 2 * i) (by omega) (by omega)
    have hx : (x + 2 * i.val) / 2 * 2 = x + 2 * i.val := by omega
    have hn : ¬ hsub f = 1 := by omega
    have uu := unzip_cols law (x := x) (fun X => (yuvAt blk.ar c p X Y).2.1) _ _
      (fun i => congrArg (fun z => z.2.1) (l0 i)) (fun i => congrArg (fun z => z.2.1) (l1 i)) i
    have vv := unzip_cols law (x := x) (fun X => (yuvAt blk.ar c p X Y).2.2) _ _
      (fun i => congrArg (fun z => z.2.2) (l0 i)) (fun i => congrArg (fun z => z.2.2) (l1 i)) i
    refine ⟨?_, ?_, ?_, ?_⟩
    · refine (lane_compressY ..).trans ?_
      simp only [encode, e0]; exact congrArg (fun z => compressLuma B.ar c.fullRange z.1) (l0 i)
    · refine (lane_compressY ..).trans ?_
      simp only [encode, e1]; exact congrArg (fun z => compressLuma B.ar c.fullRange z.1) (l1 i)
    · refine (lane_compressUV ..).trans ?_
      simp only [encode, chromaOf, if_neg hn, if_pos hf', chroma422, hx, e2]
      rw [← uu.1, ← uu.2]; rfl
    · refine (lane_compressUV ..).trans ?_
      simp only [encode, chromaOf, if_neg hn, if_pos hf', chroma422, hx, e2]
      rw [← vv.1, ← vv.2]; rfl
  intro i
  obtain ⟨a1, a2, a3, a4⟩ := key b.px00 b.px01 y (fun i => (hl i).1) (fun i => (hl i).2.1) i
  obtain ⟨b1, b2, b3, b4⟩ := key b.px10 b.px11 (y + 1) (fun i => (hl i).2.2.1) (fun i => (hl i).2.2.2) i
  exact ⟨⟨a1, a2, b1, b2⟩, a3, b3, a4, b4⟩

/-- The vector code for matrix colour spaces, lane by lane. -/
theorem lane_rgbx4 (B : Backend F) (mat : Mat F) (r g b : Arr4 B.V) (i : Fin B.LEN) :
    let o := rgbx4ToYx4UvMatrix B mat r g b
    let mean (v : Arr4 B.V) : F :=
      B.ar.mul (B.ar.add ((B.unzip (B.vadd v.a0 v.a2) (B.vadd v.a1 v.a3)).1 i)
        ((B.unzip (B.vadd v.a0 v.a2) (B.vadd v.a1 v.a3)).2 i)) (lit 0.25)
    o.1.a0 i = (matMul B.ar mat (r.a0 i, g.a0 i, b.a0 i)).1 ∧ o.1.a1 i = (matMul B.ar mat (r.a1 i, g.a1 i, b.a1 i)).1 ∧
    o.1.a2 i = (matMul B.ar mat (r.a2 i, g.a2 i, b.a2 i)).1 ∧ o.1.a3 i = (matMul B.ar mat (r.a3 i, g.a3 i, b.a3 i)).1 ∧
    o.2.1 i = (matMul B.ar mat (mean r, mean g, mean b)).2.1 ∧ o.2.2 i = (matMul B.ar mat (mean r, mean g, mean b)).2.2 :=
  ⟨rfl, rfl, rfl, rfl, rfl, rfl⟩

theorem rgbToI420_sound {s : RgbaSrc F} (c : YuvColorInfo) {f : PixelFormat} (hf : vsub f = 2)
    (hs : RgbaSound s m w h blk p) : I420Sound (rgbToI420 c s) m w h blk (encodeBlk blk f c p) := by
  intro B x y hc
  obtain ⟨b, hr, hl⟩ := hs B x y hc
  refine ⟨_, by simp only [rgbToI420, hr, ok_bind, pure_ok]; rfl, fun i => ?_⟩
  have ⟨law, xe, ye, xw, yh, hblk⟩ := hc
  have hi := i.2
  have hf1 : ¬ vsub f = 1 := by omega
  have hf2 : ¬ hsub f = 1 := by cases f <;> simp [hsub, vsub] at hf ⊢
  have e : ∀ X, x ≤ X → X < x + 2 * B.LEN → blk.ar X = B.ar := fun X => hc.ar
  have e2 := e (x + 2 * i) (by omega) (by omega)
  have hx : (x + 2 * i.val) / 2 * 2 = x + 2 * i.val := by omega
  have hy : y / 2 * 2 = y := by omega
  -- the matrix spaces
  by_cases hm : isMatrix c.space = true
  · obtain ⟨mat, h1, h2⟩ : ∃ mat : Mat F,
        c.space.rgbx4ToYx4Uv B c.transfer c.primaries.rgbToXyzMat = rgbx4ToYx4UvMatrix B mat ∧
        ∀ ar : Arith F, rgbToYuv ar c.space c.transfer c.primaries = matMul ar mat := by
      obtain ⟨tr, pr, sp, fr⟩ := c
      cases sp <;> first | exact ⟨_, rfl, fun _ => rfl⟩ | simp [isMatrix] at hm
    have hn : ¬ (vsub f = 2 ∧ isMatrix c.space = false) := by simp [hm]
    have key := lane_rgbx4 B mat ⟨b.px00.r, b.px01.r, b.px10.r, b.px11.r⟩ ⟨b.px00.g, b.px01.g, b.px10.g, b.px11.g⟩
      ⟨b.px00.b, b.px01.b, b.px10.b, b.px11.b⟩ i
    rw [← h1] at key
    obtain ⟨y0, y1, y2, y3, hu, hv⟩ := key
    obtain ⟨k00, k01, k10, k11⟩ := hl i
    dsimp only at y0 y1 y2 y3 hu hv
    rw [k00.r, k00.g, k00.b] at y0
    rw [k01.r, k01.g, k01.b] at y1
    rw [k10.r, k10.g, k10.b] at y2
    rw [k11.r, k11.g, k11.b] at y3
    have cols : ∀ (ch : Chan) (v00 v01 v10 v11 : B.V),
        (∀ i, v00 i = p ch (x + i) y) → (∀ i, v01 i = p ch (x + B.LEN + i) y) →
        (∀ i, v10 i = p ch (x + i) (y + 1)) → (∀ i, v11 i = p ch (x + B.LEN + i) (y + 1)) →
        B.ar.mul (B.ar.add ((B.unzip (B.vadd v00 v10) (B.vadd v01 v11)).1 i)
          ((B.unzip (B.vadd v00 v10) (B.vadd v01 v11)).2 i)) (lit 0.25) =
        mean4 B.ar (p ch (x + 2 * i) y) (p ch (x + 2 * i) (y + 1)) (p ch (x + 2 * i + 1) y)
          (p ch (x + 2 * i + 1) (y + 1)) := by
      intro ch v00 v01 v10 v11 g00 g01 g10 g11
      have := unzip_cols law (x := x) (fun X => B.ar.add (p ch X y) (p ch X (y + 1))) (B.vadd v00 v10) (B.vadd v01 v11)
        (fun i => by simp only [Backend.vadd, g00, g10]) (fun i => by simp only [Backend.vadd, g01, g11]) i
      rw [this.1, this.2]; rfl
    rw [cols .R _ _ _ _ (fun i => (hl i).1.r) (fun i => (hl i).2.1.r) (fun i => (hl i).2.2.1.r) (fun i => (hl i).2.2.2.r),
      cols .G _ _ _ _ (fun i => (hl i).1.g) (fun i => (hl i).2.1.g) (fun i => (hl i).2.2.1.g) (fun i => (hl i).2.2.2.g),
      cols .B _ _ _ _ (fun i => (hl i).1.b) (fun i => (hl i).2.1.b) (fun i => (hl i).2.2.1.b) (fun i => (hl i).2.2.2.b)]
      at hu hv
    refine ⟨⟨?_, ?_, ?_, ?_⟩, ?_, ?_⟩
    · refine (lane_compressY ..).trans ?_
      simp only [encodeBlk, yuvAt, h2, e (x + i) (by omega) (by omega)]; exact congrArg _ y0
    · refine (lane_compressY ..).trans ?_
      simp only [encodeBlk, yuvAt, h2, e (x + B.LEN + i) (by omega) (by omega)]; exact congrArg _ y1
    · refine (lane_compressY ..).trans ?_
      simp only [encodeBlk, yuvAt, h2, e (x + i) (by omega) (by omega)]; exact congrArg _ y2
    · refine (lane_compressY ..).trans ?_
      simp only [encodeBlk, yuvAt, h2, e (x + B.LEN + i) (by omega) (by omega)]; exact congrArg _ y3
    · refine (lane_compressUV ..).trans ?_
      simp only [encodeBlk, chromaBlk, if_neg hn, chromaOf, if_neg hf2, if_neg hf1, chroma420, if_pos hm, hx, hy, e2, h2]
      exact congrArg _ hu
    · refine (lane_compressUV ..).trans ?_
      simp only [encodeBlk, chromaBlk, if_neg hn, chromaOf, if_neg hf2, if_neg hf1, chroma420, if_pos hm, hx, hy, e2, h2]
      exact congrArg _ hv
  -- ICtCp
  · have h1 : c.space.rgbx4ToYx4Uv B c.transfer c.primaries.rgbToXyzMat =
        bt2100Rgbx4ToYx4Uv B (c.space.rgbToYuv B c.transfer c.primaries.rgbToXyzMat) := by
      obtain ⟨tr, pr, sp, fr⟩ := c
      cases sp <;> first | rfl | exact absurd rfl hm
    have hm : isMatrix c.space = false := by simpa using hm
    obtain ⟨k00, k01, k10, k11⟩ := hl i
    have l00 := yuvAt_lane hc c k00 (by omega) (by omega)
    have l01 := yuvAt_lane hc c k01 (by omega) (by omega)
    have l10 := yuvAt_lane hc c k10 (by omega) (by omega)
    have l11 := yuvAt_lane hc c k11 (by omega) (by omega)
    have b2 := hblk (x + 2 * i) (by omega) (by omega)
    have hk : (x + 2 * i.val - x) / 2 = i.val := by omega
    rw [h1]
    refine ⟨⟨?_, ?_, ?_, ?_⟩, ?_, ?_⟩
    · refine (lane_compressY ..).trans ?_
      simp only [encodeBlk, e (x + i) (by omega) (by omega)]
      exact congrArg (fun z => compressLuma B.ar c.fullRange z.1) l00
    · refine (lane_compressY ..).trans ?_
      simp only [encodeBlk, e (x + B.LEN + i) (by omega) (by omega)]
      exact congrArg (fun z => compressLuma B.ar c.fullRange z.1) l01
    · refine (lane_compressY ..).trans ?_
      simp only [encodeBlk, e (x + i) (by omega) (by omega)]
      exact congrArg (fun z => compressLuma B.ar c.fullRange z.1) l10
    · refine (lane_compressY ..).trans ?_
      simp only [encodeBlk, e (x + B.LEN + i) (by omega) (by omega)]
      exact congrArg (fun z => compressLuma B.ar c.fullRange z.1) l11
    · refine (lane_compressUV ..).trans ?_
      simp only [encodeBlk, chromaBlk, hf, hm, and_self, if_true, ictcpChroma, b2, hk, hy, e2]
      rw [← l00, ← l01]; rfl
    · refine (lane_compressUV ..).trans ?_
      simp only [encodeBlk, chromaBlk, hf, hm, and_self, if_true, ictcpChroma, b2, hk, hy, e2]
      rw [← l00, ← l01]; rfl

end
end Ezk

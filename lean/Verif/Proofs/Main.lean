import Verif.Proofs.Refine

/-!
# `convert` as a whole: memory before and after
-/

namespace Ezk
open FOps Spec

variable {F : Type} [FOps F]

/-- The float picture as the code computes it: `Spec.convertedF` except for ICtCp with 4:2:0. -/
def floatBlk (blk : Blk F) (sf : PixelFormat) (sc : ColorInfo) (df : PixelFormat) (dc : ColorInfo) (V : Pic Nat) :
    Pic F :=
  if sf = df ∧ sc = dc then normalize blk.ar sf V
  else writeBlk blk df dc (adaptPic blk.ar sc dc (readPic blk.ar sf sc V))

/-- Conversions whose 4:2:0 chroma is not computed as specified. -/
def BadChroma (sf : PixelFormat) (sc : ColorInfo) (df : PixelFormat) (dc : ColorInfo) : Prop :=
  ¬ (sf = df ∧ sc = dc) ∧ vsub df = 2 ∧ ∃ i, dc = .YUV i ∧ isMatrix i.space = false

theorem floatBlk_eq {blk : Blk F} {sf : PixelFormat} {sc : ColorInfo} {df : PixelFormat} {dc : ColorInfo}
    (h : ¬ BadChroma sf sc df dc) (V : Pic Nat) :
    floatBlk blk sf sc df dc V = convertedF blk.ar sf sc df dc V := by
  rw [floatBlk, convertedF]
  by_cases hs : sf = df ∧ sc = dc
  · rw [if_pos hs, if_pos hs]
  · rw [if_neg hs, if_neg hs]
    cases dc with
    | RGB _ => rfl
    | YUV i =>
      rw [writeBlk, writePic]
      by_cases hy : isYuv df = true
      · rw [if_pos hy, if_pos hy]
        exact encodeBlk_eq (fun hb => h ⟨hs, hb.1, i, rfl, hb.2⟩) _
      · rw [if_neg hy, if_neg hy]

/-- The colour information suits the formats, or is not looked at. -/
def ColorsOk (src dst : Img) : Prop :=
  (src.format = dst.format ∧ src.color = dst.color) ∨
    (ColorOk src.format src.color ∧ ColorOk dst.format dst.color)

theorem verify_ok {src dst : Img} (hw : src.width = dst.width) (hh : src.height = dst.height)
    (ew : dst.width % 2 = 0) (eh : dst.height % 2 = 0) : verifyInputWindows src dst = .ok () := by
  rw [verifyInputWindows, if_neg (by omega), if_neg (by omega)]

theorem need_iff (sc dc : ColorInfo) :
    needTransferAndPrimariesConvert sc dc = true ↔ ¬ (sc.transfer = dc.transfer ∧ sc.primaries = dc.primaries) := by
  simp only [needTransferAndPrimariesConvert, ne_eq, Bool.or_eq_true, decide_eq_true_eq]
  by_cases h : sc.transfer = dc.transfer <;> simp [h]

theorem convertJob_sound {src dst : Img} {sps dps : List Plane} (hs : Valid src sps) (hd : Valid dst dps)
    (hw : src.width = dst.width) (hh : src.height = dst.height) (ew : dst.width % 2 = 0) (eh : dst.height % 2 = 0)
    (hcol : ColorsOk src dst) :
    ∃ v : Visitor F, convertJob src dst = .ok (.ok ⟨dst.width, dst.height, v⟩) ∧
      ∀ (m : Mem) (V : Pic Nat) (blk : Blk F), PairBlk blk → Seen src.format sps dst.width dst.height m V →
        ReadSafe src.format sps dst.width dst.height →
        VisitSound v dst.format dps m dst.width dst.height blk
          (floatBlk blk src.format src.color dst.format dst.color V) := by
  rw [convertJob, verify_ok hw hh ew eh, bindE_ok]
  by_cases same : src.format = dst.format ∧ src.color = dst.color
  · rw [if_pos same]
    obtain ⟨v, h1, h2⟩ := convertSame_sound (F := F) hs hd same.1 hw hh
    refine ⟨v, h1, fun m V blk _ hS hR => ?_⟩
    rw [floatBlk, if_pos same]
    rw [same.1] at hS hR ⊢
    exact h2 m V blk hS hR
  · rw [if_neg same]
    obtain ⟨hc1, hc2⟩ := hcol.resolve_left same
    obtain ⟨R, h1, h2⟩ := readAny_sound (F := F) hs hc1
    rw [h1, bindE_ok, ← hw, ← hh]
    rw [hw, hh] at h2 ⊢
    by_cases hn : needTransferAndPrimariesConvert src.color dst.color = true
    · rw [if_pos hn]
      obtain ⟨v, h3, h4⟩ := rgbaToAny_sound hd hc2 (transferAndPrimariesConvert src.color dst.color R)
      refine ⟨v, h3, fun m V blk hb hS hR => ?_⟩
      rw [floatBlk, if_neg same, adaptPic, if_neg ((need_iff _ _).1 hn)]
      exact h4 m blk _ (transfer_sound _ _ (h2 m V blk hb hS hR))
    · rw [if_neg hn]
      obtain ⟨v, h3, h4⟩ := rgbaToAny_sound hd hc2 R
      refine ⟨v, h3, fun m V blk hb hS hR => ?_⟩
      rw [floatBlk, if_neg same, adaptPic, if_pos (by rw [need_iff, Decidable.not_not] at hn; exact hn)]
      exact h4 m blk _ (h2 m V blk hb hS hR)

/-! ## What the readers see -/

theorem exists_plane {f : PixelFormat} {ps : List Plane} {w h : Nat} (hf : Fits f ps w h) {i : Nat}
    (hi : i < planeCount f) : ∃ p, ps[i]? = some p :=
  ⟨ps[i]'(by have := hf.1; omega), List.getElem?_eq_getElem _⟩

/-- The readers see something. -/
theorem seen_exists (f : PixelFormat) (ps : List Plane) (w h : Nat) (m : Mem) : ∃ V, Seen f ps w h m V := by
  refine ⟨fun c X Y => match sampleLoc f c X Y with
    | none => 0
    | some l => match ps[l.plane]?, ps[0]? with
      | some p, some p0 => (primOf f).val m (p.slice.addr +
        (l.row * (if is444 f = true ∧ Y % 2 = 1 then p0.stride else p.stride) + l.col))
      | _, _ => 0, ?_⟩
  intro c X Y l p p0 _ _ hl hp hp0
  simp only [hl, hp, hp0]

theorem val_eq (f : PixelFormat) (m : Mem) (a : Nat) : (primOf f).val m a = sampleVal f m a := by
  cases f <;> rfl

/-- All planes read by `I444Reader` have the same stride. -/
theorem seen_of_depicts {f : PixelFormat} {ps : List Plane} {w h : Nat} {m : Mem} {V : Pic Nat}
    (hu : UniformStrides f ps) (hd : Depicts f ps w h m V) : Seen f ps w h m V := by
  intro c X Y l p p0 hX hY hl hp hp0
  have := hd c X Y l hX hY hl
  rw [sample, hl, Option.bind_some, locAddr, hp, Option.map_some, Option.map_some, Option.some.injEq] at this
  rw [val_eq, ← this]
  congr 1
  by_cases h4 : is444 f = true ∧ Y % 2 = 1
  · have h3 : l.plane < 3 := by
      cases f <;> simp [is444] at h4 <;> cases c <;> simp only [sampleLoc, Option.some.injEq, reduceCtorEq] at hl <;>
        subst hl <;> simp
    rw [if_pos h4, hu (by cases f <;> simp [is444] at h4 <;> exact ⟨rfl, rfl⟩) l.plane h3 p p0 hp hp0]
    omega
  · rw [if_neg h4]; omega

theorem readSafe_of_uniform {f : PixelFormat} {ps : List Plane} {w h : Nat} (hf : Fits f ps w h)
    (hu : UniformStrides f ps) : ReadSafe f ps w h := by
  intro h4 hw hh p0 hp0 i hi p hp
  have hy : isYuv f = true ∧ hsub f = 1 := by cases f <;> simp [is444] at h4 <;> exact ⟨rfl, rfl⟩
  rw [← hu hy i hi p p0 hp hp0]
  have hfit := hf.2 i (by cases f <;> simp [is444] at h4 <;> exact hi) p hp
  have e1 : rowBytes f i w = rowBytes f 0 w := by cases f <;> simp [is444] at h4 <;> rfl
  have e2 : rowCount f i h = h := by cases f <;> simp [is444] at h4 <;> rfl
  refine row_fits (rows := h) (by omega) (e1 ▸ hfit.stride_ge) ?_
  have := hfit.size_le
  rwa [e2] at this

/-- Only the bytes of the planes matter. -/
theorem Seen.frame {f : PixelFormat} {ps : List Plane} {w h : Nat} {m m' : Mem} {V : Pic Nat}
    (hs : Seen f ps w h m V) (hf : Fits f ps w h) (hr : ReadSafe f ps w h) (hw : w % 2 = 0) (hh : h % 2 = 0)
    (he : ∀ i < planeCount f, ∀ p, ps[i]? = some p → ∀ a, p.slice.addr ≤ a → a < p.slice.addr + p.slice.len →
      m' a = m a) : Seen f ps w h m' V := by
  intro c X Y l p p0 hX hY hl hp hp0
  rw [← hs c X Y l p p0 hX hY hl hp hp0]
  have hcell := HasCell.of_even (f := f) (c := c) hw hh hX hY
  obtain ⟨b1, b2, b3⟩ := sampleLoc_bounds hl hcell
  have key : l.row * (if is444 f = true ∧ Y % 2 = 1 then p0.stride else p.stride) + l.col + sampleBytes f ≤
      p.slice.len := by
    by_cases h4 : is444 f = true ∧ Y % 2 = 1
    · rw [if_pos h4]
      have hp3 : l.plane < 3 := by cases f <;> simp [planeCount] at b1 <;> omega
      have := hr h4.1 (by omega) (by omega) p0 hp0 l.plane hp3 p hp
      have e1 : rowBytes f l.plane w = rowBytes f 0 w := by cases f <;> simp [is444] at h4 <;> rfl
      have e2 : rowCount f l.plane h = h := by cases f <;> simp [is444] at h4 <;> rfl
      have : l.row * p0.stride ≤ (h - 1) * p0.stride := Nat.mul_le_mul_right _ (by omega)
      omega
    · rw [if_neg h4]
      have hfit := hf.2 l.plane b1 p hp
      have := row_fits b2 (Nat.le_trans b3 hfit.stride_ge) hfit.size_le
      omega
  generalize l.row * (if is444 f = true ∧ Y % 2 = 1 then p0.stride else p.stride) + l.col = o at key
  have e := he l.plane b1 p hp
  rw [val_eq, val_eq, sampleVal, sampleVal]
  by_cases hb : sampleBytes f = 1
  · rw [if_pos hb, if_pos hb, e _ (by omega) (by omega)]
  · have : sampleBytes f = 2 := by cases f <;> simp [sampleBytes] at hb ⊢
    rw [if_neg hb, if_neg hb, e _ (by omega) (by omega), e _ (by omega) (by omega)]

/-! ## The theorem about `convert` -/

theorem runJob_ok {c : Cpu F} {j : Job F} {m m' : Mem} (h : visit c j m = .ok m') :
    runJob c (.ok (.ok j)) m = .ok (.ok (), m') := by
  rw [runJob, ok_bind]
  show (visit c j m >>= fun m => pure (Except.ok (), m)) = _
  rw [h]; rfl

theorem convert_main {c : Cpu F} (hc : c.vec.Lawful) {src dst : Img} {sps dps : List Plane} (hs : Valid src sps)
    (hd : Valid dst dps) (hw : src.width = dst.width) (hh : src.height = dst.height) (ew : dst.width % 2 = 0)
    (eh : dst.height % 2 = 0) (hcol : ColorsOk src dst) (hr : ReadSafe src.format sps dst.width dst.height)
    (hdis : PlanesDisjoint dst.format dps) (hsep : Separate src.format sps dst.format dps) {m : Mem} {V : Pic Nat}
    (hV : Seen src.format sps dst.width dst.height m V) :
    ∃ m', convert c src dst m = .ok (.ok (), m') ∧
      Painted dst.format dps dst.width dst.height
        (cellByte (cpuBlk c dst.width) dst.format
          (floatBlk (cpuBlk c dst.width) src.format src.color dst.format dst.color V))
        (InDom dst.format dst.width dst.height) m m' := by
  have sfit := hs.fits
  rw [hw, hh] at sfit
  obtain ⟨v, h1, h2⟩ := convertJob_sound (F := F) hs hd hw hh ew eh hcol
  obtain ⟨m', h3, h4⟩ := visit_all (m0 := m) hc ew eh hd.fits hdis (v := v)
    (pic := floatBlk (cpuBlk c dst.width) src.format src.color dst.format dst.color V) (by
      intro m1 hm1
      refine h2 m1 V _ (cpuBlk_pair c ew) (hV.frame sfit hr ew eh ?_) hr
      intro i hi p hp a ha1 ha2
      apply hm1
      intro j row col q hD hq e
      have := hD.inside hd.fits hq
      rw [e] at this
      exact hsep i j p q hi hD.plane hp hq a ha1 ha2 this.1 this.2)
  refine ⟨m', ?_, h4⟩
  rw [convert, h1, runJob_ok h3]

/-! ## Samples of the result -/

/-- First column of the cell of a sample. -/
def cellX (f : PixelFormat) (c : Chan) (X : Nat) : Nat := if c = .U ∨ c = .V then X / hsub f * hsub f else X

/-- First row of the cell of a sample. -/
def cellY (f : PixelFormat) (c : Chan) (Y : Nat) : Nat := if c = .U ∨ c = .V then Y / vsub f * vsub f else Y

theorem loc_cellOf {f : PixelFormat} {c : Chan} {X Y k : Nat} {l : Loc} (hl : sampleLoc f c X Y = some l)
    (hk : k < sampleBytes f) : cellOf f l.plane l.row (l.col + k) = (c, cellX f c X, cellY f c Y, k) := by
  have a0 : ∀ X : Nat, (4 * X + 1) % 4 = 1 := by intro X; omega
  have a1 : ∀ X : Nat, (4 * X + 2) % 4 = 2 := by intro X; omega
  have a2 : ∀ X : Nat, (4 * X + 3) % 4 = 3 := by intro X; omega
  have a3 : ∀ X : Nat, 4 * X % 4 = 0 := by intro X; omega
  have a4 : ∀ X : Nat, (4 * X + 1) / 4 = X := by intro X; omega
  have a5 : ∀ X : Nat, (4 * X + 2) / 4 = X := by intro X; omega
  have a6 : ∀ X : Nat, (4 * X + 3) / 4 = X := by intro X; omega
  have a7 : ∀ X : Nat, 4 * X / 4 = X := by intro X; omega
  have a8 : ∀ X : Nat, (3 * X + 1) % 3 = 1 := by intro X; omega
  have a9 : ∀ X : Nat, (3 * X + 2) % 3 = 2 := by intro X; omega
  have a10 : ∀ X : Nat, 3 * X % 3 = 0 := by intro X; omega
  have a11 : ∀ X : Nat, (3 * X + 1) / 3 = X := by intro X; omega
  have a12 : ∀ X : Nat, (3 * X + 2) / 3 = X := by intro X; omega
  have a13 : ∀ X : Nat, 3 * X / 3 = X := by intro X; omega
  have a14 : ∀ X : Nat, 2 * X % 2 = 0 := by intro X; omega
  have a15 : ∀ X : Nat, 2 * X / 2 = X := by intro X; omega
  have a16 : ∀ X : Nat, (2 * X + 1) % 2 = 1 := by intro X; omega
  have a17 : ∀ X : Nat, (2 * X + 1) / 2 = X := by intro X; omega
  have a18 : ∀ X : Nat, (4 * X + 1) % 2 = 1 := by intro X; omega
  have a19 : ∀ X : Nat, (4 * X + 3) % 2 = 1 := by intro X; omega
  have b1 : ∀ X : Nat, k < 2 → (2 * X + k) / 2 = X := by intro X hk; omega
  have b2 : ∀ X : Nat, k < 2 → (2 * X + k) % 2 = k := by intro X hk; omega
  cases f <;> cases c <;> simp only [sampleLoc, Option.some.injEq, reduceCtorEq] at hl <;> subst hl <;>
    simp only [sampleBytes, Nat.lt_one_iff] at hk <;> (try subst hk) <;>
    simp only [cellOf, cellX, cellY, sampleBytes, hsub, vsub, reduceCtorEq, or_false, false_or, or_true, true_or, if_true,
      if_false, Nat.add_zero, Nat.div_one, Nat.mul_one, Nat.mod_one, Prod.mk.injEq, Nat.one_ne_zero,
      true_and, and_true, a0, a1, a2, a3, a4, a5, a6, a7, a8, a9, a10, a11, a12, a13, a14, a15, a16, a17, a18, a19] <;>
    simp_all

theorem cellOf_loc {f : PixelFormat} {w h i row col : Nat} (hd : InDom f w h i row col) :
    ∃ k c X Y, X < w ∧ Y < h ∧ k < sampleBytes f ∧ k ≤ col ∧ sampleLoc f c X Y = some ⟨i, row, col - k⟩ := by
  obtain ⟨hX, hY⟩ := cellOf_lt hd
  refine ⟨(cellOf f i row col).2.2.2, (cellOf f i row col).1, _, _, hX, hY, ?_⟩
  have hi := hd.plane
  clear hX hY hd
  have h4 : col % 4 = 0 ∨ col % 4 = 1 ∨ col % 4 = 2 ∨ col % 4 = 3 := by omega
  have h3 : col % 3 = 0 ∨ col % 3 = 1 ∨ col % 3 = 2 := by omega
  have h2 : col % 2 = 0 ∨ col % 2 = 1 := by omega
  have hi3 : i = 0 ∨ i = 1 ∨ i = 2 := by cases f <;> simp [planeCount] at hi <;> omega
  have key : ∀ {a b c d : Nat}, a = c → b = d → (some ⟨i, a, b⟩ : Option Loc) = some ⟨i, c, d⟩ := by
    rintro _ _ _ _ rfl rfl; rfl
  cases f
  case RGBA | BGRA =>
    obtain rfl : i = 0 := by simp [planeCount] at hi; exact hi
    rcases h4 with e | e | e | e <;> simp only [cellOf, e, sampleBytes, sampleLoc] <;>
      refine ⟨by omega, by omega, key (by omega) (by omega)⟩
  case RGB | BGR =>
    obtain rfl : i = 0 := by simp [planeCount] at hi; exact hi
    rcases h3 with e | e | e <;> simp only [cellOf, e, sampleBytes, sampleLoc] <;>
      refine ⟨by omega, by omega, key (by omega) (by omega)⟩
  case YUYV =>
    obtain rfl : i = 0 := by simp [planeCount] at hi; exact hi
    rcases h4 with e | e | e | e
    · have e2 : col % 2 = 0 := by omega
      simp only [cellOf, e2, if_true, sampleBytes, sampleLoc]
      refine ⟨by omega, by omega, key (by omega) (by omega)⟩
    · have e2 : col % 2 = 1 := by omega
      simp only [cellOf, e2, e, if_true, Nat.one_ne_zero, if_false, sampleBytes, sampleLoc]
      refine ⟨by omega, by omega, key (by omega) (by omega)⟩
    · have e2 : col % 2 = 0 := by omega
      simp only [cellOf, e2, if_true, sampleBytes, sampleLoc]
      refine ⟨by omega, by omega, key (by omega) (by omega)⟩
    · have e2 : col % 2 = 1 := by omega
      simp only [cellOf, e2, e, if_true, Nat.one_ne_zero, if_false, sampleBytes, sampleLoc, Nat.reduceEqDiff]
      refine ⟨by omega, by omega, key (by omega) (by omega)⟩
  case NV12 =>
    rcases hi3 with rfl | rfl | rfl
    · simp only [cellOf, if_true, sampleBytes, sampleLoc]
      refine ⟨by omega, by omega, key (by omega) (by omega)⟩
    · rcases h2 with e | e <;> simp only [cellOf, e, if_true, if_false, Nat.one_ne_zero, sampleBytes, sampleLoc] <;>
        refine ⟨by omega, by omega, key (by omega) (by omega)⟩
    · simp [planeCount] at hi
  all_goals
    rcases hi3 with rfl | rfl | rfl <;>
      simp only [cellOf, if_true, if_false, sampleBytes, sampleLoc, hsub, vsub, Nat.one_ne_zero, Nat.reduceEqDiff,
        Nat.mul_one, Nat.div_one, Nat.mod_one] <;>
      refine ⟨by omega, by omega, key (by omega) (by omega)⟩

end Ezk

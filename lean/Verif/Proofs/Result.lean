import Verif.Proofs.Main
import Verif.Spec.Verdict

/-!
# Samples, frame and verdict of `convert`
-/

namespace Ezk
open FOps Spec

variable {F : Type} [FOps F]

theorem cpuBlk_columnArith (c : Cpu F) (w : Nat) : (cpuBlk c w).ar = columnArith c w := by
  funext X; rw [cpuBlk_ar]; rfl

/-! ## Samples -/

theorem u16_bytes (v : UInt16) : (u16byte v 0).toNat + 256 * (u16byte v 1).toNat = v.toNat := by
  have h := v.toNat_lt
  simp only [u16byte, if_true, Nat.one_ne_zero, if_false, UInt8.toNat_ofNat']
  omega

theorem painted_sample {f : PixelFormat} {ps : List Plane} {w h : Nat} {blk : Blk F} {pic : Pic F} {m0 m : Mem}
    (hP : Painted f ps w h (cellByte blk f pic) (InDom f w h) m0 m) (hf : Fits f ps w h) (ew : w % 2 = 0)
    (eh : h % 2 = 0) {c : Chan} {X Y : Nat} {l : Loc} (hX : X < w) (hY : Y < h) (hl : sampleLoc f c X Y = some l) :
    sample f ps m c X Y = some (quantize blk.ar f pic c (cellX f c X) (cellY f c Y)) := by
  obtain ⟨b1, b2, b3⟩ := sampleLoc_bounds hl (HasCell.of_even ew eh hX hY)
  obtain ⟨p, hp⟩ := exists_plane hf b1
  rw [sample, hl, Option.bind_some, locAddr, hp, Option.map_some, Option.map_some]
  congr 1
  have byte : ∀ k, k < sampleBytes f → m (p.slice.addr + l.row * p.stride + l.col + k) =
      byteOf f (blk.ar (cellX f c X)) ((blk.ar (cellX f c X)).mul (pic c (cellX f c X) (cellY f c Y)) (maxSample f)) k := by
    intro k hk
    have hd : InDom f w h l.plane l.row (l.col + k) := ⟨b1, b2, by omega⟩
    have e := hP.inside _ _ _ p hd hp hd
    rw [cellByte] at e
    simp only [loc_cellOf hl hk] at e
    rw [← e, Plane.at]
    congr 1; omega
  rw [sampleVal, quantize]
  by_cases hy : isYuv f = false
  · have hb : sampleBytes f = 1 := by cases f <;> simp [isYuv] at hy <;> rfl
    have := byte 0 (by omega)
    rw [byteOf, if_pos hy, Nat.add_zero] at this
    rw [if_pos hb, this]
    simp only [hy, if_true]
  · by_cases hb : sampleBytes f = 1
    · have := byte 0 (by omega)
      rw [byteOf, if_neg hy, if_pos hb, Nat.add_zero] at this
      rw [if_pos hb, this]
      simp only [hy, hb, if_true, if_false, reduceCtorEq]
    · have h2 : sampleBytes f = 2 := by cases f <;> simp [sampleBytes] at hb ⊢
      have e0 := byte 0 (by omega)
      have e1 := byte 1 (by omega)
      rw [byteOf, if_neg hy, if_neg hb, Nat.add_zero] at e0
      rw [byteOf, if_neg hy, if_neg hb] at e1
      rw [if_neg hb, e0, e1, u16_bytes]
      simp only [hy, hb, if_false, reduceCtorEq]

/-- The specified picture is constant on cells. -/
theorem convertedF_cell {ar : Nat → Arith F} (hpair : ∀ X, ar X = ar (X / 2 * 2)) {sf : PixelFormat} {sc : ColorInfo}
    {df : PixelFormat} {dc : ColorInfo} {V : Pic Nat} {w h : Nat}
    (hcol : (sf = df ∧ sc = dc) ∨ ColorOk df dc)
    (hV : ∀ c X Y, isYuv sf = true → (c = .U ∨ c = .V) → X < w → Y < h →
      V c X Y = V c (X / hsub sf * hsub sf) (Y / vsub sf * vsub sf))
    {c : Chan} {X Y : Nat} {l : Loc} (hX : X < w) (hY : Y < h) (hl : sampleLoc df c X Y = some l) :
    quantize ar df (convertedF ar sf sc df dc V) c (cellX df c X) (cellY df c Y) =
      quantize ar df (convertedF ar sf sc df dc V) c X Y := by
  by_cases huv : c = .U ∨ c = .V
  · have hy : isYuv df = true := by
      rcases huv with rfl | rfl <;> cases df <;> simp [sampleLoc] at hl <;> rfl
    have hh : hsub df = 1 ∨ hsub df = 2 := by cases df <;> simp [hsub]
    have hv : vsub df = 1 ∨ vsub df = 2 := by cases df <;> simp [vsub]
    have har : ar (X / hsub df * hsub df) = ar X := by
      rcases hh with e | e <;> rw [e]
      · rw [Nat.div_one, Nat.mul_one]
      · rw [← hpair]
    rw [cellX, if_pos huv, cellY, if_pos huv]
    have key : convertedF ar sf sc df dc V c (X / hsub df * hsub df) (Y / vsub df * vsub df) =
        convertedF ar sf sc df dc V c X Y := by
      rw [convertedF]
      by_cases same : sf = df ∧ sc = dc
      · rw [if_pos same]
        obtain ⟨rfl, rfl⟩ := same
        rw [normalize, normalize, har, ← hV c X Y hy huv hX hY]
      · rw [if_neg same]
        obtain ⟨i, rfl⟩ := hcol.resolve_left same hy
        generalize adaptPic ar sc (.YUV i) (readPic ar sf sc V) = p
        rw [writePic, if_pos hy]
        have hch : chromaOf ar df i p (X / hsub df * hsub df) (Y / vsub df * vsub df) = chromaOf ar df i p X Y := by
          rcases hh with e | e
          · have e' : vsub df = 1 := by cases df <;> simp [hsub] at e <;> rfl
            rw [e, e', Nat.div_one, Nat.mul_one, Nat.div_one, Nat.mul_one]
          · rcases hv with e' | e'
            · rw [e, e', Nat.div_one, Nat.mul_one]
              simp only [chromaOf, e, e', if_true, if_false, Nat.reduceEqDiff, chroma422]
              rw [← hpair, show X / 2 * 2 / 2 * 2 = X / 2 * 2 by omega]
            · rw [e, e']
              simp only [chromaOf, e, e', if_false, Nat.reduceEqDiff, chroma420]
              rw [← hpair, show X / 2 * 2 / 2 * 2 = X / 2 * 2 by omega, show Y / 2 * 2 / 2 * 2 = Y / 2 * 2 by omega]
        rcases huv with rfl | rfl <;> simp only [encode, har, hch]
    rw [quantize, quantize, har, key]
  · rw [cellX, if_neg huv, cellY, if_neg huv]

/-- A source that shows `V` shows the same chroma for all pixels of a cell. -/
theorem Depicts.cell {f : PixelFormat} {ps : List Plane} {w h : Nat} {m : Mem} {V : Pic Nat}
    (hd : Depicts f ps w h m V) {c : Chan} {X Y : Nat} (hy : isYuv f = true) (hc : c = .U ∨ c = .V) (hX : X < w)
    (hY : Y < h) : V c X Y = V c (X / hsub f * hsub f) (Y / vsub f * vsub f) := by
  have hX' : X / hsub f * hsub f ≤ X := Nat.div_mul_le_self _ _
  have hY' : Y / vsub f * vsub f ≤ Y := Nat.div_mul_le_self _ _
  obtain ⟨l, hl⟩ : ∃ l, sampleLoc f c X Y = some l := by
    rcases hc with rfl | rfl <;> cases f <;> first | exact ⟨_, rfl⟩ | cases hy
  have hl' : sampleLoc f c (X / hsub f * hsub f) (Y / vsub f * vsub f) = some l := by
    rw [← hl]
    rcases hc with rfl | rfl <;> cases f <;>
      simp only [sampleLoc, hsub, vsub, Option.some.injEq, Loc.mk.injEq, Nat.div_one, Nat.mul_one, and_true, true_and] <;>
      omega
  have e1 := hd c X Y l hX hY hl
  have e2 := hd c _ _ l (by omega) (by omega) hl'
  rw [sample, hl] at e1
  rw [sample, hl', e1] at e2
  exact Option.some.inj e2

/-! ## Frame -/

theorem frame_writes {f : PixelFormat} {ps : List Plane} {w h : Nat} {g : Nat → Nat → Nat → UInt8} (ws : List RowWrite)
    (hws : ∀ r ∈ ws, r.Good f w h g) (m : Mem) :
    ∃ m', runStores (ws.map (fun r m => .ok (r.apply ps m))) m = .ok m' ∧ ∀ a, Outside f ps w h a → m' a = m a := by
  induction ws generalizing m with
  | nil => exact ⟨m, rfl, fun _ _ => rfl⟩
  | cons r ws ih =>
    obtain ⟨m', h1, h2⟩ := ih (fun r hr => hws r (List.mem_cons_of_mem _ hr)) (r.apply ps m)
    refine ⟨m', by simp only [List.map_cons, runStores, ok_bind]; exact h1, fun a ha => ?_⟩
    rw [h2 a ha, RowWrite.apply]
    have hr := hws r (List.mem_cons_self ..)
    cases hp : ps[r.plane]? with
    | none => rfl
    | some p =>
      dsimp only
      rw [Mem.store]
      split
      · next hin =>
        exfalso
        have hj : a - (p.slice.addr + (r.row * p.stride + r.col)) < r.n := by omega
        refine ha r.plane r.row (r.col + (a - (p.slice.addr + (r.row * p.stride + r.col)))) p
          ⟨hr.plane, hr.row, by have := hr.col; omega⟩ hp ?_
        rw [Plane.at]; omega
      · rfl

theorem runVisits_frame {f : PixelFormat} {ps : List Plane} {w h : Nat} {blk : Blk F} {v : Visitor F} {c : Cpu F}
    (hv : ∀ m, ∃ pic, VisitSound v f ps m w h blk pic) (ks : List VisitCall)
    (hks : ∀ k ∈ ks, Call blk w h (c.backend k.vectored) k.x k.y) (m : Mem) :
    ∃ m', runVisits c v ks m = .ok m' ∧ ∀ a, Outside f ps w h a → m' a = m a := by
  induction ks generalizing m with
  | nil => exact ⟨m, rfl, fun _ _ => rfl⟩
  | cons k ks ih =>
    obtain ⟨pic, hpic⟩ := hv m
    obtain ⟨sts, ws, h1, h2, h3, h4⟩ := hpic _ _ _ (hks k (List.mem_cons_self ..))
    obtain ⟨m1, h5, h6⟩ := frame_writes (ps := ps) ws h3 m
    obtain ⟨m2, h7, h8⟩ := ih (fun k hk => hks k (List.mem_cons_of_mem _ hk)) m1
    refine ⟨m2, ?_, fun a ha => (h8 a ha).trans (h6 a ha)⟩
    rw [runVisits, Visitor.visit, h1, ok_bind, h2, h5, ok_bind]
    exact h7

theorem outside_of_not_sampleByte {f : PixelFormat} {ps : List Plane} {w h a : Nat} (ha : ¬ SampleByte f ps w h a) :
    Outside f ps w h a := by
  intro i row col p hd hp e
  obtain ⟨k, c, X, Y, hX, hY, hk, hkc, hl⟩ := cellOf_loc hd
  refine ha ⟨c, X, Y, _, p.slice.addr + row * p.stride + (col - k), k, hX, hY, hl, ?_, hk, ?_⟩
  · rw [locAddr]; dsimp only; rw [hp]; rfl
  · rw [← e, Plane.at]; omega

/-- `convert` of valid images returns, and changes only bytes of samples. -/
theorem convert_frame {c : Cpu F} (hc : c.vec.Lawful) {src dst : Img} {sps dps : List Plane} (hs : Valid src sps)
    (hd : Valid dst dps) (hw : src.width = dst.width) (hh : src.height = dst.height) (ew : dst.width % 2 = 0)
    (eh : dst.height % 2 = 0) (hcol : ColorsOk src dst) (hr : ReadSafe src.format sps dst.width dst.height) (m : Mem) :
    ∃ m', convert c src dst m = .ok (.ok (), m') ∧
      ∀ a, ¬ SampleByte dst.format dps dst.width dst.height a → m' a = m a := by
  obtain ⟨v, h1, h2⟩ := convertJob_sound (F := F) hs hd hw hh ew eh hcol
  obtain ⟨m', h3, h4⟩ := runVisits_frame (c := c) (v := v) (f := dst.format) (ps := dps) (w := dst.width)
    (h := dst.height) (blk := cpuBlk c dst.width) (fun m => by
      obtain ⟨V, hV⟩ := seen_exists src.format sps dst.width dst.height m
      exact ⟨_, h2 m V _ (cpuBlk_pair c ew) hV hr⟩) (visitCalls c.vec.LEN dst.width dst.height)
    (fun k hk => call_of_mem hc ew eh hk) m
  refine ⟨m', ?_, fun a ha => h4 a (outside_of_not_sampleByte ha)⟩
  rw [convert, h1, runJob_ok]
  rw [visit]
  simp only [ew, eh, ne_eq, not_true_eq_false, if_false]
  exact h3

/-! ## Verdict -/

/-- Forget the value of a successful step. -/
def report {α : Type} (r : Exec (Except ConvertError α)) : Exec (Except ConvertError Unit) :=
  match r with
  | .error e => .error e
  | .ok (.error e) => .ok (.error e)
  | .ok (.ok _) => .ok (.ok ())

theorem report_bindE {α β : Type} (r : Exec (Except ConvertError α)) (k : α → Exec (Except ConvertError β))
    (v : Exec (Except ConvertError Unit)) (vs : List (Exec (Except ConvertError Unit)))
    (hr : report r = v) (hk : ∀ a, r = .ok (.ok a) → report (k a) = firstProblem vs) :
    report (bindE r k) = firstProblem (v :: vs) := by
  subst hr
  rcases r with e | e | a
  · rfl
  · rfl
  · exact hk a rfl

theorem firstProblem_append (vs ws : List (Exec (Except ConvertError Unit))) :
    firstProblem (firstProblem vs :: ws) = firstProblem (vs ++ ws) := by
  induction vs with
  | nil => rfl
  | cons v vs ih =>
    rcases v with e | e | a
    · rfl
    · rfl
    · exact ih

theorem firstProblem_singleton (v : Exec (Except ConvertError Unit)) : firstProblem [v] = v := by
  rcases v with e | e | a <;> rfl

theorem openPlanes_report (t : Img) {n : Nat} (hn : n = planeCount t.format) :
    report (openPlanes n t) = checkBounds t ∧ ∀ l, openPlanes n t = .ok (.ok l) → ∃ ps, Valid t ps ∧ l = ps.take n := by
  cases h : t.boundsCheck with
  | error e => rw [openPlanes_fault h, checkBounds, h]; exact ⟨rfl, nofun⟩
  | ok r =>
    cases r with
    | error e => rw [openPlanes_error h, checkBounds, h]; exact ⟨rfl, nofun⟩
    | ok _ =>
      obtain ⟨ps, hv⟩ := valid_of_check h
      rw [openPlanes_ok hv hn, checkBounds, h]
      refine ⟨rfl, ?_⟩
      rintro l hl
      injection hl with hl
      injection hl with hl
      exact ⟨ps, hv, hl.symm⟩

theorem readAny_report (src : Img) :
    report (readAnyToRgba (F := F) src) = firstProblem [checkBounds src, checkColor src] := by
  cases h : src.boundsCheck with
  | error e =>
    have ho := openPlanes_fault h
    have hc : checkBounds src = .error e := by rw [checkBounds, h]; rfl
    rw [hc]
    cases hf : src.format <;>
      simp only [readAnyToRgba, hf, I420Reader.new, I422Reader.new, I444Reader.new, NV12Reader.new, YUYVReader.new,
        RgbReader.new, RgbaReader.new, ho] <;> rfl
  | ok r =>
    cases r with
    | error e =>
      have ho := openPlanes_error h
      have hc : checkBounds src = .ok (.error (.boundsCheck e)) := by rw [checkBounds, h]; rfl
      rw [hc]
      cases hf : src.format <;>
        simp only [readAnyToRgba, hf, I420Reader.new, I422Reader.new, I444Reader.new, NV12Reader.new, YUYVReader.new,
          RgbReader.new, RgbaReader.new, ho] <;> rfl
    | ok _ =>
      obtain ⟨ps, hv⟩ := valid_of_check h
      have hc : checkBounds src = .ok (.ok ()) := by rw [checkBounds, h]; rfl
      rw [hc]
      show _ = firstProblem [checkColor src]
      rw [firstProblem_singleton]
      by_cases hcol : ColorOk src.format src.color
      · obtain ⟨R, h1, _⟩ := readAny_sound (F := F) hv hcol
        rw [h1, checkColor]
        cases hy : isYuv src.format
        · rfl
        · obtain ⟨i, hi⟩ := hcol hy
          rw [hi]; rfl
      · have hy : isYuv src.format = true := by
          cases hy : isYuv src.format
          · exact (hcol (by intro h; rw [hy] at h; cases h)).elim
          · rfl
        obtain ⟨i, hi⟩ : ∃ i, src.color = .RGB i := by
          cases hc : src.color with
          | RGB i => exact ⟨i, rfl⟩
          | YUV i => exact (hcol (by intro _; exact ⟨i, hc⟩)).elim
        have hcc : checkColor src = .ok (.error .invalidColorInfo) := by rw [checkColor, hy, hi]
        rw [hcc]
        have o3 := fun h => openPlanes_ok hv (n := 3) h
        have o2 := fun h => openPlanes_ok hv (n := 2) h
        have o1 := fun h => openPlanes_ok hv (n := 1) h
        have hfit := hv.fits
        cases hf : src.format <;> rw [hf] at hy o1 o2 o3 hfit <;> try cases hy
        all_goals first
          | (obtain ⟨a, b, c, rest, rfl⟩ := planes3 hfit rfl
             simp only [readAnyToRgba, hf, I420Reader.new, I422Reader.new, I444Reader.new, o3 rfl, hi]; rfl)
          | (obtain ⟨a, b, rest, rfl⟩ := planes2 hfit rfl
             simp only [readAnyToRgba, hf, NV12Reader.new, o2 rfl, hi]; rfl)
          | (obtain ⟨a, rest, rfl⟩ := planes1 hfit rfl
             simp only [readAnyToRgba, hf, YUYVReader.new, o1 rfl, hi]; rfl)

theorem rgbaToAny_report (dst : Img) (R : RgbaSrc F) :
    report (rgbaToAny dst R) = firstProblem [checkColor dst, checkBounds dst] := by
  by_cases hcol : ColorOk dst.format dst.color
  · have hcc : checkColor dst = .ok (.ok ()) := by
      rw [checkColor]
      cases hy : isYuv dst.format
      · rfl
      · obtain ⟨i, hi⟩ := hcol hy
        rw [hi]
    rw [hcc]
    show _ = firstProblem [checkBounds dst]
    rw [firstProblem_singleton]
    cases h : dst.boundsCheck with
    | error e =>
      have ho := openPlanes_fault h
      have hc : checkBounds dst = .error e := by rw [checkBounds, h]; rfl
      rw [hc]
      cases hf : dst.format <;> rw [hf] at hcol <;>
        first
        | (simp only [rgbaToAny, hf, rgbWrite, rgbaWrite, ho]; rfl)
        | (obtain ⟨i, hi⟩ := hcol rfl
           simp only [rgbaToAny, hf, hi, yuvColor, bindE_ok, i420Write, i422Write, i444Write, nv12Write, yuyvWrite, ho]
           rfl)
    | ok r =>
      cases r with
      | error e =>
        have ho := openPlanes_error h
        have hc : checkBounds dst = .ok (.error (.boundsCheck e)) := by rw [checkBounds, h]; rfl
        rw [hc]
        cases hf : dst.format <;> rw [hf] at hcol <;>
          first
          | (simp only [rgbaToAny, hf, rgbWrite, rgbaWrite, ho]; rfl)
          | (obtain ⟨i, hi⟩ := hcol rfl
             simp only [rgbaToAny, hf, hi, yuvColor, bindE_ok, i420Write, i422Write, i444Write, nv12Write, yuyvWrite, ho]
             rfl)
      | ok _ =>
        obtain ⟨ps, hv⟩ := valid_of_check h
        have hc : checkBounds dst = .ok (.ok ()) := by rw [checkBounds, h]; rfl
        obtain ⟨v, h1, _⟩ := rgbaToAny_sound hv hcol R
        rw [hc, h1]; rfl
  · have hy : isYuv dst.format = true := by
      cases hy : isYuv dst.format
      · exact (hcol (by intro h; rw [hy] at h; cases h)).elim
      · rfl
    obtain ⟨i, hi⟩ : ∃ i, dst.color = .RGB i := by
      cases hc : dst.color with
      | RGB i => exact ⟨i, rfl⟩
      | YUV i => exact (hcol (by intro _; exact ⟨i, hc⟩)).elim
    have hcc : checkColor dst = .ok (.error .invalidColorInfo) := by rw [checkColor, hy, hi]
    rw [hcc]
    cases hf : dst.format <;> rw [hf] at hy <;> (try cases hy) <;> simp only [rgbaToAny, hf, hi] <;> rfl

theorem convertSame_report {src dst : Img} (hfm : src.format = dst.format) (hw : src.width = dst.width)
    (hh : src.height = dst.height) :
    report (convertSameJob (F := F) src dst) = firstProblem [checkBounds src, checkBounds dst] := by
  cases h : src.boundsCheck with
  | error e =>
    have ho := openPlanes_fault h
    have hc : checkBounds src = .error e := by rw [checkBounds, h]; rfl
    rw [hc, convertSameJob, if_neg (by simp [hfm])]
    cases hf : src.format <;>
      simp only [I420Reader.new, I422Reader.new, I444Reader.new, NV12Reader.new, YUYVReader.new,
        RgbReader.new, RgbaReader.new, ho] <;> rfl
  | ok r =>
    cases r with
    | error e =>
      have ho := openPlanes_error h
      have hc : checkBounds src = .ok (.error (.boundsCheck e)) := by rw [checkBounds, h]; rfl
      rw [hc, convertSameJob, if_neg (by simp [hfm])]
      cases hf : src.format <;>
        simp only [I420Reader.new, I422Reader.new, I444Reader.new, NV12Reader.new, YUYVReader.new,
          RgbReader.new, RgbaReader.new, ho] <;> rfl
    | ok _ =>
      obtain ⟨ps, hv⟩ := valid_of_check h
      have hc : checkBounds src = .ok (.ok ()) := by rw [checkBounds, h]; rfl
      rw [hc]
      show _ = firstProblem [checkBounds dst]
      rw [firstProblem_singleton]
      have bad : ∀ v : Exec (Except ConvertError Unit), (∀ n, report (openPlanes n dst) = v) → v ≠ .ok (.ok ()) →
          report (convertSameJob (F := F) src dst) = v := by
        intro v ho hne
        rw [convertSameJob, if_neg (by simp [hfm])]
        have o3 := fun h => openPlanes_ok hv (n := 3) h
        have o2 := fun h => openPlanes_ok hv (n := 2) h
        have o1 := fun h => openPlanes_ok hv (n := 1) h
        have hfit := hv.fits
        rcases v with e | e | u
        · have ho' : ∀ n, openPlanes n dst = .error e := by
            intro n
            have := ho n
            rcases h : openPlanes n dst with e' | e' | l <;> rw [h] at this <;> simp only [report] at this <;>
              cases this <;> rfl
          cases hf : src.format <;> rw [hf] at o1 o2 o3 hfit <;> first
            | (obtain ⟨a, b, c, rest, rfl⟩ := planes3 hfit rfl
               simp only [I420Reader.new, I422Reader.new, I444Reader.new, o3 rfl]
               simp only [i420Write, i422Write, i444Write, ho', bindE, ok_bind, pure_ok]; rfl)
            | (obtain ⟨a, b, rest, rfl⟩ := planes2 hfit rfl
               simp only [NV12Reader.new, o2 rfl]
               simp only [nv12Write, ho', bindE, ok_bind, pure_ok]; rfl)
            | (obtain ⟨a, rest, rfl⟩ := planes1 hfit rfl
               simp only [YUYVReader.new, RgbReader.new, RgbaReader.new, o1 rfl]
               simp only [yuyvWrite, rgbWrite, rgbaWrite, ho', bindE, ok_bind, pure_ok]; rfl)
        · have ho' : ∀ n, openPlanes n dst = .ok (.error e) := by
            intro n
            have := ho n
            rcases h : openPlanes n dst with e' | e' | l <;> rw [h] at this <;> simp only [report] at this <;>
              cases this <;> rfl
          cases hf : src.format <;> rw [hf] at o1 o2 o3 hfit <;> first
            | (obtain ⟨a, b, c, rest, rfl⟩ := planes3 hfit rfl
               simp only [I420Reader.new, I422Reader.new, I444Reader.new, o3 rfl]
               simp only [i420Write, i422Write, i444Write, ho', bindE, ok_bind, pure_ok]; rfl)
            | (obtain ⟨a, b, rest, rfl⟩ := planes2 hfit rfl
               simp only [NV12Reader.new, o2 rfl]
               simp only [nv12Write, ho', bindE, ok_bind, pure_ok]; rfl)
            | (obtain ⟨a, rest, rfl⟩ := planes1 hfit rfl
               simp only [YUYVReader.new, RgbReader.new, RgbaReader.new, o1 rfl]
               simp only [yuyvWrite, rgbWrite, rgbaWrite, ho', bindE, ok_bind, pure_ok]; rfl)
        · exact (hne rfl).elim
      cases hd : dst.boundsCheck with
      | error e =>
        have hc : checkBounds dst = .error e := by rw [checkBounds, hd]; rfl
        rw [hc]
        exact bad _ (fun n => by rw [openPlanes_fault hd]; rfl) nofun
      | ok r =>
        cases r with
        | error e =>
          have hc : checkBounds dst = .ok (.error (.boundsCheck e)) := by rw [checkBounds, hd]; rfl
          rw [hc]
          exact bad _ (fun n => by rw [openPlanes_error hd]; rfl) nofun
        | ok _ =>
          obtain ⟨dps, hv'⟩ := valid_of_check hd
          have hc : checkBounds dst = .ok (.ok ()) := by rw [checkBounds, hd]; rfl
          obtain ⟨v, h1, _⟩ := convertSame_sound (F := F) hv hv' hfm hw hh
          rw [hc, h1]; rfl

theorem convertJob_report (src dst : Img) : report (convertJob (F := F) src dst) = verdict src dst := by
  rw [convertJob, verdict, verifyInputWindows]
  by_cases h1 : src.width ≠ dst.width ∨ src.height ≠ dst.height
  · rw [if_pos h1, if_pos h1]; rfl
  · rw [if_neg h1, if_neg h1]
    by_cases h2 : src.width % 2 = 1 ∨ src.height % 2 = 1
    · rw [if_pos h2, if_pos h2]; rfl
    · rw [if_neg h2, if_neg h2, bindE_ok]
      by_cases same : src.format = dst.format ∧ src.color = dst.color
      · rw [if_pos same, if_pos same]
        exact convertSame_report same.1 (by omega) (by omega)
      · rw [if_neg same, if_neg same]
        rw [show [checkBounds src, checkColor src, checkColor dst, checkBounds dst] =
          [checkBounds src, checkColor src] ++ [checkColor dst, checkBounds dst] from rfl, ← firstProblem_append]
        refine report_bindE _ _ _ _ (readAny_report src) ?_
        intro R _
        split
        · exact rgbaToAny_report _ _
        · exact rgbaToAny_report _ _

/-- What a positive verdict means. -/
theorem verdict_ok {src dst : Img} (h : verdict src dst = .ok (.ok ())) :
    (∃ sps, Valid src sps) ∧ (∃ dps, Valid dst dps) ∧ src.width = dst.width ∧ src.height = dst.height ∧
      dst.width % 2 = 0 ∧ dst.height % 2 = 0 ∧ ColorsOk src dst := by
  have hcb : ∀ t vs, firstProblem (checkBounds t :: vs) = .ok (.ok ()) →
      (∃ ps, Valid t ps) ∧ firstProblem vs = .ok (.ok ()) := by
    intro t vs h
    rw [checkBounds] at h
    cases hb : t.boundsCheck with
    | error e => rw [hb] at h; cases h
    | ok r =>
      cases r with
      | error e => rw [hb] at h; cases h
      | ok _ => rw [hb] at h; exact ⟨valid_of_check hb, h⟩
  have hcc : ∀ t vs, firstProblem (checkColor t :: vs) = .ok (.ok ()) →
      ColorOk t.format t.color ∧ firstProblem vs = .ok (.ok ()) := by
    intro t vs h
    rw [checkColor] at h
    cases hy : isYuv t.format
    · rw [hy] at h
      exact ⟨fun h => (by rw [hy] at h; cases h), h⟩
    · rw [hy] at h
      cases hc : t.color with
      | RGB i => rw [hc] at h; cases h
      | YUV i => rw [hc] at h; exact ⟨fun _ => ⟨i, rfl⟩, h⟩
  rw [verdict] at h
  by_cases h1 : src.width ≠ dst.width ∨ src.height ≠ dst.height
  · rw [if_pos h1] at h; cases h
  · rw [if_neg h1] at h
    by_cases h2 : src.width % 2 = 1 ∨ src.height % 2 = 1
    · rw [if_pos h2] at h; cases h
    · rw [if_neg h2] at h
      by_cases same : src.format = dst.format ∧ src.color = dst.color
      · rw [if_pos same] at h
        obtain ⟨v1, h⟩ := hcb _ _ h
        obtain ⟨v2, h⟩ := hcb _ _ h
        exact ⟨v1, v2, by omega, by omega, by omega, by omega, Or.inl same⟩
      · rw [if_neg same] at h
        obtain ⟨v1, h⟩ := hcb _ _ h
        obtain ⟨c1, h⟩ := hcc _ _ h
        obtain ⟨c2, h⟩ := hcc _ _ h
        obtain ⟨v2, h⟩ := hcb _ _ h
        exact ⟨v1, v2, by omega, by omega, by omega, by omega, Or.inr ⟨c1, c2⟩⟩

theorem convert_report {c : Cpu F} {src dst : Img} {m : Mem} {r : Except ConvertError Unit} {m' : Mem}
    (h : convert c src dst m = .ok (r, m')) : verdict src dst = .ok r ∧ (r ≠ .ok () → m' = m) := by
  rw [← convertJob_report (F := F)]
  rw [convert, runJob] at h
  rcases hj : convertJob (F := F) src dst with e | e | j
  · rw [hj] at h; cases h
  · rw [hj] at h; cases h; exact ⟨rfl, fun _ => rfl⟩
  · rw [hj] at h
    have h : (visit c j m >>= fun m => pure (Except.ok (), m)) = .ok (r, m') := h
    rcases hv : visit c j m with e | m1
    · rw [hv] at h; cases h
    · rw [hv] at h; cases h; exact ⟨rfl, fun h => (h rfl).elim⟩

theorem convert_of_verdict {c : Cpu F} {src dst : Img} {m : Mem} {e : ConvertError}
    (h : verdict src dst = .ok (.error e)) : convert c src dst m = .ok (.error e, m) := by
  rw [← convertJob_report (F := F)] at h
  rw [convert, runJob]
  rcases hj : convertJob (F := F) src dst with e' | e' | j <;> rw [hj] at h <;> cases h
  rfl

theorem convert_of_fault {c : Cpu F} {src dst : Img} {m : Mem} {e : Fault}
    (h : verdict src dst = .error e) : convert c src dst m = .error e := by
  rw [← convertJob_report (F := F)] at h
  rw [convert, runJob]
  rcases hj : convertJob (F := F) src dst with e' | e' | j <;> rw [hj] at h <;> cases h
  rfl

end Ezk

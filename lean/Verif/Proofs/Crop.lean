import Verif.Proofs.Image

namespace Ezk
open Spec

/-- Front offset `crop_planes` computes for plane `i`. -/
def cropOff (f : PixelFormat) (i stride : Nat) (win : Window) : Nat :=
  sampleBytes f * (rowCount f i win.y * stride) + rowBytes f i win.x

theorem desc_width (f : PixelFormat) (i : Nat) (d : PlaneDesc) (hd : f.planeDesc[i]? = some d) (x : Nat) :
    d.bytesPerPrimitive = sampleBytes f ∧ ∃ a, a * sampleBytes f = rowBytes f i x ∧
      (d.widthOp.op x = .ok a ∨ (d.widthOp.op x = .error (.panic .overflow) ∧ usizeSize ≤ rowBytes f i x)) := by
  have hi := (planeDesc_ok f i d hd).idx
  cases f <;> simp only [planeCount] at hi <;>
    first
    | (obtain rfl | rfl | rfl : i = 0 ∨ i = 1 ∨ i = 2 := by omega) <;> cases hd <;>
      first
      | exact ⟨rfl, x, by simp [rowBytes, sampleBytes, Nat.mul_comm], .inl rfl⟩
      | exact ⟨rfl, x / 2, by simp [rowBytes, sampleBytes, Nat.mul_comm], .inl rfl⟩
    | (obtain rfl | rfl : i = 0 ∨ i = 1 := by omega) <;> cases hd <;>
      exact ⟨rfl, x, by simp [rowBytes, sampleBytes, Nat.mul_comm], .inl rfl⟩
    | (obtain rfl : i = 0 := by omega) <;> cases hd <;>
      exact ⟨rfl, _, Nat.mul_one _, mulU_cases x _⟩

theorem sampleBytes_pos (f : PixelFormat) : 0 < sampleBytes f := by cases f <;> decide

theorem cropPlane_eq (f : PixelFormat) (i : Nat) (d : PlaneDesc) (hd : f.planeDesc[i]? = some d) (p : Plane)
    (win : Window) (hlen : p.slice.len < usizeSize) :
    (cropOff f i p.stride win + rowCount f i win.height * p.stride ≤ p.slice.len →
      cropPlane d p win = .ok ⟨⟨p.slice.addr + cropOff f i p.stride win, rowCount f i win.height * p.stride⟩, p.stride⟩) ∧
    (¬ cropOff f i p.stride win + rowCount f i win.height * p.stride ≤ p.slice.len →
      ∃ k, cropPlane d p win = .error (.panic k)) := by
  obtain ⟨hb, a, ha, hw⟩ := desc_width f i d hd win.x
  have hok := planeDesc_ok f i d hd
  have hsb := sampleBytes_pos f
  have hoff : (rowCount f i win.y * p.stride + a) * sampleBytes f = cropOff f i p.stride win := by
    rw [cropOff, Nat.add_mul, ha, Nat.mul_comm (sampleBytes f)]
  have hle1 : rowCount f i win.y * p.stride + a ≤ cropOff f i p.stride win := by
    rw [← hoff]; exact Nat.le_mul_of_pos_right _ hsb
  simp only [cropPlane, hok.rows, hb, bind, Except.bind]
  constructor
  · intro hfit
    rcases hw with hw | ⟨hw, hw2⟩
    · rw [hw]
      simp only
      rw [mulP_ok (by omega)]
      simp only
      rw [addP_ok (by omega)]
      simp only
      rw [mulP_ok (by omega), hoff]
      simp only [Slice.splitAt]
      rw [if_pos (by omega)]
      simp only
      rw [mulP_ok (by omega)]
      simp only
      rw [if_pos (by omega)]
      rfl
    · exfalso
      have : rowBytes f i win.x ≤ cropOff f i p.stride win := by simp [cropOff]
      omega
  · intro hfit
    rcases hw with hw | ⟨hw, hw2⟩
    · rw [hw]
      simp only
      by_cases h1 : rowCount f i win.y * p.stride < usizeSize
      · rw [mulP_ok h1]
        simp only
        by_cases h2 : rowCount f i win.y * p.stride + a < usizeSize
        · rw [addP_ok h2]
          simp only
          by_cases h3 : (rowCount f i win.y * p.stride + a) * sampleBytes f < usizeSize
          · rw [mulP_ok h3]
            simp only [hoff, Slice.splitAt]
            by_cases h4 : cropOff f i p.stride win ≤ p.slice.len
            · rw [if_pos h4]
              simp only
              by_cases h5 : rowCount f i win.height * p.stride < usizeSize
              · rw [mulP_ok h5]
                simp only
                rw [if_neg (by omega)]
                exact ⟨_, rfl⟩
              · rw [mulP_err h5]; exact ⟨_, rfl⟩
            · rw [if_neg h4]; exact ⟨_, rfl⟩
          · rw [mulP_err h3]; exact ⟨_, rfl⟩
        · rw [addP_err h2]; exact ⟨_, rfl⟩
      · rw [mulP_err h1]; exact ⟨_, rfl⟩
    · rw [hw]; exact ⟨_, rfl⟩

/-- The cropped planes when everything fits. -/
def croppedPlanes (f : PixelFormat) (win : Window) : (i : Nat) → List Plane → List Plane
  | _, [] => []
  | i, p :: ps => ⟨⟨p.slice.addr + cropOff f i p.stride win, rowCount f i win.height * p.stride⟩, p.stride⟩ ::
      croppedPlanes f win (i + 1) ps

theorem croppedPlanes_getElem? (f : PixelFormat) (win : Window) : ∀ (ps : List Plane) (i k : Nat),
    (croppedPlanes f win i ps)[k]? = ps[k]?.map fun p =>
      ⟨⟨p.slice.addr + cropOff f (i + k) p.stride win, rowCount f (i + k) win.height * p.stride⟩, p.stride⟩
  | [], i, k => by simp [croppedPlanes]
  | p :: ps, i, 0 => by simp [croppedPlanes]
  | p :: ps, i, k + 1 => by
    simp [croppedPlanes, croppedPlanes_getElem? f win ps (i + 1) k, show i + 1 + k = i + (k + 1) by omega]

theorem croppedPlanes_length (f : PixelFormat) (win : Window) : ∀ (ps : List Plane) (i : Nat),
    (croppedPlanes f win i ps).length = ps.length
  | [], i => by simp [croppedPlanes]
  | p :: ps, i => by simp [croppedPlanes, croppedPlanes_length f win ps]

/-- Plane `k` is long enough for the window. -/
def CropFits (f : PixelFormat) (win : Window) (ps : List Plane) (i : Nat) : Prop :=
  ∀ k p, ps[k]? = some p →
    cropOff f (i + k) p.stride win + rowCount f (i + k) win.height * p.stride ≤ p.slice.len

theorem cropZip (f : PixelFormat) (win : Window) :
    ∀ (ds : List PlaneDesc) (ps : List Plane) (i : Nat), f.planeDesc.drop i = ds →
      (∀ p ∈ ps, p.slice.len < usizeSize) →
      (CropFits f win (ps.take ds.length) i →
        (ds.zip ps).mapM (fun (d, p) => cropPlane d p win) = .ok (croppedPlanes f win i (ps.take ds.length))) ∧
      (¬ CropFits f win (ps.take ds.length) i →
        ∃ k, (ds.zip ps).mapM (fun (d, p) => cropPlane d p win) = .error (.panic k))
  | [], ps, i, _, _ => by
    simp [CropFits, croppedPlanes, pure, Except.pure]
  | d :: ds, [], i, _, _ => by
    simp [CropFits, croppedPlanes, pure, Except.pure]
  | d :: ds, p :: ps, i, hd, hlen => by
    have hdi : f.planeDesc[i]? = some d := by
      have := congrArg (·[0]?) hd
      simpa using this
    have ih := cropZip f win ds ps (i + 1) (by rw [← List.drop_drop, hd]; rfl)
      (fun q hq => hlen q (List.mem_cons_of_mem _ hq))
    have h0 := cropPlane_eq f i d hdi p win (hlen p (List.mem_cons_self ..))
    have hsplit : CropFits f win (p :: ps.take ds.length) i ↔
        cropOff f i p.stride win + rowCount f i win.height * p.stride ≤ p.slice.len ∧
          CropFits f win (ps.take ds.length) (i + 1) := by
      constructor
      · intro H
        refine ⟨by simpa using H 0 p rfl, fun k q hq => ?_⟩
        have := H (k + 1) q (by simpa using hq)
        rwa [show i + (k + 1) = i + 1 + k by omega] at this
      · rintro ⟨H1, H2⟩ k q hq
        cases k with
        | zero =>
          simp only [List.getElem?_cons_zero, Option.some.injEq] at hq
          subst hq; exact H1
        | succ k =>
          have := H2 k q (by simpa using hq)
          rwa [show i + 1 + k = i + (k + 1) by omega] at this
    simp only [List.length_cons, List.take_succ_cons, List.zip_cons_cons, List.mapM_cons, hsplit]
    constructor
    · rintro ⟨H1, H2⟩
      rw [h0.1 H1, ih.1 H2]
      rfl
    · intro H
      by_cases H1 : cropOff f i p.stride win + rowCount f i win.height * p.stride ≤ p.slice.len
      · obtain ⟨k, hk⟩ := ih.2 (fun hc => H ⟨H1, hc⟩)
        refine ⟨k, ?_⟩
        rw [h0.1 H1, hk]
        rfl
      · obtain ⟨k, hk⟩ := h0.2 H1
        refine ⟨k, ?_⟩
        rw [hk]
        rfl

theorem cropPlanes_eq (f : PixelFormat) (win : Window) (ps : List Plane) (hlen : ∀ p ∈ ps, p.slice.len < usizeSize) :
    (CropFits f win (ps.take (planeCount f)) 0 →
      cropPlanes f.planeDesc ps win = .ok (croppedPlanes f win 0 (ps.take (planeCount f)))) ∧
    (¬ CropFits f win (ps.take (planeCount f)) 0 → ∃ k, cropPlanes f.planeDesc ps win = .error (.panic k)) := by
  have := cropZip f win f.planeDesc ps 0 (by simp) hlen
  rw [planeDesc_length] at this
  exact this

/-- Chroma-aligned offsets translate sample locations. -/
theorem sampleLoc_shift {f : PixelFormat} {c : Chan} {x y i j : Nat} {l : Loc}
    (hx : x % hsub f = 0) (hy : y % vsub f = 0) (hl : sampleLoc f c i j = some l) :
    sampleLoc f c (x + i) (y + j) =
      some ⟨l.plane, rowCount f l.plane y + l.row, rowBytes f l.plane x + l.col⟩ := by
  cases f <;> cases c <;> simp only [sampleLoc, Option.some.injEq, reduceCtorEq] at hl <;> subst hl <;>
    simp [sampleLoc, rowCount, rowBytes, hsub, vsub] at hx hy ⊢ <;> omega

theorem sampleLoc_none {f : PixelFormat} {c : Chan} {i j x y : Nat} (h : sampleLoc f c i j = none) :
    sampleLoc f c x y = none := by
  cases f <;> cases c <;> simp_all [sampleLoc]

theorem sampleLoc_plane {f : PixelFormat} {c : Chan} {i j : Nat} {l : Loc} (h : sampleLoc f c i j = some l) :
    l.plane < planeCount f := by
  cases f <;> cases c <;> simp only [sampleLoc, Option.some.injEq, reduceCtorEq] at h <;> subst h <;> simp [planeCount]

theorem rowBytes_mono (f : PixelFormat) (i : Nat) {a b : Nat} (h : a ≤ b) : rowBytes f i a ≤ rowBytes f i b := by
  cases f <;> simp only [rowBytes] <;> (try split) <;> omega

theorem rowCount_mono (f : PixelFormat) (i : Nat) {a b : Nat} (h : a ≤ b) : rowCount f i a ≤ rowCount f i b := by
  cases f <;> simp only [rowCount] <;> (try split) <;> omega

theorem rowBytes_add {f : PixelFormat} {x : Nat} (hx : x % hsub f = 0) (i b : Nat) :
    rowBytes f i (x + b) = rowBytes f i x + rowBytes f i b := by
  cases f <;> simp only [rowBytes, hsub] at hx ⊢ <;> (try split) <;> omega

theorem rowCount_add {f : PixelFormat} {y : Nat} (hy : y % vsub f = 0) (i b : Nat) :
    rowCount f i (y + b) = rowCount f i y + rowCount f i b := by
  cases f <;> simp only [rowCount, vsub] at hy ⊢ <;> (try split) <;> omega

theorem cropOff_add {f : PixelFormat} (i s : Nat) (w1 w2 : Window) (hx : w1.x % hsub f = 0) (hy : w1.y % vsub f = 0) :
    cropOff f i s ⟨w1.x + w2.x, w1.y + w2.y, w2.width, w2.height⟩ = cropOff f i s w1 + cropOff f i s w2 := by
  simp only [cropOff, rowBytes_add hx, rowCount_add hy, Nat.add_mul, Nat.mul_add]
  omega

theorem crop_eq (t : Img) (win : Window) (hb : t.boundsCheck = .ok (.ok ())) :
    (WindowInside win t.width t.height → t.crop win = .ok (.ok (.cropped t win))) ∧
    (¬ WindowInside win t.width t.height → t.crop win = .ok (.error .windowSizeOutOfBounds)) := by
  simp only [Img.crop, WindowInside, hb, bind, Except.bind, pure, Except.pure, usizeSize]
  refine ⟨fun h => ?_, fun h => ?_⟩
  · rw [if_neg (by omega), if_neg (by omega), if_neg (by omega)]
  · by_cases h1 : win.x + win.width < 2 ^ 64
    · by_cases h2 : win.y + win.height < 2 ^ 64
      · rw [if_neg (by omega), if_neg (by omega), if_pos (by omega)]
      · rw [if_neg (by omega), if_pos (by omega)]
    · rw [if_pos (by omega)]

theorem crop_eq_err (t : Img) (win : Window) (e : BoundsCheckError) (hb : t.boundsCheck = .ok (.error e)) :
    t.crop win = .ok (.error (.boundsCheck e)) := by
  simp only [Img.crop, hb, bind, Except.bind, pure, Except.pure]

theorem crop_eq_fault (t : Img) (win : Window) (e : Fault) (hb : t.boundsCheck = .error e) :
    t.crop win = .error e := by
  simp only [Img.crop, hb, bind, Except.bind]

/-- Two nested crops have the planes of a single one. -/
theorem crop_twice (t : Img) (w1 w2 : Window) (hal : Aligned t.format w1) (qs : List Plane)
    (hlen : ∀ ps, t.planes = .ok ps → ∀ p ∈ ps, p.slice.len < 2 ^ 64)
    (hq : (Img.cropped (.cropped t w1) w2).planes = .ok qs) :
    (Img.cropped t (addWindow w1 w2)).planes = .ok qs ∧
      ∀ ps1, (Img.cropped t w1).planes = .ok ps1 → ∀ p ∈ ps1, p.slice.len < 2 ^ 64 := by
  cases hps : t.planes with
  | error e => simp [Img.planes, hps, bind, Except.bind] at hq
  | ok ps =>
    have hl := hlen ps hps
    by_cases h1 : CropFits t.format w1 (ps.take (planeCount t.format)) 0
    · have e1 := (cropPlanes_eq t.format w1 ps hl).1 h1
      have hlen1 : ∀ p ∈ croppedPlanes t.format w1 0 (ps.take (planeCount t.format)), p.slice.len < usizeSize := by
        intro p hp
        obtain ⟨k, hk⟩ := List.mem_iff_getElem?.1 hp
        rw [croppedPlanes_getElem?, Option.map_eq_some_iff] at hk
        obtain ⟨p0, hp0, rfl⟩ := hk
        have := h1 k p0 hp0
        have h3 := hl p0 (List.mem_iff_getElem?.2 ⟨k, (take_getElem?.1 hp0).2⟩)
        simp only
        simp only [usizeSize]
        omega
      have hp1 : (Img.cropped t w1).planes = .ok (croppedPlanes t.format w1 0 (ps.take (planeCount t.format))) := by
        simp only [Img.planes, hps, bind, Except.bind]; exact e1
      refine ⟨?_, by intro ps1 h; rw [hp1] at h; cases h; exact hlen1⟩
      have hq2 : cropPlanes t.format.planeDesc (croppedPlanes t.format w1 0 (ps.take (planeCount t.format))) w2 = .ok qs := by
        rw [Img.planes, hp1] at hq
        exact hq
      by_cases h2 : CropFits t.format w2
          ((croppedPlanes t.format w1 0 (ps.take (planeCount t.format))).take (planeCount t.format)) 0
      · rw [(cropPlanes_eq t.format w2 _ hlen1).1 h2] at hq2
        have hfit : CropFits t.format (addWindow w1 w2) (ps.take (planeCount t.format)) 0 := by
          intro k p hk
          have a1 := h1 k p hk
          have a2 := h2 k ⟨⟨p.slice.addr + cropOff t.format k p.stride w1, rowCount t.format k w1.height * p.stride⟩, p.stride⟩
            (by
              rw [take_getElem?]
              refine ⟨(take_getElem?.1 hk).1, ?_⟩
              rw [croppedPlanes_getElem?, hk]
              simp)
          simp only [Nat.zero_add, addWindow, cropOff_add k p.stride w1 w2 hal.1 hal.2] at a1 a2 ⊢
          omega
        simp only [Img.planes, hps, bind, Except.bind]
        rw [(cropPlanes_eq t.format _ ps hl).1 hfit]
        simp only [Except.ok.injEq] at hq2 ⊢
        rw [← hq2]
        apply List.ext_getElem?
        intro k
        rw [croppedPlanes_getElem?, croppedPlanes_getElem?]
        by_cases hk : k < planeCount t.format
        · rw [List.getElem?_take, if_pos hk, List.getElem?_take, if_pos hk, croppedPlanes_getElem?,
            List.getElem?_take, if_pos hk]
          cases ps[k]? with
          | none => rfl
          | some p =>
            simp only [Option.map_some, Nat.zero_add, addWindow, cropOff_add k p.stride w1 w2 hal.1 hal.2]
            simp [Nat.add_assoc]
        · rw [List.getElem?_take, if_neg hk, List.getElem?_take, if_neg hk]
          rfl
      · obtain ⟨k, hk⟩ := (cropPlanes_eq t.format w2 _ hlen1).2 h2
        rw [hk] at hq2
        cases hq2
    · obtain ⟨k, hk⟩ := (cropPlanes_eq t.format w1 ps hl).2 h1
      simp [Img.planes, hps, bind, Except.bind, hk] at hq


/-- `t'` is a drop-in replacement of `t` wherever the planes of `t` can be read. -/
structure Sim (t t' : Img) : Prop where
  format : t'.format = t.format
  width : t'.width = t.width
  height : t'.height = t.height
  color : t'.color = t.color
  planes : ∀ ps, t.planes = .ok ps → t'.planes = .ok ps

theorem boundsCheck_planes {t : Img} (h : t.boundsCheck = .ok (.ok ())) : ∃ ps, t.planes = .ok ps := by
  cases hp : t.planes with
  | error e => simp [Img.boundsCheck, hp, bind, Except.bind] at h
  | ok ps => exact ⟨ps, rfl⟩

theorem Sim.boundsCheck {t t' : Img} (hs : Sim t t') (h : t.boundsCheck = .ok (.ok ())) :
    t'.boundsCheck = .ok (.ok ()) := by
  obtain ⟨ps, hp⟩ := boundsCheck_planes h
  have := hs.planes ps hp
  simp only [Img.boundsCheck, hp, this, bind, Except.bind, hs.format, hs.width, hs.height] at h ⊢
  exact h

theorem crop_ok_inv {t c : Img} {win : Window} (h : t.crop win = .ok (.ok c)) :
    t.boundsCheck = .ok (.ok ()) ∧ WindowInside win t.width t.height ∧ c = .cropped t win := by
  rcases hb : t.boundsCheck with e | e | ⟨⟩
  · rw [crop_eq_fault _ _ _ hb] at h; cases h
  · rw [crop_eq_err _ _ _ hb] at h; cases h
  · by_cases hin : WindowInside win t.width t.height
    · rw [(crop_eq t win hb).1 hin] at h
      cases h
      exact ⟨rfl, hin, rfl⟩
    · rw [(crop_eq t win hb).2 hin] at h
      cases h

theorem Sim.crop {t t' c : Img} (hs : Sim t t') {win : Window} (h : t.crop win = .ok (.ok c)) :
    ∃ c', t'.crop win = .ok (.ok c') ∧ Sim c c' := by
  obtain ⟨hb, hin, rfl⟩ := crop_ok_inv h
  refine ⟨.cropped t' win, (crop_eq t' win (hs.boundsCheck hb)).1 (by rw [hs.width, hs.height]; exact hin), ?_⟩
  obtain ⟨ps, hp⟩ := boundsCheck_planes hb
  refine ⟨hs.format, rfl, rfl, hs.color, fun qs hq => ?_⟩
  simp only [Img.planes, hp, bind, Except.bind] at hq
  simp only [Img.planes, hs.planes ps hp, bind, Except.bind, hs.format]
  exact hq

end Ezk

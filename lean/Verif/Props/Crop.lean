import Verif.Proofs.Crop

/-!
# C07–C09: cropping
-/

namespace Ezk.Props
open Spec

/-- **C07.** `crop` succeeds exactly when the parent passes `bounds_check` and the window is inside; the result has
the window's size and the parent's format and colour. -/
theorem C07_crop_ok (t c : Img) (win : Window) :
    t.crop win = .ok (.ok c) ↔
      t.boundsCheck = .ok (.ok ()) ∧ WindowInside win t.width t.height ∧ c = .cropped t win := by
  rcases hb : t.boundsCheck with e | e | ⟨⟩
  · rw [crop_eq_fault _ _ _ hb]; simp
  · rw [crop_eq_err _ _ _ hb]; simp [eq_comm]
  · by_cases hin : WindowInside win t.width t.height
    · rw [(crop_eq t win hb).1 hin]; simp [hin, eq_comm]
    · rw [(crop_eq t win hb).2 hin]; simp [hin, eq_comm]

/-- **C07.** The errors: the parent's bounds-check error, or `WindowSizeOutOfBounds` for every other window. -/
theorem C07_crop_error (t : Img) (win : Window) (e : CropError) :
    t.crop win = .ok (.error e) ↔
      (∃ b, t.boundsCheck = .ok (.error b) ∧ e = .boundsCheck b) ∨
      t.boundsCheck = .ok (.ok ()) ∧ ¬ WindowInside win t.width t.height ∧ e = .windowSizeOutOfBounds := by
  rcases hb : t.boundsCheck with e | e | ⟨⟩
  · rw [crop_eq_fault _ _ _ hb]; simp
  · rw [crop_eq_err _ _ _ hb]; simp [eq_comm]
  · by_cases hin : WindowInside win t.width t.height
    · rw [(crop_eq t win hb).1 hin]; simp [hin, eq_comm]
    · rw [(crop_eq t win hb).2 hin]; simp [hin, eq_comm]

/-- **C07.** `crop` itself panics only if the parent's `bounds_check` does. -/
theorem C07_crop_panic (t : Img) (win : Window) (flt : Fault) :
    t.crop win = .error flt ↔ t.boundsCheck = .error flt := by
  rcases hb : t.boundsCheck with e | e | ⟨⟩
  · rw [crop_eq_fault _ _ _ hb]; simp
  · rw [crop_eq_err _ _ _ hb]; simp [eq_comm]
  · by_cases hin : WindowInside win t.width t.height
    · rw [(crop_eq t win hb).1 hin]; simp [hin, eq_comm]
    · rw [(crop_eq t win hb).2 hin]; simp [hin, eq_comm]

/-- Non-vacuity of C07. -/
example : ∃ c, (Img.raw .NV12 6 4 [⟨⟨0, 32⟩, 8⟩, ⟨⟨40, 16⟩, 8⟩] (.RGB ⟨.Linear, .BT709⟩)).crop ⟨2, 2, 4, 2⟩ = .ok (.ok c) :=
  ⟨_, rfl⟩
/-- A window whose sum wraps around in `usize` is rejected. -/
example : (Img.raw .NV12 6 4 [⟨⟨0, 32⟩, 8⟩, ⟨⟨40, 16⟩, 8⟩] (.RGB ⟨.Linear, .BT709⟩)).crop ⟨2 ^ 64 - 1, 0, 2, 2⟩ =
    .ok (.error .windowSizeOutOfBounds) := rfl

/-! ## C08 -/

/-- **C08** (partial). For an accepted, chroma-aligned window, if either samples are single bytes or the window starts
in the first row, and every plane has a full stride behind the window's last row, then reading the cropped view does
not panic, the view passes `bounds_check`, and its sample `c` of `(i, j)` is the parent's sample `c` of `(x+i, y+j)`.

Missing: 16-bit formats with `y > 0` (false, see `C08_wrong_rows_16bit`) and exactly sized planes with `x > 0` at the
bottom (false, see `C08_exact_plane_panics`). -/
theorem C08_crop_shows_window_partial (t c : Img) (win : Window) (ps : List Plane)
    (hc : t.crop win = .ok (.ok c)) (hps : t.planes = .ok ps) (hlen : ∀ p ∈ ps, p.slice.len < 2 ^ 64)
    (hal : Aligned t.format win) (h16 : sampleBytes t.format = 1 ∨ win.y = 0)
    (hrows : ∀ i < planeCount t.format, ∀ p, ps[i]? = some p → HasWindowRows t.format win i p) :
    ∃ qs, c.planes = .ok qs ∧ c.boundsCheck = .ok (.ok ()) ∧
      ∀ (m : Mem) (ch : Chan) (i j : Nat),
        sample c.format qs m ch i j = sample t.format ps m ch (win.x + i) (win.y + j) := by
  obtain ⟨hb, hin, rfl⟩ := (C07_crop_ok t c win).1 hc
  have hb' : t.format.boundsCheck ps t.width t.height = .ok (.ok ()) := by
    simpa [Img.boundsCheck, hps, bind, Except.bind] using hb
  obtain ⟨hn, hfit⟩ := (boundsCheck_ok _ _ _ _).1 hb'
  have hoff : ∀ i s, cropOff t.format i s win = rowCount t.format i win.y * s + rowBytes t.format i win.x := by
    intro i s
    rcases h16 with h | h
    · simp [cropOff, h]
    · have : rowCount t.format i win.y = 0 := by
        rw [h]; cases t.format <;> simp [rowCount]
      simp [cropOff, this]
  have hcf : CropFits t.format win (ps.take (planeCount t.format)) 0 := by
    intro k p hk
    obtain ⟨hk1, hk2⟩ := take_getElem?.1 hk
    have := hrows k hk1 p hk2
    rw [HasWindowRows, Nat.add_mul] at this
    simp only [Nat.zero_add, hoff]
    omega
  have hq := (cropPlanes_eq t.format win ps hlen).1 hcf
  have hget : ∀ k, k < planeCount t.format →
      (croppedPlanes t.format win 0 (ps.take (planeCount t.format)))[k]? = ps[k]?.map fun p =>
        ⟨⟨p.slice.addr + cropOff t.format k p.stride win, rowCount t.format k win.height * p.stride⟩, p.stride⟩ := by
    intro k hk
    rw [croppedPlanes_getElem?, List.getElem?_take, if_pos hk]
    simp
  have hcp : (Img.cropped t win).planes = .ok (croppedPlanes t.format win 0 (ps.take (planeCount t.format))) := by
    simp only [Img.planes, hps, bind, Except.bind]
    exact hq
  refine ⟨_, hcp, ?_, ?_⟩
  · simp only [Img.boundsCheck, hcp, bind, Except.bind]
    simp only [Img.format, Img.width, Img.height]
    rw [boundsCheck_ok]
    refine ⟨by rw [croppedPlanes_length]; simp; omega, fun i hi q hqi => ?_⟩
    rw [hget i hi, Option.map_eq_some_iff] at hqi
    obtain ⟨p, hp, rfl⟩ := hqi
    have hf := hfit i hi p hp
    have hmono := rowBytes_mono t.format i (Nat.le_trans (Nat.le_add_left win.width win.x) hin.1)
    have hrow := hrows i hi p hp
    have hl := hlen p (List.mem_iff_getElem?.2 ⟨i, hp⟩)
    rw [HasWindowRows, Nat.add_mul] at hrow
    have h1 := hf.packed_usize
    have h2 := hf.stride_ge
    have hcomm : p.stride * rowCount t.format i win.height = rowCount t.format i win.height * p.stride :=
      Nat.mul_comm ..
    exact ⟨by omega, by simp only; omega, by simp only; omega, by simp only; omega⟩
  · intro m ch i j
    simp only [Img.format, sample]
    cases hl : sampleLoc t.format ch i j with
    | none => rw [sampleLoc_none hl]; rfl
    | some l =>
      rw [sampleLoc_shift hal.1 hal.2 hl]
      have hlp := sampleLoc_plane hl
      simp only [Option.bind_some, locAddr, hget l.plane hlp]
      cases hp : ps[l.plane]? with
      | none => rfl
      | some p =>
        simp only [Option.map_some, hoff, Nat.add_mul]
        congr 2
        omega

/-- Non-vacuity of `C08_crop_shows_window_partial`: a padded I420 image. -/
example : let t := Img.raw .I420 8 4 [⟨⟨0, 50⟩, 12⟩, ⟨⟨50, 20⟩, 8⟩, ⟨⟨70, 20⟩, 8⟩] (.RGB ⟨.Linear, .BT709⟩)
    (∃ c, t.crop ⟨2, 2, 4, 2⟩ = .ok (.ok c)) ∧ Aligned t.format ⟨2, 2, 4, 2⟩ ∧
      HasWindowRows t.format ⟨2, 2, 4, 2⟩ 0 ⟨⟨0, 50⟩, 12⟩ ∧ HasWindowRows t.format ⟨2, 2, 4, 2⟩ 2 ⟨⟨70, 20⟩, 8⟩ :=
  ⟨⟨_, rfl⟩, by decide, by decide, by decide⟩

/-- The no-panic condition is exact for single-byte formats: if some plane lacks the stride behind the window's last
row, reading the view panics. -/
theorem C08_crop_panics_iff (t c : Img) (win : Window) (ps : List Plane)
    (hc : t.crop win = .ok (.ok c)) (hps : t.planes = .ok ps) (hlen : ∀ p ∈ ps, p.slice.len < 2 ^ 64)
    (h8 : sampleBytes t.format = 1) :
    (∃ k, c.planes = .error (.panic k)) ↔
      ∃ i < planeCount t.format, ∃ p, ps[i]? = some p ∧ ¬ HasWindowRows t.format win i p := by
  obtain ⟨hb, hin, rfl⟩ := (C07_crop_ok t c win).1 hc
  have hcp : (Img.cropped t win).planes = cropPlanes t.format.planeDesc ps win := by
    simp only [Img.planes, hps, bind, Except.bind]
  rw [hcp]
  have hiff : CropFits t.format win (ps.take (planeCount t.format)) 0 ↔
      ∀ i < planeCount t.format, ∀ p, ps[i]? = some p → HasWindowRows t.format win i p := by
    simp only [CropFits, HasWindowRows, cropOff, h8, Nat.one_mul, Nat.zero_add, Nat.add_mul]
    constructor
    · intro H i hi p hp
      have := H i p (take_getElem?.2 ⟨hi, hp⟩)
      omega
    · intro H k p hk
      obtain ⟨hk1, hk2⟩ := take_getElem?.1 hk
      have := H k hk1 p hk2
      omega
  have hex : (∃ i < planeCount t.format, ∃ p, ps[i]? = some p ∧ ¬ HasWindowRows t.format win i p) ↔
      ¬ CropFits t.format win (ps.take (planeCount t.format)) 0 := by
    rw [hiff]
    simp only [Classical.not_forall]
    constructor
    · rintro ⟨i, hi, p, hp, hn⟩; exact ⟨i, hi, p, hp, hn⟩
    · rintro ⟨i, hi, p, hp, hn⟩; exact ⟨i, hi, p, hp, hn⟩
  rw [hex]
  have := cropPlanes_eq t.format win ps hlen
  constructor
  · rintro ⟨k, hk⟩ hfits
    rw [this.1 hfits] at hk
    cases hk
  · exact this.2

/-- **C08 is false** of the code, part 1: cropping away the first columns of an exactly sized image, down to its last
row, is accepted, but reading the cropped image panics. -/
theorem C08_exact_plane_panics :
    ∃ (t c : Img) (win : Window), t.crop win = .ok (.ok c) ∧ Aligned t.format win ∧
      c.planes = .error (.panic .splitAt) := by
  refine ⟨.image ⟨.RGBA, .whole ⟨0, 32⟩, [16], 4, 2, .RGB ⟨.Linear, .BT709⟩⟩, _, ⟨2, 0, 2, 2⟩, rfl, by decide, rfl⟩

/-- **C08 is false** of the code, part 2: for 16-bit formats the byte stride is multiplied by 2 again, so a crop that
starts at row 2 shows row 4. -/
theorem C08_wrong_rows_16bit :
    ∃ (t c : Img) (win : Window) (ps qs : List Plane), t.crop win = .ok (.ok c) ∧ Aligned t.format win ∧
      t.planes = .ok ps ∧ c.planes = .ok qs ∧
      ∃ m : Mem, sample c.format qs m .Y 0 0 ≠ sample t.format ps m .Y win.x win.y ∧
        sample c.format qs m .Y 0 0 = sample t.format ps m .Y win.x (win.y + 2) := by
  refine ⟨.raw .I410 2 8 [⟨⟨0, 32⟩, 4⟩, ⟨⟨32, 32⟩, 4⟩, ⟨⟨64, 32⟩, 4⟩] (.RGB ⟨.Linear, .BT709⟩), _, ⟨0, 2, 2, 2⟩,
    _, _, rfl, by decide, rfl, rfl, fun a => UInt8.ofNat a, ?_, ?_⟩ <;> decide

/-! ## C09 -/

/-- Crop repeatedly. -/
def cropMany : Img → List Window → Exec (Except CropError Img)
  | t, [] => .ok (.ok t)
  | t, w :: ws => do
    match ← t.crop w with
    | .error e => return .error e
    | .ok c => cropMany c ws

theorem cropMany_cons {t c : Img} {w : Window} {ws : List Window} :
    cropMany t (w :: ws) = .ok (.ok c) ↔ ∃ c1, t.crop w = .ok (.ok c1) ∧ cropMany c1 ws = .ok (.ok c) := by
  simp only [cropMany, bind, Except.bind]
  rcases h1 : t.crop w with e | e | c1 <;> simp [pure, Except.pure]

theorem cropMany_sim {t t' c : Img} {ws : List Window} (hs : Sim t t') (h : cropMany t ws = .ok (.ok c)) :
    ∃ c', cropMany t' ws = .ok (.ok c') ∧ Sim c c' := by
  induction ws generalizing t t' with
  | nil =>
    simp only [cropMany, Except.ok.injEq] at h ⊢
    subst h
    exact ⟨t', rfl, hs⟩
  | cons w ws ih =>
    obtain ⟨c1, h1, h2⟩ := cropMany_cons.1 h
    obtain ⟨c1', h1', hs1⟩ := hs.crop h1
    obtain ⟨c', h3, hs2⟩ := ih hs1 h2
    exact ⟨c', cropMany_cons.2 ⟨c1', h1', h3⟩, hs2⟩

/-- **C09.** Any number of nested crops (all but the innermost aligned to the chroma grid) that can be read is
also accepted as one single crop with the summed offsets, and shows exactly the same planes – for every format,
also the 16-bit ones. -/
theorem C09_crops_compose (t c : Img) (w : Window) (ws : List Window) (qs : List Plane)
    (hc : cropMany t (w :: ws) = .ok (.ok c)) (hq : c.planes = .ok qs)
    (hlen : ∀ ps, t.planes = .ok ps → ∀ p ∈ ps, p.slice.len < 2 ^ 64)
    (hal : ∀ v ∈ (w :: ws).dropLast, Aligned t.format v) :
    ∃ c', t.crop (ws.foldl addWindow w) = .ok (.ok c') ∧ c'.planes = .ok qs ∧
      c'.format = c.format ∧ c'.width = c.width ∧ c'.height = c.height ∧ c'.color = c.color := by
  suffices H : ∃ c', t.crop (ws.foldl addWindow w) = .ok (.ok c') ∧ Sim c c' by
    obtain ⟨c', h1, hs⟩ := H
    exact ⟨c', h1, hs.planes qs hq, hs.format, hs.width, hs.height, hs.color⟩
  clear hq qs
  induction ws generalizing w c with
  | nil =>
    obtain ⟨c1, h1, h2⟩ := cropMany_cons.1 hc
    simp only [cropMany, Except.ok.injEq] at h2
    subst h2
    exact ⟨c1, h1, rfl, rfl, rfl, rfl, fun _ h => h⟩
  | cons w2 ws ih =>
    obtain ⟨c1, h1, h⟩ := cropMany_cons.1 hc
    obtain ⟨c2, h2, h3⟩ := cropMany_cons.1 h
    obtain ⟨hb1, hin1, rfl⟩ := crop_ok_inv h1
    obtain ⟨hb2, hin2, rfl⟩ := crop_ok_inv h2
    have hal1 : Aligned t.format w := hal w (by simp)
    have hsim : Sim (.cropped (.cropped t w) w2) (.cropped t (addWindow w w2)) :=
      ⟨rfl, rfl, rfl, rfl, fun qs hq => (crop_twice t w w2 hal1 qs hlen hq).1⟩
    obtain ⟨c', h4, hs⟩ := cropMany_sim hsim h3
    have hin : WindowInside (addWindow w w2) t.width t.height := by
      simp only [WindowInside, addWindow, Img.width, Img.height] at hin1 hin2 ⊢
      omega
    have h5 : cropMany t (addWindow w w2 :: ws) = .ok (.ok c') :=
      cropMany_cons.2 ⟨_, (crop_eq t _ hb1).1 hin, h4⟩
    have hal2 : ∀ v ∈ (addWindow w w2 :: ws).dropLast, Aligned t.format v := by
      intro v hv
      cases ws with
      | nil => simp at hv
      | cons w3 ws =>
        simp only [List.dropLast_cons_cons, List.mem_cons] at hv
        have hal' : Aligned t.format w2 := hal w2 (by simp)
        rcases hv with rfl | hv
        · constructor
          · rw [addWindow, Nat.add_mod, hal1.1, hal'.1]; simp
          · rw [addWindow, Nat.add_mod, hal1.2, hal'.2]; simp
        · exact hal v (by simp [hv])
    obtain ⟨c'', h6, hs2⟩ := ih c' (addWindow w w2) h5 hal2
    exact ⟨c'', h6, hs2.format.trans hs.format, hs2.width.trans hs.width, hs2.height.trans hs.height,
      hs2.color.trans hs.color, fun qs hq => hs2.planes qs (hs.planes qs hq)⟩

/-- Non-vacuity of C09: three nested crops of a padded NV12 image. -/
example :
    let t := Img.raw .NV12 16 8 [⟨⟨0, 400⟩, 32⟩, ⟨⟨400, 300⟩, 32⟩] (.RGB ⟨.Linear, .BT709⟩)
    let ws : List Window := [⟨2, 2, 12, 6⟩, ⟨4, 2, 6, 2⟩, ⟨1, 0, 4, 1⟩]
    ∃ c qs, cropMany t ws = .ok (.ok c) ∧ c.planes = .ok qs ∧ ∀ v ∈ ws.dropLast, Aligned t.format v :=
  ⟨.cropped (.cropped (.cropped (.raw .NV12 16 8 [⟨⟨0, 400⟩, 32⟩, ⟨⟨400, 300⟩, 32⟩] (.RGB ⟨.Linear, .BT709⟩))
    ⟨2, 2, 12, 6⟩) ⟨4, 2, 6, 2⟩) ⟨1, 0, 4, 1⟩, _, rfl, rfl, by decide⟩

end Ezk.Props

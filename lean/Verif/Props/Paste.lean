import Verif.Props.Copy
import Verif.Props.Tiles

/-!
# C72: parts of images are copied to where they belong
-/

namespace Ezk.Props
open Ezk Spec

/-- A part of an image begins at an even column and row (chroma cells are not cut), in row 0 if there are 16-bit samples (see C08). -/
def EvenPart (f : PixelFormat) (win : Window) : Prop :=
  win.x % 2 = 0 ∧ win.y % 2 = 0 ∧ (sampleBytes f = 1 ∨ win.y = 0)

instance (f : PixelFormat) (win : Window) : Decidable (EvenPart f win) := inferInstanceAs (Decidable (_ ∧ _ ∧ _))

/-- What Rust's rules and types guarantee of an image that is copied from and one that is copied to. -/
structure Apart (src dst : Img) (sps dps : List Plane) : Prop where
  srcPlanes : src.planes = .ok sps
  dstPlanes : dst.planes = .ok dps
  srcLen : ∀ p ∈ sps, p.slice.len < 2 ^ 64
  dstLen : ∀ p ∈ dps, p.slice.len < 2 ^ 64
  disjoint : PlanesDisjoint dst.format dps
  separate : Separate src.format sps dst.format dps

variable {src dst s d : Img} {sps dps : List Plane} {m m' : Mem} {w1 w2 : Window}

theorem copy_planes {s d : Img} (h : copyImpl s d m = .ok (.ok (), m')) : (∃ sqs, s.planes = .ok sqs) ∧ ∃ dqs, d.planes = .ok dqs :=
  ⟨boundsCheck_planes (copy_checks h).src, boundsCheck_planes (copy_checks h).dst⟩

/-- Slices of crops end with the last row. -/
theorem crop_ends {t : Img} {win : Window} {ps qs : List Plane} (hps : t.planes = .ok ps) (hlen : ∀ p ∈ ps, p.slice.len < 2 ^ 64)
    (hq : (Img.cropped t win).planes = .ok qs) {i : Nat} {q : Plane} (hi : i < planeCount t.format) (hqi : qs[i]? = some q)
    (h0 : 0 < q.stride) : q.slice.len < q.stride * (rowCount t.format i win.height + 1) := by
  obtain ⟨p, -, rfl, -⟩ := crop_get hps hlen hq hi hqi
  dsimp only at h0 ⊢
  rw [Nat.mul_add, Nat.mul_comm]
  omega

/-- **C72** (partial: even positions and sizes; 16-bit samples only with windows in row 0, see `C72_16bit_false`). A part of one image is
copied to a part of another: the pixels there get the samples of the pixels of the source, all other pixels keep theirs, and so do all
bytes that belong to no pixel (whereas a copy of whole images also copies spare rows, `C36_extra_rows`). -/
theorem C72_region_partial (ha : Apart src dst sps dps) (hs : src.crop w1 = .ok (.ok s)) (hd : dst.crop w2 = .ok (.ok d))
    (h1 : EvenPart src.format w1) (h2 : EvenPart dst.format w2) (eW : dst.width % 2 = 0) (eH : dst.height % 2 = 0)
    (h : copyImpl s d m = .ok (.ok (), m')) :
    (∀ ch i j, i < w2.width → j < w2.height →
      sample dst.format dps m' ch (w2.x + i) (w2.y + j) = sample src.format sps m ch (w1.x + i) (w1.y + j)) ∧
    (∀ ch x y, x < dst.width → y < dst.height → ¬ InWindow w2 x y →
      sample dst.format dps m' ch x y = sample dst.format dps m ch x y) ∧
    ∀ a, ¬ SampleByte dst.format dps dst.width dst.height a → m' a = m a := by
  obtain ⟨-, hsin, rfl⟩ := crop_ok_inv hs
  obtain ⟨hdb, hdin, rfl⟩ := crop_ok_inv hd
  obtain ⟨⟨sqs, hsq⟩, dqs, hdq⟩ := copy_planes h
  obtain ⟨x1, y1, b1⟩ := h1
  obtain ⟨x2, y2, b2⟩ := h2
  have hc := copy_checks h
  have hw : w2.width % 2 = 0 := by rw [show w2.width = w1.width from hc.width.symm]; exact hc.evenW
  have hh : w2.height % 2 = 0 := by rw [show w2.height = w1.height from hc.height.symm]; exact hc.evenH
  have dis := crop_disjoint ha.dstPlanes ha.dstLen hdq ha.disjoint
  have sep := crop_separate ha.dstPlanes ha.dstLen hdq ha.srcPlanes ha.srcLen hsq ha.separate
  have frame : ∀ a, ¬ SampleByte dst.format dqs w2.width w2.height a → m' a = m a := fun a hn =>
    C36_frame_partial h hsq hdq dis sep (fun i hi p q hp hq => by
      left
      have h0 := (((C36_ok_iff hsq hdq dis sep m).1 ⟨m', h⟩).2 i hi p q hp hq).1
      exact crop_ends ha.srcPlanes ha.srcLen hsq hi hp h0) hn
  refine ⟨fun ch i j hi hj => ?_, fun ch x y hx hy ho => ?_, fun a hn => ?_⟩
  · rw [← crop_sample ha.dstPlanes ha.dstLen hdq x2 y2 b2, ← crop_sample ha.srcPlanes ha.srcLen hsq x1 y1 b1]
    exact C36_samples h hsq hdq dis sep ch hi hj
  · refine sample_same fun l b k hl hb hk => frame _ ?_
    exact not_sampleByte_crop ha.dstPlanes ha.dstLen hdq (valid_of hdb ha.dstPlanes).fits ha.disjoint eW eH hdin x2 y2 hw hh b2 hx hy
      hl hb hk ho
  · exact frame a (not_sampleByte_parent ha.dstPlanes ha.dstLen hdq hdin x2 y2 b2 hn)

/-- **C72** (partial: as before). A whole image is copied to a part of another. -/
theorem C72_paste_partial (ha : Apart src dst sps dps) (hd : dst.crop w2 = .ok (.ok d)) (h2 : EvenPart dst.format w2)
    (eW : dst.width % 2 = 0) (eH : dst.height % 2 = 0) (h : copyImpl src d m = .ok (.ok (), m')) :
    (∀ ch i j, i < w2.width → j < w2.height → sample dst.format dps m' ch (w2.x + i) (w2.y + j) = sample src.format sps m ch i j) ∧
    (∀ ch x y, x < dst.width → y < dst.height → ¬ InWindow w2 x y →
      sample dst.format dps m' ch x y = sample dst.format dps m ch x y) ∧
    ∀ a, ¬ SampleByte dst.format dps dst.width dst.height a → m' a = m a := by
  obtain ⟨hdb, hdin, rfl⟩ := crop_ok_inv hd
  obtain ⟨-, dqs, hdq⟩ := copy_planes h
  obtain ⟨x2, y2, b2⟩ := h2
  have hc := copy_checks h
  have hw : w2.width % 2 = 0 := by rw [show w2.width = src.width from hc.width.symm]; exact hc.evenW
  have hh : w2.height % 2 = 0 := by rw [show w2.height = src.height from hc.height.symm]; exact hc.evenH
  have dis := crop_disjoint ha.dstPlanes ha.dstLen hdq ha.disjoint
  have sep : Separate src.format sps dst.format dqs := fun i j p q hi hj hp hq a a1 a2 a3 a4 => by
    obtain ⟨q', hq', -, c1, c2⟩ := crop_within ha.dstPlanes ha.dstLen hdq hj hq
    exact ha.separate i j p q' hi hj hp hq' a a1 a2 (by omega) (by omega)
  have frame : ∀ a, ¬ SampleByte dst.format dqs w2.width w2.height a → m' a = m a := fun a hn =>
    C36_frame_partial h ha.srcPlanes hdq dis sep (fun i hi p q hp hq => by
      right
      have h0 := (((C36_ok_iff ha.srcPlanes hdq dis sep m).1 ⟨m', h⟩).2 i hi p q hp hq).2
      have he : src.format = dst.format := hc.format
      rw [he] at hi ⊢
      rw [show src.height = w2.height from hc.height]
      exact crop_ends ha.dstPlanes ha.dstLen hdq hi hq h0) hn
  refine ⟨fun ch i j hi hj => ?_, fun ch x y hx hy ho => ?_, fun a hn => ?_⟩
  · rw [← crop_sample ha.dstPlanes ha.dstLen hdq x2 y2 b2]
    exact C36_samples h ha.srcPlanes hdq dis sep ch hi hj
  · refine sample_same fun l b k hl hb hk => frame _ ?_
    exact not_sampleByte_crop ha.dstPlanes ha.dstLen hdq (valid_of hdb ha.dstPlanes).fits ha.disjoint eW eH hdin x2 y2 hw hh b2 hx hy
      hl hb hk ho
  · exact frame a (not_sampleByte_parent ha.dstPlanes ha.dstLen hdq hdin x2 y2 b2 hn)

/-- **C72** (partial: as before). A part of an image is copied to a whole image. -/
theorem C72_cut_partial (ha : Apart src dst sps dps) (hs : src.crop w1 = .ok (.ok s)) (h1 : EvenPart src.format w1)
    (h : copyImpl s dst m = .ok (.ok (), m')) :
    (∀ ch i j, i < dst.width → j < dst.height → sample dst.format dps m' ch i j = sample src.format sps m ch (w1.x + i) (w1.y + j)) ∧
    ∀ a, ¬ SampleByte dst.format dps dst.width dst.height a → m' a = m a := by
  obtain ⟨-, hsin, rfl⟩ := crop_ok_inv hs
  obtain ⟨⟨sqs, hsq⟩, -⟩ := copy_planes h
  obtain ⟨x1, y1, b1⟩ := h1
  have sep : Separate src.format sqs dst.format dps := fun i j p q hi hj hp hq a a1 a2 a3 a4 => by
    obtain ⟨p', hp', -, c1, c2⟩ := crop_within ha.srcPlanes ha.srcLen hsq hi hp
    exact ha.separate i j p' q hi hj hp' hq a (by omega) (by omega) a3 a4
  refine ⟨fun ch i j hi hj => ?_, fun a hn => ?_⟩
  · rw [← crop_sample ha.srcPlanes ha.srcLen hsq x1 y1 b1]
    exact C36_samples h hsq ha.dstPlanes ha.disjoint sep ch hi hj
  · refine C36_frame_partial h hsq ha.dstPlanes ha.disjoint sep (fun i hi p q hp hq => ?_) hn
    left
    have h0 := (((C36_ok_iff hsq ha.dstPlanes ha.disjoint sep m).1 ⟨m', h⟩).2 i hi p q hp hq).1
    exact crop_ends ha.srcPlanes ha.srcLen hsq hi hp h0

/-- When copying a part to a part succeeds: if the parts are inside of valid images of the same format, equally large, of even size, and all
planes have a full stride behind the first column of the last row (see C08). -/
theorem C72_returns_partial (ha : Apart src dst sps dps) (hs : src.crop w1 = .ok (.ok s)) (hd : dst.crop w2 = .ok (.ok d))
    (h1 : EvenPart src.format w1) (h2 : EvenPart dst.format w2) (hf : src.format = dst.format) (hw : w1.width = w2.width)
    (hh : w1.height = w2.height) (ew : w1.width % 2 = 0) (eh : w1.height % 2 = 0) (h0 : 0 < w1.width)
    (r1 : ∀ i < planeCount src.format, ∀ p, sps[i]? = some p → HasWindowRows src.format w1 i p)
    (r2 : ∀ i < planeCount dst.format, ∀ p, dps[i]? = some p → HasWindowRows dst.format w2 i p) (m : Mem) :
    ∃ m', copyImpl s d m = .ok (.ok (), m') := by
  obtain ⟨sqs, hsq, cs, -⟩ := C08_crop_shows_window_partial src s w1 sps hs ha.srcPlanes ha.srcLen (aligned_of_even h1.1 h1.2.1) h1.2.2 r1
  obtain ⟨dqs, hdq, cd, -⟩ := C08_crop_shows_window_partial dst d w2 dps hd ha.dstPlanes ha.dstLen (aligned_of_even h2.1 h2.2.1) h2.2.2 r2
  obtain ⟨-, hsin, rfl⟩ := crop_ok_inv hs
  obtain ⟨-, hdin, rfl⟩ := crop_ok_inv hd
  exact C36_ok (src := .cropped src w1) (dst := .cropped dst w2) ⟨hw, hh, ew, eh, hf, cs, cd⟩ h0 hsq hdq
    (crop_disjoint (t := dst) ha.dstPlanes ha.dstLen hdq ha.disjoint)
    (crop_separate (t := dst) (s := src) ha.dstPlanes ha.dstLen hdq ha.srcPlanes ha.srcLen hsq ha.separate) m

/-! ## Any number of parts -/

/-- A part of an image and where it goes. -/
structure Patch where
  src : Img
  planes : List Plane
  cut : Window
  place : Window

/-- Parts are copied into `dst`, one after the other. -/
inductive Collage (dst : Img) : List Patch → Mem → Mem → Prop
  | nil (m : Mem) : Collage dst [] m m
  | cons {p : Patch} {ps : List Patch} {s d : Img} {m m' m'' : Mem} (hs : p.src.crop p.cut = .ok (.ok s))
      (hd : dst.crop p.place = .ok (.ok d)) (h : copyImpl s d m = .ok (.ok (), m')) (ht : Collage dst ps m' m'') :
      Collage dst (p :: ps) m m''

/-- What is to be seen in the end: the part that was put there last. Given are the picture to begin with, and for every part where it is cut
out, where it goes and the picture it comes from. -/
def collage {α : Type} (pic : Pic α) : List (Window × Window × Pic α) → Pic α
  | [] => pic
  | (cut, place, p) :: rest => collage
      (fun ch x y => if place.x ≤ x ∧ x < place.x + place.width ∧ place.y ≤ y ∧ y < place.y + place.height then
        p ch (cut.x + (x - place.x)) (cut.y + (y - place.y)) else pic ch x y) rest

theorem collage_congr {α : Type} {w h : Nat} (l l' : List (Window × Window × Pic α))
    (hl : List.Forall₂ (fun a b => a.1 = b.1 ∧ a.2.1 = b.2.1 ∧ ∀ ch i j, i < a.2.1.width → j < a.2.1.height →
      a.2.2 ch (a.1.x + i) (a.1.y + j) = b.2.2 ch (a.1.x + i) (a.1.y + j)) l l') :
    ∀ {P Q : Pic α}, (∀ ch x y, x < w → y < h → P ch x y = Q ch x y) →
      ∀ ch x y, x < w → y < h → collage P l ch x y = collage Q l' ch x y := by
  induction hl with
  | nil => exact fun hpq => hpq
  | @cons a b l l' hab _ ih =>
    obtain ⟨c, q, A⟩ := a
    obtain ⟨c', q', B⟩ := b
    obtain ⟨e1, e2, e3⟩ := hab
    dsimp only at e1 e2 e3
    subst e1 e2
    intro P Q hpq
    refine ih fun ch x y hx hy => ?_
    by_cases hw : q.x ≤ x ∧ x < q.x + q.width ∧ q.y ≤ y ∧ y < q.y + q.height
    · simp only [if_pos hw]
      exact e3 _ _ _ (by omega) (by omega)
    · simp only [if_neg hw]
      exact hpq ch x y hx hy

/-- The part of an image is not changed by stores to samples of another one. -/
theorem part_kept (ha : Apart src dst sps dps) (bs : src.boundsCheck = .ok (.ok ())) (bd : dst.boundsCheck = .ok (.ok ()))
    (eW : dst.width % 2 = 0) (eH : dst.height % 2 = 0) (h : ∀ a, ¬ SampleByte dst.format dps dst.width dst.height a → m' a = m a)
    (hin : WindowInside w1 src.width src.height) (h1 : EvenPart src.format w1) (ew : w1.width % 2 = 0) (eh : w1.height % 2 = 0)
    (ch : Chan) {i j : Nat} (hi : i < w1.width) (hj : j < w1.height) :
    sample src.format sps m' ch (w1.x + i) (w1.y + j) = sample src.format sps m ch (w1.x + i) (w1.y + j) := by
  refine sample_same fun l b k hl hb hk => h _ ?_
  rintro ⟨ch', i', j', l', b', k', hi', hj', hl', hb', hk', e⟩
  obtain ⟨ex, ey, -⟩ := h1
  obtain ⟨n1, n2, -, -⟩ := hin
  have cell : HasCell src.format ch src.width src.height (w1.x + i) (w1.y + j) := by
    refine ⟨by omega, by omega, fun _ => ?_⟩
    cases src.format <;> simp [hsub, vsub] <;> omega
  obtain ⟨c1, c2, c3⟩ := sampleLoc_bounds hl cell
  have hd : InDom src.format src.width src.height l.plane l.row (l.col + k) := ⟨c1, c2, by omega⟩
  have d' := inDom_of_loc eW eH hi' hj' hl' hk'
  rw [locAddr, Option.map_eq_some_iff] at hb hb'
  obtain ⟨p, hp, rfl⟩ := hb
  obtain ⟨p', hp', rfl⟩ := hb'
  obtain ⟨a1, a2⟩ := hd.inside (valid_of bs ha.srcPlanes).fits hp
  obtain ⟨b1, b2⟩ := d'.inside (valid_of bd ha.dstPlanes).fits hp'
  rw [Plane.at] at a1 a2 b1 b2
  exact ha.separate _ _ p p' hd.plane d'.plane hp hp' (p.slice.addr + l.row * p.stride + l.col + k) (by omega) (by omega) (by omega) (by omega)

/-- The pictures that the parts come from. -/
def Patch.pic (m : Mem) (p : Patch) : Window × Window × Pic (Option Nat) :=
  (p.cut, p.place, fun ch x y => sample p.src.format p.planes m ch x y)

theorem collage_parts {patches : List Patch} (h : Collage dst patches m m') : ∀ p ∈ patches, p.src.boundsCheck = .ok (.ok ()) ∧
    dst.boundsCheck = .ok (.ok ()) ∧ WindowInside p.cut p.src.width p.src.height ∧ p.cut.width % 2 = 0 ∧ p.cut.height % 2 = 0 ∧
    p.cut.width = p.place.width ∧ p.cut.height = p.place.height := by
  induction h with
  | nil => nofun
  | @cons p ps s d m m1 m2 hs hd hcopy ht ih =>
    intro q hq
    rcases List.mem_cons.1 hq with rfl | hq
    · obtain ⟨b1, n1, rfl⟩ := crop_ok_inv hs
      obtain ⟨b2, n2, rfl⟩ := crop_ok_inv hd
      have hc := copy_checks hcopy
      exact ⟨b1, b2, n1, hc.evenW, hc.evenH, hc.width, hc.height⟩
    · exact ih q hq

/-- **C72** (partial: as before). Any number of parts, of any number of images, are copied to any places, possibly overlapping: what is
seen in the end is everywhere the part that was copied there last, and what was there before where none was; bytes that belong to no
pixel keep their values. -/
theorem C72_collage_partial {patches : List Patch} (ha : ∀ p ∈ patches, Apart p.src dst p.planes dps)
    (hp : ∀ p ∈ patches, EvenPart p.src.format p.cut ∧ EvenPart dst.format p.place) (eW : dst.width % 2 = 0) (eH : dst.height % 2 = 0)
    (h : Collage dst patches m m') :
    (∀ ch x y, x < dst.width → y < dst.height → sample dst.format dps m' ch x y =
      collage (fun ch x y => sample dst.format dps m ch x y) (patches.map (Patch.pic m)) ch x y) ∧
    ∀ a, ¬ SampleByte dst.format dps dst.width dst.height a → m' a = m a := by
  induction h with
  | nil => exact ⟨fun _ _ _ _ _ => rfl, fun _ _ => rfl⟩
  | @cons p ps s d m m1 m2 hs hd hcopy ht ih =>
    have a0 := ha p List.mem_cons_self
    obtain ⟨e1, e2⟩ := hp p List.mem_cons_self
    obtain ⟨g1, g2, g3⟩ := C72_region_partial a0 hs hd e1 e2 eW eH hcopy
    obtain ⟨i1, i2⟩ := ih (fun q hq => ha q (List.mem_cons_of_mem _ hq)) (fun q hq => hp q (List.mem_cons_of_mem _ hq))
    refine ⟨fun ch x y hx hy => ?_, fun a hn => by rw [i2 a hn, g3 a hn]⟩
    rw [i1 ch x y hx hy]
    rw [List.map_cons, show Patch.pic m p = (p.cut, p.place, fun ch x y => sample p.src.format p.planes m ch x y) from rfl, collage]
    refine collage_congr (w := dst.width) (h := dst.height) _ _ ?_ ?_ ch x y hx hy
    · rw [List.forall₂_map_left_iff, List.forall₂_map_right_iff, List.forall₂_same]
      intro q hq
      obtain ⟨b1, b2, n1, w1, w2, w3, w4⟩ := collage_parts ht q hq
      refine ⟨rfl, rfl, fun ch i j hi hj => ?_⟩
      exact part_kept (ha q (List.mem_cons_of_mem _ hq)) b1 b2 eW eH g3 n1 (hp q (List.mem_cons_of_mem _ hq)).1 w1 w2 ch
        (lt_of_lt_of_eq hi w3.symm) (lt_of_lt_of_eq hj w4.symm)
    · intro ch x y hx hy
      by_cases hw : p.place.x ≤ x ∧ x < p.place.x + p.place.width ∧ p.place.y ≤ y ∧ y < p.place.y + p.place.height
      · have := g1 ch (x - p.place.x) (y - p.place.y) (by omega) (by omega)
        rw [show p.place.x + (x - p.place.x) = x by omega, show p.place.y + (y - p.place.y) = y by omega] at this
        simp only [if_pos hw, this]
      · simp only [if_neg hw, g2 ch x y hx hy hw]

/-! ## Cases -/

/-- An I420 image of 8×4 pixels with room behind the last rows, and a 4×2 one. -/
def sheet : Img := .raw .I420 8 4 [⟨⟨0, 40⟩, 8⟩, ⟨⟨40, 12⟩, 4⟩, ⟨⟨60, 12⟩, 4⟩] (.YUV ⟨.SDR, .BT709, .BT709, false⟩)
def sheetPlanes : List Plane := [⟨⟨0, 40⟩, 8⟩, ⟨⟨40, 12⟩, 4⟩, ⟨⟨60, 12⟩, 4⟩]
def stamp : Img := .raw .I420 4 2 [⟨⟨100, 16⟩, 5⟩, ⟨⟨120, 8⟩, 3⟩, ⟨⟨130, 8⟩, 3⟩] (.YUV ⟨.SDR, .BT709, .BT709, false⟩)
def stampPlanes : List Plane := [⟨⟨100, 16⟩, 5⟩, ⟨⟨120, 8⟩, 3⟩, ⟨⟨130, 8⟩, 3⟩]

theorem stamp_apart : Apart stamp sheet stampPlanes sheetPlanes :=
  ⟨rfl, rfl, by decide +kernel, by decide +kernel, planesDisjoint_of (by decide), separate_of (by decide)⟩

theorem crop_sheet (win : Window) (h : WindowInside win 8 4) : sheet.crop win = .ok (.ok (.cropped sheet win)) :=
  (crop_eq sheet win (by decide +kernel)).1 h

theorem crop_stamp (win : Window) (h : WindowInside win 4 2) : stamp.crop win = .ok (.ok (.cropped stamp win)) :=
  (crop_eq stamp win (by decide +kernel)).1 h

theorem stamp_ok {w1 w2 : Window} (i1 : WindowInside w1 4 2) (i2 : WindowInside w2 8 4) (h1 : EvenPart .I420 w1) (h2 : EvenPart .I420 w2)
    (hw : w1.width = w2.width) (hh : w1.height = w2.height) (ew : w1.width % 2 = 0) (eh : w1.height % 2 = 0) (h0 : 0 < w1.width)
    (m : Mem) : ∃ m', copyImpl (.cropped stamp w1) (.cropped sheet w2) m = .ok (.ok (), m') := by
  refine C72_returns_partial stamp_apart (crop_stamp w1 i1) (crop_sheet w2 i2) h1 h2 rfl hw hh ew eh h0 ?_ ?_ m
  all_goals
    obtain ⟨j1, j2, -, -⟩ := i1
    obtain ⟨k1, k2, -, -⟩ := i2
    obtain ⟨e1, e2, -⟩ := h1
    obtain ⟨e3, e4, -⟩ := h2
    intro i hi p hp
    have hi : i < 3 := hi
    obtain rfl | rfl | rfl : i = 0 ∨ i = 1 ∨ i = 2 := by omega
    all_goals
      cases hp
      simp only [HasWindowRows, rowCount, rowBytes, stamp, sheet, Img.format]
      simp
      omega

/-- Two overlapping parts: the second covers part of the first. -/
example (m : Mem) : ∃ m', Collage sheet [⟨stamp, stampPlanes, ⟨0, 0, 4, 2⟩, ⟨2, 2, 4, 2⟩⟩, ⟨stamp, stampPlanes, ⟨0, 0, 2, 2⟩, ⟨4, 2, 2, 2⟩⟩] m m' ∧
    sample .I420 sheetPlanes m' .Y 3 3 = some (m 106).toNat ∧ sample .I420 sheetPlanes m' .Y 5 3 = some (m 106).toNat ∧
    sample .I420 sheetPlanes m' .V 5 3 = some (m 130).toNat ∧ sample .I420 sheetPlanes m' .Y 6 3 = some (m 30).toNat := by
  obtain ⟨m1, h1⟩ := stamp_ok (w1 := ⟨0, 0, 4, 2⟩) (w2 := ⟨2, 2, 4, 2⟩) (by unfold WindowInside; decide) (by unfold WindowInside; decide) (by decide) (by decide) rfl rfl rfl rfl
    (by decide) m
  obtain ⟨m2, h2⟩ := stamp_ok (w1 := ⟨0, 0, 2, 2⟩) (w2 := ⟨4, 2, 2, 2⟩) (by unfold WindowInside; decide) (by unfold WindowInside; decide) (by decide) (by decide) rfl rfl rfl rfl
    (by decide) m1
  have hc : Collage sheet [⟨stamp, stampPlanes, ⟨0, 0, 4, 2⟩, ⟨2, 2, 4, 2⟩⟩, ⟨stamp, stampPlanes, ⟨0, 0, 2, 2⟩, ⟨4, 2, 2, 2⟩⟩] m m2 :=
    .cons (crop_stamp _ (by unfold WindowInside; decide)) (crop_sheet _ (by unfold WindowInside; decide)) h1
      (.cons (crop_stamp _ (by unfold WindowInside; decide)) (crop_sheet _ (by unfold WindowInside; decide)) h2 (.nil _))
  have key := (C72_collage_partial (dps := sheetPlanes) (by
    intro p hp
    simp only [List.mem_cons, List.not_mem_nil, or_false] at hp
    rcases hp with rfl | rfl <;> exact stamp_apart) (by
    intro p hp
    simp only [List.mem_cons, List.not_mem_nil, or_false] at hp
    rcases hp with rfl | rfl <;> decide) rfl rfl hc).1
  exact ⟨m2, hc, key .Y 3 3 (by decide) (by decide), key .Y 5 3 (by decide) (by decide), key .V 5 3 (by decide) (by decide),
    key .Y 6 3 (by decide) (by decide)⟩

/-- Pasting at an odd column is accepted. -/
def oddPlace : Window := ⟨1, 0, 4, 2⟩

/-- **C72** is false at odd positions: the window is accepted and `copy` returns `Ok`, but the pixel left of the window gets the chroma of
the part. -/
theorem C72_odd_false (m : Mem) (hm : m 120 ≠ m 40) : ∃ m',
    sheet.crop oddPlace = .ok (.ok (.cropped sheet oddPlace)) ∧ copyImpl stamp (.cropped sheet oddPlace) m = .ok (.ok (), m') ∧
    ¬ InWindow oddPlace 0 0 ∧ sample .I420 sheetPlanes m' .U 0 0 ≠ sample .I420 sheetPlanes m .U 0 0 := by
  have hq : (Img.cropped sheet oddPlace).planes = .ok [⟨⟨1, 16⟩, 8⟩, ⟨⟨40, 4⟩, 4⟩, ⟨⟨60, 4⟩, 4⟩] := by decide +kernel
  have dis : PlanesDisjoint (Img.cropped sheet oddPlace).format [⟨⟨1, 16⟩, 8⟩, ⟨⟨40, 4⟩, 4⟩, ⟨⟨60, 4⟩, 4⟩] := planesDisjoint_of (by decide)
  have sep : Separate stamp.format stampPlanes (Img.cropped sheet oddPlace).format [⟨⟨1, 16⟩, 8⟩, ⟨⟨40, 4⟩, 4⟩, ⟨⟨60, 4⟩, 4⟩] :=
    separate_of (by decide)
  obtain ⟨m', h⟩ := C36_ok (src := stamp) (dst := .cropped sheet oddPlace)
    ⟨rfl, rfl, rfl, rfl, rfl, by decide +kernel, by decide +kernel⟩ (by decide) rfl hq dis sep m
  refine ⟨m', crop_sheet _ (by unfold WindowInside; decide), h, fun hw => absurd hw.1 (by decide), fun he => ?_⟩
  have h1 : sample .I420 [⟨⟨1, 16⟩, 8⟩, ⟨⟨40, 4⟩, 4⟩, ⟨⟨60, 4⟩, 4⟩] m' .U 0 0 = sample .I420 stampPlanes m .U 0 0 :=
    C36_samples h rfl hq dis sep .U (by decide) (by decide)
  have h1 : some (m' 40).toNat = some (m 120).toNat := h1
  have he : some (m' 40).toNat = some (m 40).toNat := he
  rw [h1] at he
  injection he with he
  exact hm (UInt8.toNat_inj.1 he)

/-- An I010 image of 2×6 pixels, a 2×2 one, and the place for it in the middle. -/
def sheet16 : Img := .raw .I010 2 6 [⟨⟨0, 24⟩, 4⟩, ⟨⟨24, 6⟩, 2⟩, ⟨⟨30, 6⟩, 2⟩] (.YUV ⟨.SDR, .BT709, .BT709, false⟩)
def sheet16Planes : List Plane := [⟨⟨0, 24⟩, 4⟩, ⟨⟨24, 6⟩, 2⟩, ⟨⟨30, 6⟩, 2⟩]
def stamp16 : Img := .raw .I010 2 2 [⟨⟨100, 8⟩, 4⟩, ⟨⟨108, 2⟩, 2⟩, ⟨⟨110, 2⟩, 2⟩] (.YUV ⟨.SDR, .BT709, .BT709, false⟩)
def middle : Window := ⟨0, 2, 2, 2⟩

/-- **C72** is false of 16-bit samples: what is copied to the middle of the image lands at its end. -/
theorem C72_16bit_false (m : Mem) (hm : m 100 ≠ m 16) : ∃ m',
    sheet16.crop middle = .ok (.ok (.cropped sheet16 middle)) ∧ copyImpl stamp16 (.cropped sheet16 middle) m = .ok (.ok (), m') ∧
    ¬ InWindow middle 0 4 ∧ m' 16 = m 100 ∧ sample .I010 sheet16Planes m' .Y 0 4 ≠ sample .I010 sheet16Planes m .Y 0 4 := by
  have hq : (Img.cropped sheet16 middle).planes = .ok [⟨⟨16, 8⟩, 4⟩, ⟨⟨28, 2⟩, 2⟩, ⟨⟨34, 2⟩, 2⟩] := by decide +kernel
  have dis : PlanesDisjoint (Img.cropped sheet16 middle).format [⟨⟨16, 8⟩, 4⟩, ⟨⟨28, 2⟩, 2⟩, ⟨⟨34, 2⟩, 2⟩] := planesDisjoint_of (by decide)
  have sep : Separate stamp16.format [⟨⟨100, 8⟩, 4⟩, ⟨⟨108, 2⟩, 2⟩, ⟨⟨110, 2⟩, 2⟩] (Img.cropped sheet16 middle).format
      [⟨⟨16, 8⟩, 4⟩, ⟨⟨28, 2⟩, 2⟩, ⟨⟨34, 2⟩, 2⟩] := separate_of (by decide)
  obtain ⟨m', h⟩ := C36_ok (src := stamp16) (dst := .cropped sheet16 middle)
    ⟨rfl, rfl, rfl, rfl, rfl, by decide +kernel, by decide +kernel⟩ (by decide) rfl hq dis sep m
  have hc := (copied h rfl hq dis sep).2.inside 0 (by decide) _ _ rfl rfl 0 (by decide)
  have h0 : m' 16 = m 100 := hc 0 (by decide)
  refine ⟨m', (crop_eq sheet16 middle (by decide +kernel)).1 (by unfold WindowInside; decide), h, fun hw => absurd hw.2.2.2 (by decide), h0, fun he => ?_⟩
  have he : some ((m' 16).toNat + 256 * (m' 17).toNat) = some ((m 16).toNat + 256 * (m 17).toNat) := he
  rw [h0] at he
  injection he with he
  have b1 := (m 100).toNat_lt
  have b2 := (m 16).toNat_lt
  exact hm (UInt8.toNat_inj.1 (by omega))

example : ∃ m : Mem, m 120 ≠ m 40 ∧ m 100 ≠ m 16 := ⟨fun a => if a < 100 then 0 else 1, by decide⟩

end Ezk.Props

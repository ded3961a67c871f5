import Verif.Proofs.Run
import Verif.Proofs.Crop

/-!
# Planes of crops, for conversions from crop to crop
-/

namespace Ezk
open Spec

variable {t : Img} {win : Window} {ps qs : List Plane}

/-- The planes of a crop that can be read. -/
theorem crop_get (hps : t.planes = .ok ps) (hlen : ∀ p ∈ ps, p.slice.len < 2 ^ 64) (hq : (Img.cropped t win).planes = .ok qs)
    {k : Nat} {q : Plane} (hk : k < planeCount t.format) (hqk : qs[k]? = some q) :
    ∃ p, ps[k]? = some p ∧
      q = ⟨⟨p.slice.addr + cropOff t.format k p.stride win, rowCount t.format k win.height * p.stride⟩, p.stride⟩ ∧
      cropOff t.format k p.stride win + rowCount t.format k win.height * p.stride ≤ p.slice.len := by
  by_cases hf : CropFits t.format win (ps.take (planeCount t.format)) 0
  · have e := (cropPlanes_eq t.format win ps hlen).1 hf
    have : (Img.cropped t win).planes = .ok (croppedPlanes t.format win 0 (ps.take (planeCount t.format))) := by
      simp only [Img.planes, hps, bind, Except.bind]; exact e
    rw [this] at hq
    cases hq
    rw [croppedPlanes_getElem?, List.getElem?_take, if_pos hk, Option.map_eq_some_iff] at hqk
    obtain ⟨p, hp, rfl⟩ := hqk
    refine ⟨p, hp, by simp, ?_⟩
    have := hf k p (take_getElem?.2 ⟨hk, hp⟩)
    simpa using this
  · obtain ⟨k, e⟩ := (cropPlanes_eq t.format win ps hlen).2 hf
    have : (Img.cropped t win).planes = .error (.panic k) := by
      simp only [Img.planes, hps, bind, Except.bind]; exact e
    rw [this] at hq
    cases hq

theorem crop_length (hps : t.planes = .ok ps) (hlen : ∀ p ∈ ps, p.slice.len < 2 ^ 64) (hq : (Img.cropped t win).planes = .ok qs)
    {k : Nat} {p : Plane} (hk : k < planeCount t.format) (hp : ps[k]? = some p) : ∃ q, qs[k]? = some q := by
  by_cases hf : CropFits t.format win (ps.take (planeCount t.format)) 0
  · have e := (cropPlanes_eq t.format win ps hlen).1 hf
    have : (Img.cropped t win).planes = .ok (croppedPlanes t.format win 0 (ps.take (planeCount t.format))) := by
      simp only [Img.planes, hps, bind, Except.bind]; exact e
    rw [this] at hq
    cases hq
    rw [croppedPlanes_getElem?, List.getElem?_take, if_pos hk, hp]
    exact ⟨_, rfl⟩
  · obtain ⟨k, e⟩ := (cropPlanes_eq t.format win ps hlen).2 hf
    have : (Img.cropped t win).planes = .error (.panic k) := by
      simp only [Img.planes, hps, bind, Except.bind]; exact e
    rw [this] at hq
    cases hq

theorem cropOff_eq (h16 : sampleBytes t.format = 1 ∨ win.y = 0) (i s : Nat) :
    cropOff t.format i s win = rowCount t.format i win.y * s + rowBytes t.format i win.x := by
  rcases h16 with h | h
  · simp [cropOff, h]
  · have : rowCount t.format i win.y = 0 := by rw [h]; cases t.format <;> simp [rowCount]
    simp [cropOff, this]

theorem aligned_of_even {f : PixelFormat} (hx : win.x % 2 = 0) (hy : win.y % 2 = 0) : Aligned f win := by
  constructor
  · have : hsub f = 1 ∨ hsub f = 2 := by cases f <;> simp [hsub]
    rcases this with h | h <;> rw [h] <;> omega
  · have : vsub f = 1 ∨ vsub f = 2 := by cases f <;> simp [vsub]
    rcases this with h | h <;> rw [h] <;> omega

/-- Where the samples of a crop are. -/
theorem crop_locAddr (hps : t.planes = .ok ps) (hlen : ∀ p ∈ ps, p.slice.len < 2 ^ 64) (hq : (Img.cropped t win).planes = .ok qs)
    (hx : win.x % 2 = 0) (hy : win.y % 2 = 0) (h16 : sampleBytes t.format = 1 ∨ win.y = 0) {ch : Chan} {i j : Nat} {l : Loc}
    (hl : sampleLoc t.format ch i j = some l) :
    ∃ l', sampleLoc t.format ch (win.x + i) (win.y + j) = some l' ∧ l'.plane = l.plane ∧ locAddr qs l = locAddr ps l' := by
  have hal : Aligned t.format win := aligned_of_even hx hy
  refine ⟨_, sampleLoc_shift hal.1 hal.2 hl, rfl, ?_⟩
  have hlp := sampleLoc_plane hl
  simp only [locAddr]
  cases hp : ps[l.plane]? with
  | none =>
    cases hqk : qs[l.plane]? with
    | none => rfl
    | some q =>
      obtain ⟨p, hp', _⟩ := crop_get hps hlen hq hlp hqk
      rw [hp] at hp'; cases hp'
  | some p =>
    obtain ⟨q, hqk⟩ := crop_length hps hlen hq hlp hp
    obtain ⟨p', hp', rfl, _⟩ := crop_get hps hlen hq hlp hqk
    rw [hp] at hp'
    cases hp'
    rw [hqk]
    simp only [Option.map_some, Option.some.injEq, cropOff_eq h16, Nat.add_mul]
    omega

theorem crop_sample (hps : t.planes = .ok ps) (hlen : ∀ p ∈ ps, p.slice.len < 2 ^ 64) (hq : (Img.cropped t win).planes = .ok qs)
    (hx : win.x % 2 = 0) (hy : win.y % 2 = 0) (h16 : sampleBytes t.format = 1 ∨ win.y = 0) (m : Mem) (ch : Chan) (i j : Nat) :
    sample t.format qs m ch i j = sample t.format ps m ch (win.x + i) (win.y + j) := by
  rw [sample, sample]
  cases hl : sampleLoc t.format ch i j with
  | none => rw [sampleLoc_none hl]; rfl
  | some l =>
    obtain ⟨l', e1, _, e2⟩ := crop_locAddr hps hlen hq hx hy h16 hl
    rw [e1, Option.bind_some, Option.bind_some, e2]

/-- The slices of a crop are parts of those of the image. -/
theorem crop_within (hps : t.planes = .ok ps) (hlen : ∀ p ∈ ps, p.slice.len < 2 ^ 64) (hq : (Img.cropped t win).planes = .ok qs)
    {k : Nat} {q : Plane} (hk : k < planeCount t.format) (hqk : qs[k]? = some q) :
    ∃ p, ps[k]? = some p ∧ q.stride = p.stride ∧ p.slice.addr ≤ q.slice.addr ∧
      q.slice.addr + q.slice.len ≤ p.slice.addr + p.slice.len := by
  obtain ⟨p, hp, rfl, h⟩ := crop_get hps hlen hq hk hqk
  exact ⟨p, hp, rfl, by simp, by simp only; omega⟩

theorem crop_disjoint (hps : t.planes = .ok ps) (hlen : ∀ p ∈ ps, p.slice.len < 2 ^ 64) (hq : (Img.cropped t win).planes = .ok qs)
    (h : PlanesDisjoint t.format ps) : PlanesDisjoint t.format qs := by
  intro i j a b hi hj hij ha hb x h1 h2 h3 h4
  obtain ⟨pa, ea, _, a1, a2⟩ := crop_within hps hlen hq hi ha
  obtain ⟨pb, eb, _, b1, b2⟩ := crop_within hps hlen hq hj hb
  exact h i j pa pb hi hj hij ea eb x (by omega) (by omega) (by omega) (by omega)

theorem crop_separate {s : Img} {sps sqs : List Plane} {w' : Window} (hps : t.planes = .ok ps) (hlen : ∀ p ∈ ps, p.slice.len < 2 ^ 64)
    (hq : (Img.cropped t win).planes = .ok qs) (hsps : s.planes = .ok sps) (hslen : ∀ p ∈ sps, p.slice.len < 2 ^ 64)
    (hsq : (Img.cropped s w').planes = .ok sqs) (h : Separate s.format sps t.format ps) : Separate s.format sqs t.format qs := by
  intro i j a b hi hj ha hb x h1 h2 h3 h4
  obtain ⟨pa, ea, _, a1, a2⟩ := crop_within hsps hslen hsq hi ha
  obtain ⟨pb, eb, _, b1, b2⟩ := crop_within hps hlen hq hj hb
  exact h i j pa pb hi hj ea eb x (by omega) (by omega) (by omega) (by omega)

theorem crop_uniform (hps : t.planes = .ok ps) (hlen : ∀ p ∈ ps, p.slice.len < 2 ^ 64) (hq : (Img.cropped t win).planes = .ok qs)
    (h : UniformStrides t.format ps) : UniformStrides t.format qs := by
  intro hy i hi p p0 hp hp0
  have h3 : planeCount t.format = 3 := by
    revert hy; cases t.format <;> simp [isYuv, hsub, planeCount]
  obtain ⟨pa, ea, a, _⟩ := crop_within hps hlen hq (by omega) hp
  obtain ⟨pb, eb, b, _⟩ := crop_within hps hlen hq (by omega) hp0
  rw [a, b]
  exact h hy i hi pa pb ea eb

/-- `(x, y)` is a pixel of the window. -/
def Spec.InWindow (win : Window) (x y : Nat) : Prop :=
  win.x ≤ x ∧ x < win.x + win.width ∧ win.y ≤ y ∧ y < win.y + win.height

theorem inDom_of_loc {f : PixelFormat} {w h x y k : Nat} {ch : Chan} {l : Loc} (hw : w % 2 = 0) (hh : h % 2 = 0) (hx : x < w) (hy : y < h)
    (hl : sampleLoc f ch x y = some l) (hk : k < sampleBytes f) : InDom f w h l.plane l.row (l.col + k) := by
  obtain ⟨h1, h2, h3⟩ := sampleLoc_bounds hl (HasCell.of_even hw hh hx hy)
  exact ⟨h1, h2, by omega⟩

/-- The samples of pixels outside of a window are not those of its pixels. -/
theorem not_sampleByte_crop (hps : t.planes = .ok ps) (hlen : ∀ p ∈ ps, p.slice.len < 2 ^ 64) (hq : (Img.cropped t win).planes = .ok qs)
    (hf : Fits t.format ps t.width t.height) (hdis : PlanesDisjoint t.format ps)
    (hW : t.width % 2 = 0) (hH : t.height % 2 = 0) (hin : WindowInside win t.width t.height)
    (hx : win.x % 2 = 0) (hy : win.y % 2 = 0) (hw : win.width % 2 = 0) (hh : win.height % 2 = 0)
    (h16 : sampleBytes t.format = 1 ∨ win.y = 0) {ch : Chan} {x y b k : Nat} {l : Loc} (hX : x < t.width) (hY : y < t.height)
    (hl : sampleLoc t.format ch x y = some l) (hb : locAddr ps l = some b) (hk : k < sampleBytes t.format)
    (hout : ¬ InWindow win x y) : ¬ SampleByte t.format qs win.width win.height (b + k) := by
  rintro ⟨ch', i, j, l1, b', k', hi, hj, hl1, hb', hk', e⟩
  obtain ⟨l', hl', -, ea⟩ := crop_locAddr hps hlen hq hx hy h16 hl1
  rw [ea] at hb'
  have d := inDom_of_loc hW hH hX hY hl hk
  have d' := inDom_of_loc hW hH (x := win.x + i) (y := win.y + j) (by have := hin.1; omega) (by have := hin.2.1; omega) hl' hk'
  rw [locAddr, Option.map_eq_some_iff] at hb hb'
  obtain ⟨p, hp, rfl⟩ := hb
  obtain ⟨p', hp', rfl⟩ := hb'
  obtain ⟨e1, e2, e3⟩ := cell_inj hf hdis d d' hp hp' (by rw [Plane.at, Plane.at]; omega)
  have c1 := loc_cellOf hl hk
  have c2 := loc_cellOf hl' hk'
  rw [e1, e2, e3, c2] at c1
  simp only [Prod.mk.injEq] at c1
  obtain ⟨rfl, cx, cy, -⟩ := c1
  apply hout
  have hh' : hsub t.format = 1 ∨ hsub t.format = 2 := by cases t.format <;> simp [hsub]
  have hv' : vsub t.format = 1 ∨ vsub t.format = 2 := by cases t.format <;> simp [vsub]
  have gx : win.x ≤ x ∧ x < win.x + win.width := by
    rw [cellX, cellX] at cx
    split at cx
    · rcases hh' with h | h <;> rw [h] at cx <;> omega
    · omega
  have gy : win.y ≤ y ∧ y < win.y + win.height := by
    rw [cellY, cellY] at cy
    split at cy
    · rcases hv' with h | h <;> rw [h] at cy <;> omega
    · omega
  exact ⟨gx.1, gx.2, gy.1, gy.2⟩

/-- A byte of no sample of the image is none of a crop's. -/
theorem not_sampleByte_parent (hps : t.planes = .ok ps) (hlen : ∀ p ∈ ps, p.slice.len < 2 ^ 64) (hq : (Img.cropped t win).planes = .ok qs)
    (hin : WindowInside win t.width t.height) (hx : win.x % 2 = 0) (hy : win.y % 2 = 0)
    (h16 : sampleBytes t.format = 1 ∨ win.y = 0) {a : Nat} (ha : ¬ SampleByte t.format ps t.width t.height a) :
    ¬ SampleByte t.format qs win.width win.height a := by
  rintro ⟨ch', i, j, l1, b', k', hi, hj, hl1, hb', hk', e⟩
  obtain ⟨l', hl', -, ea⟩ := crop_locAddr hps hlen hq hx hy h16 hl1
  exact ha ⟨ch', win.x + i, win.y + j, l', b', k', by have := hin.1; omega, by have := hin.2.1; omega, hl', by rw [← ea]; exact hb', hk', e⟩

end Ezk

import Verif.Props.Ictcp
import Verif.Props.AsRead
import Verif.Props.Tiles

/-!
# C73: a pixel depends on nothing but its own pixels
-/

namespace Ezk.Props
open Ezk F32 Spec

/-- The source's pixels that matter for channel `ch` of pixel `(x, y)` of a destination of format `f`: the pixel itself, and for chroma those
that share it. -/
def Matters (f : PixelFormat) (ch : Chan) (x y x' y' : Nat) : Prop :=
  if ch = .U ∨ ch = .V then x' / hsub f = x / hsub f ∧ y' / vsub f = y / vsub f else x' = x ∧ y' = y

section
variable {F : Type} [FOps F] {ar : Nat → Arith F}

/-- Colour needs no alpha. -/
theorem readPic_color (f : PixelFormat) (col : ColorInfo) {V W : Pic Nat} {x y : Nat} (h : ∀ c, c ≠ .A → V c x y = W c x y) {c : Chan}
    (hc : c ≠ .A) : readPic ar f col V c x y = readPic ar f col W c x y := by
  have hn : ∀ c, c ≠ .A → normalize ar f V c x y = normalize ar f W c x y := fun c hc => by rw [Spec.normalize, Spec.normalize, h c hc]
  have hw : withAlpha f (normalize ar f V) c x y = withAlpha f (normalize ar f W) c x y := by
    rw [withAlpha, withAlpha, if_neg (fun h => hc h.1), if_neg (fun h => hc h.1)]; exact hn c hc
  cases col with
  | RGB i => exact hw
  | YUV i =>
    rw [readPic, readPic]
    split
    · have hY := hn .Y (by decide)
      have hU := hn .U (by decide)
      have hV := hn .V (by decide)
      cases c
      case A => exact absurd rfl hc
      all_goals simp only [decode, hY, hU, hV]
    · exact hw

/-- Alpha needs nothing else. -/
theorem readPic_alpha (f : PixelFormat) (col : ColorInfo) {V W : Pic Nat} {x y : Nat} (h : V .A x y = W .A x y) :
    readPic ar f col V .A x y = readPic ar f col W .A x y := by
  have hw : withAlpha f (normalize ar f V) .A x y = withAlpha f (normalize ar f W) .A x y := by
    rw [withAlpha, withAlpha, Spec.normalize, Spec.normalize, h]
  cases col with
  | RGB i => exact hw
  | YUV i =>
    rw [readPic, readPic]
    split
    · rfl
    · exact hw

theorem adaptPic_color (sc dc : ColorInfo) {p q : Pic F} {x y : Nat} (h : ∀ c, c ≠ .A → p c x y = q c x y) {c : Chan} (hc : c ≠ .A) :
    adaptPic ar sc dc p c x y = adaptPic ar sc dc q c x y := by
  rw [adaptPic, adaptPic]; split
  · exact h c hc
  · have hR := h .R (by decide)
    have hG := h .G (by decide)
    have hB := h .B (by decide)
    have hY := h .Y (by decide)
    have hU := h .U (by decide)
    have hV := h .V (by decide)
    cases c
    case A => exact absurd rfl hc
    all_goals simp only [changeColor, hR, hG, hB, hY, hU, hV]

theorem adaptPic_alpha (sc dc : ColorInfo) {p q : Pic F} {x y : Nat} (h : p .A x y = q .A x y) :
    adaptPic ar sc dc p .A x y = adaptPic ar sc dc q .A x y := by
  rw [adaptPic, adaptPic]; split
  · exact h
  · exact h

/-- What is to be stored for a channel of a pixel. -/
theorem converted_local {sf df : PixelFormat} {sc dc : ColorInfo} {V W : Pic Nat} {ch : Chan} {x y : Nat}
    (h : ∀ x' y', Matters df ch x y x' y' → ∀ c, (c = .A ↔ ch = .A) → V c x' y' = W c x' y') :
    converted ar sf sc df dc V ch x y = converted ar sf sc df dc W ch x y := by
  have hxy : Matters df ch x y x y := by unfold Matters; split <;> exact ⟨rfl, rfl⟩
  unfold converted quantize
  suffices e : convertedF ar sf sc df dc V ch x y = convertedF ar sf sc df dc W ch x y by rw [e]
  unfold convertedF
  split
  · rw [Spec.normalize, Spec.normalize, h x y hxy ch Iff.rfl]
  generalize hP : adaptPic ar sc dc (readPic ar sf sc V) = P
  generalize hQ : adaptPic ar sc dc (readPic ar sf sc W) = Q
  by_cases hA : ch = .A
  · subst hA
    have e : P .A x y = Q .A x y := by
      rw [← hP, ← hQ]
      exact adaptPic_alpha _ _ (readPic_alpha _ _ (h x y hxy .A Iff.rfl))
    cases dc with
    | RGB i => exact e
    | YUV i =>
      unfold writePic
      simp only
      split
      · exact e
      · exact e
  · have e : ∀ x' y', Matters df ch x y x' y' → ∀ c, c ≠ .A → P c x' y' = Q c x' y' := by
      intro x' y' hm c hc
      rw [← hP, ← hQ]
      refine adaptPic_color _ _ (fun c hc => readPic_color _ _ (fun c hc => h x' y' hm c ?_) hc) hc
      exact ⟨fun h => absurd h hc, fun h => absurd h hA⟩
    cases dc with
    | RGB i => exact e x y hxy ch hA
    | YUV i =>
      unfold writePic
      simp only
      split
      swap
      · exact e x y hxy ch hA
      have hy : ∀ x' y', Matters df ch x y x' y' → yuvAt ar i P x' y' = yuvAt ar i Q x' y' := by
        intro x' y' hm
        rw [yuvAt, yuvAt, e x' y' hm .R (by decide), e x' y' hm .G (by decide), e x' y' hm .B (by decide)]
      have hcr : ch = .U ∨ ch = .V → chromaOf ar df i P x y = chromaOf ar df i Q x y := by
        intro huv
        have hM : ∀ x' y', x' / hsub df = x / hsub df → y' / vsub df = y / vsub df → Matters df ch x y x' y' := by
          intro x' y' h1 h2
          unfold Matters
          rw [if_pos huv]
          exact ⟨h1, h2⟩
        unfold chromaOf
        split
        · rw [hy x y hxy]
        rename_i h1
        have hs : hsub df = 2 := by revert h1; cases df <;> simp [hsub]
        split
        · rename_i h2
          simp only [chroma422]
          rw [hy _ _ (hM _ _ (by rw [hs]; omega) rfl), hy _ _ (hM _ _ (by rw [hs]; omega) rfl)]
        · rename_i h2
          have vs : vsub df = 2 := by revert h2; cases df <;> simp [vsub]
          have k1 : Matters df ch x y (x / 2 * 2) (y / 2 * 2) := hM _ _ (by rw [hs]; omega) (by rw [vs]; omega)
          have k2 : Matters df ch x y (x / 2 * 2 + 1) (y / 2 * 2) := hM _ _ (by rw [hs]; omega) (by rw [vs]; omega)
          have k3 : Matters df ch x y (x / 2 * 2) (y / 2 * 2 + 1) := hM _ _ (by rw [hs]; omega) (by rw [vs]; omega)
          have k4 : Matters df ch x y (x / 2 * 2 + 1) (y / 2 * 2 + 1) := hM _ _ (by rw [hs]; omega) (by rw [vs]; omega)
          have cR : Chan.R ≠ .A := by decide
          have cG : Chan.G ≠ .A := by decide
          have cB : Chan.B ≠ .A := by decide
          simp only [chroma420, hy _ _ k1, hy _ _ k2, hy _ _ k3, hy _ _ k4, e _ _ k1 _ cR, e _ _ k2 _ cR, e _ _ k3 _ cR, e _ _ k4 _ cR,
            e _ _ k1 _ cG, e _ _ k2 _ cG, e _ _ k3 _ cG, e _ _ k4 _ cG, e _ _ k1 _ cB, e _ _ k2 _ cB, e _ _ k3 _ cB, e _ _ k4 _ cB]
      cases ch
      · simp only [encode, hy x y hxy]
      · simp only [encode, hcr (.inl rfl)]
      · simp only [encode, hcr (.inr rfl)]
      all_goals exact e x y hxy _ hA

theorem matters_cell {f : PixelFormat} {ch : Chan} {x y x' y' : Nat} (hm : Matters f ch x y x' y') : x' / 2 = x / 2 ∧ y' / 2 = y / 2 := by
  unfold Matters at hm
  split at hm
  · have e1 : hsub f = 1 ∨ hsub f = 2 := by cases f <;> simp [hsub]
    have e2 : vsub f = 1 ∨ vsub f = 2 := by cases f <;> simp [vsub]
    obtain ⟨a, b⟩ := hm
    rcases e1 with e1 | e1 <;> rcases e2 with e2 | e2 <;> rw [e1] at a <;> rw [e2] at b <;> omega
  · omega

/-- The readers see equal samples where the images have them. -/
theorem asRead_of_sample {f : PixelFormat} {ps qs : List Plane} {m n : Mem} (hp : planeCount f ≤ ps.length) (hq : planeCount f ≤ qs.length)
    (up : UniformStrides f ps) (uq : UniformStrides f qs) {k : Chan} {x y : Nat} (h : sample f qs n k x y = sample f ps m k x y) :
    asRead f qs n k x y = asRead f ps m k x y := by
  cases hl : sampleLoc f k x y with
  | none => rw [asRead, asRead, hl]
  | some l =>
    have h1 := C14_as_read_shown hp up m (x + 1) (y + 1) k x y l (by omega) (by omega) hl
    have h2 := C14_as_read_shown hq uq n (x + 1) (y + 1) k x y l (by omega) (by omega) hl
    rw [h1, h2] at h
    exact Option.some.inj h

variable {c : Cpu F} {src dst src' dst' : Img} {sps dps sps' dps' : List Plane} {m mo n no : Mem}

/-- **C73** (partial: not for 4:4:4 sources whose planes have different strides, and not for the chroma of 4:2:0 destinations with an ICtCp
colour space, see `C73_ictcp_false`). Two conversions between images of the same kind and width give a pixel the same sample if their sources
agree in the pixels that matter for it, in alpha for alpha and in all else for all else; whatever the other pixels are, with any arithmetic. -/
theorem C73_local_partial (r : Run c src dst sps dps m mo) (r' : Run c src' dst' sps' dps' n no) (ef : src'.format = src.format)
    (ec : src'.color = src.color) (efd : dst'.format = dst.format) (ecd : dst'.color = dst.color) (ew : dst'.width = dst.width)
    {ch : Chan} (hb : ¬ (ch = .U ∨ ch = .V) ∨ vsub dst.format = 1 ∨
      ∀ i, dst.color = .YUV i → i.space ≠ .ICtCpPQ ∧ i.space ≠ .ICtCpHLG) {x y : Nat} (hx : x < dst.width)
    (hy : y < dst.height) (hy' : y < dst'.height)
    (h : ∀ x' y', x' < dst.width → y' < dst.height → Matters dst.format ch x y x' y' → ∀ k, (k = .A ↔ ch = .A) →
      sample src.format sps' n k x' y' = sample src.format sps m k x' y') :
    sample dst.format dps' no ch x y = sample dst.format dps mo ch x y := by
  cases hl : sampleLoc dst.format ch x y with
  | none => rw [sample, sample, hl]; rfl
  | some l =>
    have h1 := C14_as_is r.done ch x y l hx hy hl
    have h2 := C14_as_is r'.done ch x y l (by omega) hy' (by rw [efd]; exact hl)
    rw [efd, ec, ecd, ef, ew] at h2
    rw [h1, h2, C14_as_is_specified _ _ _ _ _ _ _ _ _ _ _ hb, C14_as_is_specified _ _ _ _ _ _ _ _ _ _ _ hb]
    refine congrArg some (converted_local fun x' y' hm k hk => ?_)
    have cell := matters_cell hm
    have e1 := r.returned.evenW
    have e2 := r.returned.evenH
    exact asRead_of_sample r.returned.vsrc.fits.1 (ef ▸ r'.returned.vsrc.fits.1) r.uniform (ef ▸ r'.uniform)
      (h x' y' (by omega) (by omega) hm k hk)

/-- **C73** (partial: as before), for one image: a change of the samples of a source's 2×2 cell, or of anything else in memory, leaves all
other pixels of the result alone. -/
theorem C73_change_partial (r : Run c src dst sps dps m mo) (r' : Run c src dst sps dps n no) (px py : Nat)
    (h : ∀ k x' y', x' < dst.width → y' < dst.height → x' / 2 ≠ px / 2 ∨ y' / 2 ≠ py / 2 → sample src.format sps n k x' y' = sample src.format sps m k x' y')
    (hb : vsub dst.format = 1 ∨ ∀ i, dst.color = .YUV i → i.space ≠ .ICtCpPQ ∧ i.space ≠ .ICtCpHLG)
    {ch : Chan} {x y : Nat} (hx : x < dst.width) (hy : y < dst.height) (hne : x / 2 ≠ px / 2 ∨ y / 2 ≠ py / 2) :
    sample dst.format dps no ch x y = sample dst.format dps mo ch x y := by
  refine C73_local_partial r r' rfl rfl rfl rfl rfl (.inr hb) hx hy hy fun x' y' hx' hy' hm k _ => ?_
  have cell := matters_cell hm
  exact h k x' y' hx' hy' (by omega)

end

/-! ## Cases -/

/-- Two RGBA images that differ in alpha of one pixel and in all of another: luma of the first is the same. -/
example (p : Platform) (simd scalar : Libm) (m n mo no : Mem)
    (r : Run (p.ieee simd scalar) (.raw .RGBA 2 2 [⟨⟨0, 16⟩, 8⟩] (.RGB ⟨.SDR, .BT709⟩))
      (.raw .I444 2 2 [⟨⟨100, 4⟩, 2⟩, ⟨⟨104, 4⟩, 2⟩, ⟨⟨108, 4⟩, 2⟩] (.YUV ⟨.SDR, .BT709, .BT709, true⟩)) [⟨⟨0, 16⟩, 8⟩]
      [⟨⟨100, 4⟩, 2⟩, ⟨⟨104, 4⟩, 2⟩, ⟨⟨108, 4⟩, 2⟩] m mo)
    (r' : Run (p.ieee simd scalar) (.raw .RGBA 2 2 [⟨⟨0, 16⟩, 8⟩] (.RGB ⟨.SDR, .BT709⟩))
      (.raw .I444 2 2 [⟨⟨100, 4⟩, 2⟩, ⟨⟨104, 4⟩, 2⟩, ⟨⟨108, 4⟩, 2⟩] (.YUV ⟨.SDR, .BT709, .BT709, true⟩)) [⟨⟨0, 16⟩, 8⟩]
      [⟨⟨100, 4⟩, 2⟩, ⟨⟨104, 4⟩, 2⟩, ⟨⟨108, 4⟩, 2⟩] n no)
    (h : n 0 = m 0 ∧ n 1 = m 1 ∧ n 2 = m 2) : some (no 104).toNat = some (mo 104).toNat := by
  refine C73_local_partial (ch := .U) (x := 0) (y := 0) r r' rfl rfl rfl rfl rfl (.inr (.inl rfl)) (by decide) (by decide) (by decide) ?_
  intro x' y' _ _ hm k hk
  have hm : x' / 1 = 0 / 1 ∧ y' / 1 = 0 / 1 := hm
  obtain ⟨rfl, rfl⟩ : x' = 0 ∧ y' = 0 := by omega
  cases k
  case A => exact absurd (hk.1 rfl) (by decide)
  case R => exact congrArg (fun b : UInt8 => some b.toNat) h.1
  case G => exact congrArg (fun b : UInt8 => some b.toNat) h.2.1
  case B => exact congrArg (fun b : UInt8 => some b.toNat) h.2.2
  all_goals rfl

/-- A change of one byte changes one cell. -/
example (p : Platform) (simd scalar : Libm) (m : Mem) (v : UInt8) : ∃ mo no,
    convert (p.ieee simd scalar) tallSrc tallDst m = .ok (.ok (), mo) ∧
    convert (p.ieee simd scalar) tallSrc tallDst (fun a => if a = 16 then v else m a) = .ok (.ok (), no) ∧
    sample .I420 tallDstPlanes no .V 0 0 = sample .I420 tallDstPlanes mo .V 0 0 := by
  obtain ⟨mo, r⟩ := run_exists (c := p.ieee simd scalar) (src := tallSrc) (dst := tallDst) (platform_lawful p _ _) rfl rfl tall_disjoint tall_separate tall_uniform
    (by decide) m
  obtain ⟨no, r'⟩ := run_exists (c := p.ieee simd scalar) (src := tallSrc) (dst := tallDst) (platform_lawful p _ _) rfl rfl tall_disjoint tall_separate tall_uniform
    (by decide) (fun a => if a = 16 then v else m a)
  refine ⟨mo, no, r.ok, r'.ok, C73_change_partial r r' 0 2 ?_ (.inr ?_) (by decide) (by decide) (.inr (by decide))⟩
  · intro k x' y' hx' hy' hne
    refine sample_same fun l b j hl hb hj => if_neg ?_
    have hj : j < 1 := hj
    have hx' : x' < 2 := hx'
    cases k <;> simp only [tallSrc, Img.format, sampleLoc, Option.some.injEq, reduceCtorEq] at hl <;> subst hl <;>
      simp [locAddr] at hb <;> omega
  · intro i h
    cases h
    decide

/-- Black, and black but for a red pixel in column 24. -/
def blackMem : Mem := fun _ => 0
def redFar : Mem := fun a => if a = 72 then 255 else 0

theorem red_run_of (p : Platform) (scalar : Libm) (m : Mem) :
    ∃ m', Run (p.real scalar) redSrc redDst [⟨⟨0, 192⟩, 96⟩] redDstPlanes m m' :=
  run_exists (src := redSrc) (dst := redDst) (platform_lawful p _ _) rfl rfl red_disjoint red_separate red_uniform (by decide) m

theorem far_black : convertedAsIs (columnArith (Platform.avx2.real x86Libm) 32) (Platform.avx2.real x86Libm).vec.LEN 32
    .RGB redSrc.color .I420 redDst.color (asRead .RGB [⟨⟨0, 192⟩, 96⟩] blackMem) .U 16 0 = 128 := by
  decide +kernel

theorem far_red : convertedAsIs (columnArith (Platform.avx2.real x86Libm) 32) (Platform.avx2.real x86Libm).vec.LEN 32
    .RGB redSrc.color .I420 redDst.color (asRead .RGB [⟨⟨0, 192⟩, 96⟩] redFar) .U 16 0 = 115 := by
  decide +kernel

/-- **C73** is false for the chroma of 4:2:0 destinations with an ICtCp colour space: on AVX2 the chroma of a pixel in column 16 is changed by
a red pixel in column 24. -/
theorem C73_ictcp_false : ∃ mo no : Mem,
    Run (Platform.avx2.real x86Libm) redSrc redDst [⟨⟨0, 192⟩, 96⟩] redDstPlanes blackMem mo ∧
    Run (Platform.avx2.real x86Libm) redSrc redDst [⟨⟨0, 192⟩, 96⟩] redDstPlanes redFar no ∧
    (∀ k x y, x ≠ 24 → x < 32 → sample .RGB [⟨⟨0, 192⟩, 96⟩] redFar k x y = sample .RGB [⟨⟨0, 192⟩, 96⟩] blackMem k x y) ∧
    sample .I420 redDstPlanes mo .U 16 0 = some 128 ∧ sample .I420 redDstPlanes no .U 16 0 = some 115 := by
  obtain ⟨mo, r⟩ := red_run_of .avx2 x86Libm blackMem
  obtain ⟨no, r'⟩ := red_run_of .avx2 x86Libm redFar
  refine ⟨mo, no, r, r', ?_, ?_, ?_⟩
  · intro k x y hx hw
    refine sample_same fun l b j hl hb hj => if_neg ?_
    have hj : j < 1 := hj
    cases k <;> simp only [sampleLoc, Option.some.injEq, reduceCtorEq] at hl <;> subst hl <;> simp [locAddr] at hb <;> omega
  · exact (C14_as_is r.done .U 16 0 ⟨1, 0, 8⟩ (by decide) (by decide) rfl).trans (congrArg some far_black)
  · exact (C14_as_is r'.done .U 16 0 ⟨1, 0, 8⟩ (by decide) (by decide) rfl).trans (congrArg some far_red)

end Ezk.Props

import Verif.Props.Window

/-!
# C60: equal areas get equal codes

Wherever the same colours stand in an image, their conversion is the same: flat areas stay flat, and patterns stay patterns.
-/

namespace Ezk.Props
open FOps Spec F32 PixelFormat

section
variable {F : Type} [FOps F]

/-- Without subsampling every pixel is converted by itself. -/
theorem converted_pixel {ar br : Nat → Arith F} {x y x' y' : Nat} (ha : br x' = ar x) {sf df : PixelFormat} (hd : hsub df = 1)
    {sc dc : ColorInfo} {V W : Pic Nat} (h : ∀ c, W c x' y' = V c x y) (c : Chan) :
    converted br sf sc df dc W c x' y' = converted ar sf sc df dc V c x y := by
  have hn : ∀ c, Spec.normalize br sf W c x' y' = Spec.normalize ar sf V c x y := fun c => by
    rw [Spec.normalize, Spec.normalize, h, ha]
  have hr : ∀ c, readPic br sf sc W c x' y' = readPic ar sf sc V c x y := by
    intro c
    have hw : withAlpha sf (Spec.normalize br sf W) c x' y' = withAlpha sf (Spec.normalize ar sf V) c x y := by
      rw [withAlpha, withAlpha, hn]
    cases sc with
    | RGB k => exact hw
    | YUV k =>
      simp only [readPic]
      split
      · cases c <;> simp only [decode, hn, ha]
      · exact hw
  have hp : ∀ c, adaptPic br sc dc (readPic br sf sc W) c x' y' = adaptPic ar sc dc (readPic ar sf sc V) c x y := by
    intro c
    simp only [adaptPic]
    split
    · exact hr c
    · cases c <;> simp only [changeColor, hr, ha]
  have hf : convertedF br sf sc df dc W c x' y' = convertedF ar sf sc df dc V c x y := by
    unfold convertedF
    split
    · exact hn c
    · cases dc with
      | RGB k => exact hp c
      | YUV k =>
        simp only [writePic]
        split
        · cases c <;> simp only [encode, chromaOf, yuvAt, if_pos hd, hp, ha]
        · exact hp c
  simp only [converted, quantize, hf, ha]

variable {c : Cpu F} {src dst src' dst' : Img} {sps dps sps' dps' : List Plane} {m mo n no : Mem}

/-- **C60** (partial: not for 4:4:4 sources whose planes have different strides, and not for 4:2:0 destinations with an ICtCp colour
space). Two cells of 2×2 pixels, of one image or of two, whose samples are the same get the same samples in the conversion, if their columns
are computed by the same code; with any arithmetic. -/
theorem C60_equal_cells_partial (r : Run c src dst sps dps m mo) (r' : Run c src' dst' sps' dps' n no)
    (ef : src'.format = src.format) (ec : src'.color = src.color) (efd : dst'.format = dst.format) (ecd : dst'.color = dst.color)
    (hb : ¬ BadChroma src.format src.color dst.format dst.color) {x y x' y' : Nat} (hx : 2 * x < dst.width) (hy : 2 * y < dst.height)
    (hx' : 2 * x' < dst'.width) (hy' : 2 * y' < dst'.height) (hcode : SameCode c.vec.LEN dst'.width (2 * x') dst.width (2 * x))
    (hcell : ∀ ch, ∀ i < 2, ∀ j < 2,
      sample src.format sps' n ch (2 * x' + i) (2 * y' + j) = sample src.format sps m ch (2 * x + i) (2 * y + j))
    (ch : Chan) {i j : Nat} (hi : i < 2) (hj : j < 2) :
    sample dst.format dps' no ch (2 * x' + i) (2 * y' + j) = sample dst.format dps mo ch (2 * x + i) (2 * y + j) := by
  have b1 := r.returned.evenW
  have b2 := r'.returned.evenW
  have b3 := r.returned.evenH
  have b4 := r'.returned.evenH
  cases hl : sampleLoc dst.format ch (2 * x' + i) (2 * y' + j) with
  | none => rw [sample, sample, hl, sampleLoc_none _ _ _ _ _ _ hl]; rfl
  | some l =>
    obtain ⟨l', hl'⟩ : ∃ l', sampleLoc dst.format ch (2 * x + i) (2 * y + j) = some l' := by
      cases hl' : sampleLoc dst.format ch (2 * x + i) (2 * y + j) with
      | none => rw [sampleLoc_none _ _ _ _ _ _ hl'] at hl; cases hl
      | some l' => exact ⟨l', rfl⟩
    have h1 := r.depicts hb (shown_depicts r.returned.vsrc.fits.1 m) ch (2 * x + i) (2 * y + j) l' (by omega) (by omega) hl'
    have h2 := r'.depicts (by rw [efd, ec, ecd, ef]; exact hb) (shown_depicts r'.returned.vsrc.fits.1 n) ch (2 * x' + i) (2 * y' + j) l
      (by omega) (by omega) (by rw [efd]; exact hl)
    rw [efd, ec, ecd, ef] at h2
    rw [h1, h2]
    -- both cells as the cell at the origin of a picture
    have key : ∀ (ar : Nat → Arith F) (V : Pic Nat) (X Y : Nat),
        converted (fun k => ar (2 * X + k)) src.format src.color dst.format dst.color (fun c a b => V c (2 * X + a) (2 * Y + b)) ch i j =
          converted ar src.format src.color dst.format dst.color V ch (2 * X + i) (2 * Y + j) := fun ar V X Y =>
      converted_at (fun _ _ => rfl) (by omega) (by omega) (fun _ _ _ _ _ => rfl) ch
    rw [← key, ← key]
    have hz := converted_at (ar := fun k => columnArith c dst.width (2 * x + k)) (br := fun k => columnArith c dst'.width (2 * x' + k))
      (x0 := 0) (y0 := 0) (i := i) (j := j) (sf := src.format) (df := dst.format) (sc := src.color) (dc := dst.color)
      (V := fun c a b => shown src.format sps m c (2 * x + a) (2 * y + b))
      (W := fun c a b => shown src.format sps' n c (2 * x' + a) (2 * y' + b)) ?_ rfl rfl ?_ ch
    · simpa using hz
    · intro i' e
      have a1 : dst.width % (c.vec.LEN * 2) % 2 = dst.width % 2 := Nat.mod_mul_left_mod _ _ _
      have a2 : dst'.width % (c.vec.LEN * 2) % 2 = dst'.width % 2 := Nat.mod_mul_left_mod _ _ _
      unfold SameCode at hcode
      simp only [columnArith, Nat.zero_add]
      have : 2 * x' + i' < dst'.width - dst'.width % (c.vec.LEN * 2) ↔ 2 * x + i' < dst.width - dst.width % (c.vec.LEN * 2) := by
        constructor <;> intro h
        · have := hcode.1 (by omega); omega
        · have := hcode.2 (by omega); omega
      simp only [this]
    · intro c' i' j' e1 e2
      simp only [Nat.zero_add, shown]
      rw [hcell c' i' (by omega) j' (by omega)]

/-- **C60** for RGB and 4:4:4 destinations (partial: not for 4:4:4 sources whose planes have different strides). Two pixels whose samples
are the same get the same samples. -/
theorem C60_equal_pixels_partial (r : Run c src dst sps dps m mo) (r' : Run c src' dst' sps' dps' n no)
    (ef : src'.format = src.format) (ec : src'.color = src.color) (efd : dst'.format = dst.format) (ecd : dst'.color = dst.color)
    (hd : hsub dst.format = 1) {x y x' y' : Nat} (hx : x < dst.width) (hy : y < dst.height)
    (hx' : x' < dst'.width) (hy' : y' < dst'.height) (hcode : SameCode c.vec.LEN dst'.width x' dst.width x)
    (hpix : ∀ ch, sample src.format sps' n ch x' y' = sample src.format sps m ch x y) (ch : Chan) :
    sample dst.format dps' no ch x' y' = sample dst.format dps mo ch x y := by
  have hv : vsub dst.format = 1 := by revert hd; cases dst.format <;> simp [hsub, vsub]
  have hb : ¬ BadChroma src.format src.color dst.format dst.color := by
    rintro ⟨_, h, _⟩; rw [hv] at h; cases h
  cases hl : sampleLoc dst.format ch x' y' with
  | none => rw [sample, sample, hl, sampleLoc_none _ _ _ _ _ _ hl]; rfl
  | some l =>
    obtain ⟨l', hl'⟩ : ∃ l', sampleLoc dst.format ch x y = some l' := by
      cases hl' : sampleLoc dst.format ch x y with
      | none => rw [sampleLoc_none _ _ _ _ _ _ hl'] at hl; cases hl
      | some l' => exact ⟨l', rfl⟩
    have h1 := r.depicts hb (shown_depicts r.returned.vsrc.fits.1 m) ch x y l' hx hy hl'
    have h2 := r'.depicts (by rw [efd, ec, ecd, ef]; exact hb) (shown_depicts r'.returned.vsrc.fits.1 n) ch x' y' l hx' hy' (by rw [efd]; exact hl)
    rw [efd, ec, ecd, ef] at h2
    rw [h1, h2]
    refine congrArg some (converted_pixel ?_ hd (fun c' => by rw [shown, shown, hpix c']) ch)
    unfold SameCode at hcode
    simp only [columnArith, hcode]

end

/-- **C60** is false across the border between vector and scalar code: the dark blue image of 40×2 pixels is flat, its conversion to I444 on
AVX2 has the luma 1 in the columns before the last 8, and 0 in these. -/
theorem C60_border_false (simd scalar : Libm) : ∃ mo : Mem,
    Run (Platform.avx2.ieee simd scalar) (.raw .RGB 40 2 [⟨⟨0, 300⟩, 120⟩] (.RGB ⟨.SDR, .BT709⟩))
      (.raw .I444 40 2 [⟨⟨300, 80⟩, 40⟩, ⟨⟨400, 80⟩, 40⟩, ⟨⟨500, 80⟩, 40⟩] (.YUV ⟨.SDR, .BT709, .BT709, true⟩))
      [⟨⟨0, 300⟩, 120⟩] [⟨⟨300, 80⟩, 40⟩, ⟨⟨400, 80⟩, 40⟩, ⟨⟨500, 80⟩, 40⟩] darkBlue mo ∧
    (∀ ch, sample .RGB [⟨⟨0, 300⟩, 120⟩] darkBlue ch 31 1 = sample .RGB [⟨⟨0, 300⟩, 120⟩] darkBlue ch 32 1) ∧
    sample .I444 [⟨⟨300, 80⟩, 40⟩, ⟨⟨400, 80⟩, 40⟩, ⟨⟨500, 80⟩, 40⟩] mo .Y 31 1 = some 1 ∧
    sample .I444 [⟨⟨300, 80⟩, 40⟩, ⟨⟨400, 80⟩, 40⟩, ⟨⟨500, 80⟩, 40⟩] mo .Y 32 1 = some 0 := by
  obtain ⟨mo, r⟩ := run_exists (c := Platform.avx2.ieee simd scalar) (platform_lawful .avx2 _ _)
    (src := .raw .RGB 40 2 [⟨⟨0, 300⟩, 120⟩] (.RGB ⟨.SDR, .BT709⟩))
    (dst := .raw .I444 40 2 [⟨⟨300, 80⟩, 40⟩, ⟨⟨400, 80⟩, 40⟩, ⟨⟨500, 80⟩, 40⟩] (.YUV ⟨.SDR, .BT709, .BT709, true⟩))
    (sps := [⟨⟨0, 300⟩, 120⟩]) (dps := [⟨⟨300, 80⟩, 40⟩, ⟨⟨400, 80⟩, 40⟩, ⟨⟨500, 80⟩, 40⟩]) rfl rfl
    (planesDisjoint_of (by decide)) (separate_of (by decide)) (uniform_of (by decide)) (by decide) darkBlue
  exact ⟨mo, r, fun ch => by cases ch <;> decide,
    (dark_luma r rfl rfl rfl rfl rfl rfl rfl rfl (x := 31) (y := 1) (by decide) (by decide) (by decide)).1
      (by simp [Truncates, lanes, Img.width]),
    (dark_luma r rfl rfl rfl rfl rfl rfl rfl rfl (x := 32) (y := 1) (by decide) (by decide) (by decide)).2
      (by simp [Truncates, lanes, Img.width])⟩

/-! ## Examples -/

/-- In the dark blue image, converted to NV12 on AVX-512, the cells at columns 2 and 12. -/
example (simd scalar : Libm) : ∃ mo : Mem,
    sample .NV12 [⟨⟨400, 64⟩, 32⟩, ⟨⟨500, 32⟩, 32⟩] mo .U 12 1 = sample .NV12 [⟨⟨400, 64⟩, 32⟩, ⟨⟨500, 32⟩, 32⟩] mo .U 2 1 := by
  obtain ⟨mo, r⟩ := run_exists (c := Platform.avx512.ieee simd scalar) (platform_lawful .avx512 _ _) (src := darkSrc)
    (dst := .raw .NV12 32 2 [⟨⟨400, 64⟩, 32⟩, ⟨⟨500, 32⟩, 32⟩] (.YUV ⟨.SRGB, .BT709, .BT601, false⟩))
    (sps := [⟨⟨0, 300⟩, 96⟩]) (dps := [⟨⟨400, 64⟩, 32⟩, ⟨⟨500, 32⟩, 32⟩]) rfl rfl
    (planesDisjoint_of (by decide)) (separate_of (by decide)) (uniform_of (by decide)) (by decide) darkBlue
  refine ⟨mo, C60_equal_cells_partial r r rfl rfl rfl rfl ?_ (x := 1) (y := 0) (x' := 6) (y' := 0) (by decide) (by decide) (by decide) (by decide)
    (by show (12 < 32 - 32 % (16 * 2) ↔ 2 < 32 - 32 % (16 * 2)); decide) ?_ .U (i := 0) (j := 1) (by decide) (by decide)⟩
  · rintro ⟨_, _, k, h, h'⟩; cases h; cases h'
  · intro ch i hi j hj
    have hi' : i = 0 ∨ i = 1 := by omega
    have hj' : j = 0 ∨ j = 1 := by omega
    rcases hi' with rfl | rfl <;> rcases hj' with rfl | rfl <;> cases ch <;> decide

/-- And converted to BGRA on AVX2, pixels 3 and 20. -/
example (simd scalar : Libm) : ∃ mo : Mem,
    sample .BGRA [⟨⟨400, 256⟩, 128⟩] mo .B 20 0 = sample .BGRA [⟨⟨400, 256⟩, 128⟩] mo .B 3 1 := by
  obtain ⟨mo, r⟩ := run_exists (c := Platform.avx2.ieee simd scalar) (platform_lawful .avx2 _ _) (src := darkSrc)
    (dst := .raw .BGRA 32 2 [⟨⟨400, 256⟩, 128⟩] (.RGB ⟨.SRGB, .BT709⟩))
    (sps := [⟨⟨0, 300⟩, 96⟩]) (dps := [⟨⟨400, 256⟩, 128⟩]) rfl rfl
    (planesDisjoint_of (by decide)) (separate_of (by decide)) (uniform_of (by decide)) (by decide) darkBlue
  exact ⟨mo, C60_equal_pixels_partial r r rfl rfl rfl rfl rfl (x := 3) (y := 1) (x' := 20) (y' := 0) (by decide) (by decide) (by decide)
    (by decide) (by show (20 < 32 - 32 % (8 * 2) ↔ 3 < 32 - 32 % (8 * 2)); decide) (fun ch => by cases ch <;> decide) .B⟩

end Ezk.Props

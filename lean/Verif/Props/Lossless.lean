import Verif.Proofs.Stores
import Verif.Proofs.Demo
import Verif.Proofs.AsRead
import Verif.Props.Layouts
import Verif.Props.Backends

/-!
# Lossless conversions and stores, in IEEE 754 binary32 on every platform

`p.ieee simd scalar` is platform `p` with binary32 arithmetic; `simd` and `scalar` are its `pow`, `sqrt` and `ln`, of which
nothing is assumed.
-/

namespace Ezk.Props
open FOps Spec F32

variable {p : Platform} {simd scalar : Libm} {src dst : Img} {sps dps : List Plane} {m m' : Mem}

/-- A sample of `k` significant bits fits. -/
def InDepth (f : PixelFormat) (w h : Nat) (V : Pic Nat) : Prop :=
  ∀ c x y l, x < w → y < h → sampleLoc f c x y = some l → V c x y ≤ 2 ^ sampleBits f - 1

theorem bits_cases (f : PixelFormat) : sampleBits f ∈ [8, 10, 12] := by cases f <;> decide

theorem max_lt (f : PixelFormat) : 0 < 2 ^ sampleBits f - 1 ∧ 2 ^ sampleBits f - 1 < 2 ^ 16 := by
  cases f <;> decide

/-- A sample scaled to `[0, 1]` and back. -/
theorem unscale {ar : Arith F32} (h : IsIeee ar) (f : PixelFormat) {n : Nat} (hn : n ≤ 2 ^ sampleBits f - 1) :
    ar.mul (ar.div (ofNat n) (maxSample f)) (maxSample f) = fin false n := by
  obtain ⟨a, b⟩ := max_lt f
  rw [h.mul, h.div, maxSample, scale_unscale (by omega) a (by omega), unscale_exact _ _ hn]
  · exact unscale_pow _ (bits_cases f)
  · cases f <;> decide
  · cases f <;> decide

theorem quantize_sample (ar : Nat → Arith F32) (f : PixelFormat) (pic : Pic F32) (c : Chan) (x y n : Nat)
    (h : IsIeee (ar x)) (hn : n ≤ 2 ^ sampleBits f - 1)
    (e : (ar x).mul (pic c x y) (maxSample f) = fin false n) : quantize ar f pic c x y = n := by
  simp only [quantize, e]
  split
  · refine h.q8i.exact (le_trans hn ?_)
    rename_i hy
    revert hy
    cases f <;> simp [isYuv, sampleBits]
  · split
    · refine h.q8.exact (le_trans hn ?_)
      rename_i hy
      revert hy
      cases f <;> simp [sampleBytes, sampleBits]
    · refine h.q16.exact (le_trans hn ?_)
      have := (max_lt f).2
      omega

/-! ## C23: no change of format and colour -/

/-- **C23** (partial: not for 4:4:4 sources whose planes have different strides; see `Run`). Converting between images of
the same format and colour copies every sample exactly, on every platform. -/
theorem C23_lossless_partial (r : Run (p.ieee simd scalar) src dst sps dps m m') (hf : src.format = dst.format)
    (hc : src.color = dst.color) {V : Pic Nat} (hV : Depicts src.format sps src.width src.height m V)
    (hd : InDepth src.format src.width src.height V) : Depicts dst.format dps dst.width dst.height m' V := by
  intro c x y l hx hy hl
  have hr := r.returned
  rw [r.depicts (fun h => h.1 ⟨hf, hc⟩) hV c x y l hx hy hl]
  congr 1
  have hn := hd c x y l (hr.width ▸ hx) (hr.height ▸ hy) (hf ▸ hl)
  have hi := column_ieee p simd scalar dst.width x
  rw [hf] at hn
  rw [converted, convertedF, if_pos ⟨hf, hc⟩]
  exact quantize_sample _ _ _ _ _ _ _ hi hn (hf ▸ unscale hi dst.format hn)

theorem sampleVal_le (f : PixelFormat) (m : Mem) (a : Nat) (h : sampleBytes f = 1) : sampleVal f m a ≤ 255 := by
  rw [sampleVal, if_pos h]
  have := (m a).toNat_lt
  omega

/-- **C23** for formats with 8-bit samples: every byte of the image is copied. -/
theorem C23_bytes_partial (r : Run (p.ieee simd scalar) src dst sps dps m m') (hf : src.format = dst.format)
    (hc : src.color = dst.color) (h8 : sampleBytes src.format = 1) {c : Chan} {x y : Nat} (hx : x < dst.width)
    (hy : y < dst.height) : sample dst.format dps m' c x y = sample src.format sps m c x y := by
  cases hl : sampleLoc dst.format c x y with
  | none => rw [sample, sample, hf, hl]; rfl
  | some l =>
    have hr := r.returned
    have hlen : planeCount src.format ≤ sps.length := hr.vsrc.fits.1
    have hV := shown_depicts (w := src.width) (h := src.height) hlen m
    have hd : InDepth src.format src.width src.height (shown src.format sps m) := by
      intro c x y l _ _ _
      have h255 : 2 ^ sampleBits src.format - 1 = 255 := by revert h8; cases src.format <;> simp [sampleBytes, sampleBits]
      rw [h255, shown, sample]
      cases (sampleLoc src.format c x y).bind (locAddr sps) with
      | none => simp
      | some a => exact sampleVal_le _ _ _ h8
    rw [C23_lossless_partial r hf hc hV hd c x y l hx hy hl,
      hV c x y l (hr.width ▸ hx) (hr.height ▸ hy) (by rw [hf]; exact hl)]

/-- A 4×2 image with 12-bit samples, its planes starting at `a`. -/
def i012At (a : Nat) : Img :=
  .raw .I012 4 2 [⟨⟨a, 16⟩, 8⟩, ⟨⟨a + 16, 4⟩, 4⟩, ⟨⟨a + 20, 4⟩, 4⟩] (.YUV ⟨.SDR, .BT709, .BT709, true⟩)
/-- Its planes. -/
def i012Planes (a : Nat) : List Plane := [⟨⟨a, 16⟩, 8⟩, ⟨⟨a + 16, 4⟩, 4⟩, ⟨⟨a + 20, 4⟩, 4⟩]

theorem i012_run (p : Platform) (simd scalar : Libm) (m : Mem) :
    ∃ m', Run (p.ieee simd scalar) (i012At 0) (i012At 100) (i012Planes 0) (i012Planes 100) m m' :=
  run_exists (platform_lawful p _ _) rfl rfl (planesDisjoint_of (by decide)) (separate_of (by decide))
    (uniform_of (by decide)) (by decide) m

/-- Copying a 12-bit image on AVX2. -/
example (simd scalar : Libm) (m : Mem) (V : Pic Nat) (hV : Depicts .I012 (i012Planes 0) 4 2 m V)
    (hd : InDepth .I012 4 2 V) : ∃ m', Depicts .I012 (i012Planes 100) 4 2 m' V := by
  obtain ⟨m', r⟩ := i012_run .avx2 simd scalar m
  exact ⟨m', C23_lossless_partial r rfl rfl hV hd⟩

/-- **C23** needs `InDepth`: 16-bit samples above the depth of the format are not always copied; 16383 in a 12-bit image
becomes 16382 where the stores truncate. -/
theorem C23_out_of_depth (simd scalar : Libm) (m : Mem) (h : sample .I012 (i012Planes 0) m .Y 1 0 = some 16383) :
    ∃ m', Run (Platform.scalar.ieee simd scalar) (i012At 0) (i012At 100) (i012Planes 0) (i012Planes 100) m m' ∧
      sample .I012 (i012Planes 100) m' .Y 1 0 = some 16382 := by
  obtain ⟨m', r⟩ := i012_run .scalar simd scalar m
  refine ⟨m', r, ?_⟩
  have hV := shown_depicts (f := .I012) (ps := i012Planes 0) (w := 4) (h := 2) (by decide) m
  have e := r.depicts (fun h => h.1 ⟨rfl, rfl⟩) hV .Y 1 0 ⟨0, 0, 2⟩ (by decide) (by decide) rfl
  refine e.trans ?_
  congr 1
  have hs : shown .I012 (i012Planes 0) m .Y 1 0 = 16383 := by rw [shown, h]; rfl
  have har : columnArith (Platform.scalar.ieee simd scalar) 4 1 = (scalarBackend (scalarArith scalar)).ar := by
    rw [columnArith]; split <;> rfl
  change quantize (columnArith (Platform.scalar.ieee simd scalar) 4) .I012
    (convertedF (columnArith (Platform.scalar.ieee simd scalar) 4) .I012 (i012At 0).color .I012 (i012At 0).color
      (shown .I012 (i012Planes 0) m)) .Y 1 0 = 16382
  rw [convertedF, if_pos ⟨rfl, rfl⟩]
  simp only [quantize, normalize, har, hs]
  rw [if_neg (by decide), if_neg (by decide)]
  change (UInt16.ofNat (asUnsigned 65535 (F32.mul (F32.div (ofNat 16383) (ofNat 4095)) (ofNat 4095)))).toNat = 16382
  decide +kernel

example : ∃ m : Mem, sample .I012 (i012Planes 0) m .Y 1 0 = some 16383 :=
  ⟨fun a => if a = 2 then 255 else if a = 3 then 63 else 0, by decide⟩

/-! ## C24: reordering of channels -/

/-- **C24**: conversions between RGBA, BGRA, RGB and BGR with equal transfer function and primaries copy each colour channel
exactly, and alpha where both store it. -/
theorem C24_same_light (r : Run (p.ieee simd scalar) src dst sps dps m m') (hs : isYuv src.format = false)
    (hd : isYuv dst.format = false) (ht : src.color.transfer = dst.color.transfer)
    (hp : src.color.primaries = dst.color.primaries) {c : Chan} {x y : Nat} (hx : x < dst.width)
    (hy : y < dst.height) (hcs : ∃ l, sampleLoc src.format c x y = some l)
    (hcd : ∃ l, sampleLoc dst.format c x y = some l) :
    sample dst.format dps m' c x y = sample src.format sps m c x y := by
  obtain ⟨ls, hls⟩ := hcs
  obtain ⟨l, hl⟩ := hcd
  by_cases hf : src.format = dst.format ∧ src.color = dst.color
  · refine C23_bytes_partial r hf.1 hf.2 ?_ hx hy
    revert hs; cases src.format <;> simp [isYuv, sampleBytes]
  have hr := r.returned
  have hlen : planeCount src.format ≤ sps.length := hr.vsrc.fits.1
  have hV := shown_depicts (w := src.width) (h := src.height) hlen m
  have hb : ¬ BadChroma src.format src.color dst.format dst.color := by
    rintro ⟨_, h, _⟩
    revert h hd; cases dst.format <;> simp [isYuv, vsub]
  rw [r.depicts hb hV c x y l hx hy hl, hV c x y ls (hr.width ▸ hx) (hr.height ▸ hy) hls]
  congr 1
  have hi := column_ieee p simd scalar dst.width x
  have e8 : sampleBits src.format = sampleBits dst.format := by
    revert hs hd; cases src.format <;> cases dst.format <;> simp [isYuv, sampleBits]
  have hn : shown src.format sps m c x y ≤ 2 ^ sampleBits dst.format - 1 := by
    have h255 : 2 ^ sampleBits dst.format - 1 = 255 := by revert hd; cases dst.format <;> simp [isYuv, sampleBits]
    rw [h255, shown, sample]
    cases (sampleLoc src.format c x y).bind (locAddr sps) with
    | none => simp
    | some a => exact sampleVal_le _ _ _ (by revert hs; cases src.format <;> simp [isYuv, sampleBytes])
  refine quantize_sample _ _ _ _ _ _ _ hi hn ?_
  rw [← unscale hi dst.format hn]
  congr 1
  have e1 : convertedF (columnArith (p.ieee simd scalar) dst.width) src.format src.color dst.format dst.color
      (shown src.format sps m) c x y = withAlpha src.format (normalize (columnArith (p.ieee simd scalar) dst.width)
        src.format (shown src.format sps m)) c x y := by
    rw [convertedF, if_neg hf, adaptPic, if_pos ⟨ht, hp⟩]
    cases src.color <;> cases dst.color <;> simp only [writePic, readPic, hs, hd] <;> rfl
  rw [e1, withAlpha, if_neg, normalize]
  · simp only [maxSample, e8]
  · rintro ⟨rfl, ha⟩
    revert hls ha
    cases src.format <;> simp [sampleLoc, hasAlpha]

/-- **C24** for equal colours. -/
theorem C24_reorder (r : Run (p.ieee simd scalar) src dst sps dps m m') (hs : isYuv src.format = false)
    (hd : isYuv dst.format = false) (hc : src.color = dst.color) {c : Chan} {x y : Nat} (hx : x < dst.width)
    (hy : y < dst.height) (hcs : ∃ l, sampleLoc src.format c x y = some l)
    (hcd : ∃ l, sampleLoc dst.format c x y = some l) :
    sample dst.format dps m' c x y = sample src.format sps m c x y :=
  C24_same_light r hs hd (by rw [hc]) (by rw [hc]) hx hy hcs hcd

/-- A 6×2 image of format RGBA or BGRA at `a`, rows 30 bytes apart. -/
def rgbaAt (f : PixelFormat) (t : ColorTransfer) (a : Nat) : Img := .raw f 6 2 [⟨⟨a, 60⟩, 30⟩] (.RGB ⟨t, .BT709⟩)

theorem rgba_run (p : Platform) (simd scalar : Libm) (m : Mem) (f g : PixelFormat) (hf : f = .RGBA ∨ f = .BGRA)
    (hg : g = .RGBA ∨ g = .BGRA) (t t' : ColorTransfer) :
    ∃ m', Run (p.ieee simd scalar) (rgbaAt f t 0) (rgbaAt g t' 100) [⟨⟨0, 60⟩, 30⟩] [⟨⟨100, 60⟩, 30⟩] m m' := by
  refine run_exists (platform_lawful p _ _) rfl rfl (planesDisjoint_of (by decide)) (separate_of (by decide))
    (uniform_of (Or.inr ?_)) ?_ m
  · rcases hf with rfl | rfl <;> simp [rgbaAt, Img.format, isYuv]
  · rcases hf with rfl | rfl <;> rcases hg with rfl | rfl <;> cases t <;> cases t' <;> decide

/-- Blue of pixel (5, 1) from RGBA to BGRA, in the scalar rest of an AVX2 conversion. -/
example (simd scalar : Libm) (m : Mem) : ∃ m',
    sample .BGRA [⟨⟨100, 60⟩, 30⟩] m' .B 5 1 = sample .RGBA [⟨⟨0, 60⟩, 30⟩] m .B 5 1 := by
  obtain ⟨m', r⟩ := rgba_run .avx2 simd scalar m .RGBA .BGRA (by simp) (by simp) .SRGB .SRGB
  exact ⟨m', C24_reorder r rfl rfl rfl (by decide) (by decide) ⟨_, rfl⟩ ⟨_, rfl⟩⟩

/-- **C24**: RGBA to BGRA and back restores every sample. -/
theorem C24_there_and_back {mid : Img} {mps : List Plane} {m'' : Mem}
    {p2 : Platform} {simd2 scalar2 : Libm}
    (r1 : Run (p.ieee simd scalar) src mid sps mps m m')
    (r2 : Run (p2.ieee simd2 scalar2) mid dst mps dps m' m'') (hs : isYuv src.format = false)
    (hm : isYuv mid.format = false) (hd : dst.format = src.format) (hc1 : src.color = mid.color)
    (hc2 : mid.color = dst.color) (ha : hasAlpha src.format = true → hasAlpha mid.format = true)
    {c : Chan} {x y : Nat} (hx : x < dst.width) (hy : y < dst.height) :
    sample dst.format dps m'' c x y = sample src.format sps m c x y := by
  cases hl : sampleLoc src.format c x y with
  | none => rw [sample, sample, hd, hl]; rfl
  | some l =>
    have hmid : ∃ l, sampleLoc mid.format c x y = some l := by
      revert hl ha hs hm
      cases src.format <;> cases mid.format <;> cases c <;> simp [isYuv, hasAlpha, sampleLoc]
    have e := r2.returned
    rw [C24_reorder r2 hm (hd ▸ hs) hc2 hx hy hmid ⟨l, hd ▸ hl⟩,
      C24_reorder r1 hs hm hc1 (e.width ▸ hx) (e.height ▸ hy) ⟨l, hl⟩ hmid]

/-! ## C25: alpha -/

theorem lit_one : (lit 1.0 : F32) = fin false 1 := by decide +kernel

theorem converted_alpha {ar : Nat → Arith F32} {sf df : PixelFormat} {sc dc : ColorInfo} {V : Pic Nat} {x y : Nat}
    (hne : ¬ (sf = df ∧ sc = dc)) (hd : isYuv df = false) :
    convertedF ar sf sc df dc V .A x y = readPic ar sf sc V .A x y := by
  rw [convertedF, if_neg hne]
  have e : ∀ q : Pic F32, writePic ar df dc q = q := fun q => by
    cases dc <;> simp [writePic, hd]
  rw [e, adaptPic]
  split <;> rfl

/-- **C25**: alpha is opaque if the source does not store it, whatever the colours and strides. -/
theorem C25_opaque (r : Done (p.ieee simd scalar) src dst sps dps m m') (hs : hasAlpha src.format = false)
    (hd : hasAlpha dst.format = true) {x y : Nat} (hx : x < dst.width) (hy : y < dst.height) :
    sample dst.format dps m' .A x y = some 255 := by
  obtain ⟨l, hl⟩ : ∃ l, sampleLoc dst.format .A x y = some l := by
    revert hd; cases dst.format <;> simp [hasAlpha, sampleLoc]
  have hyuv : isYuv dst.format = false := by revert hd; cases dst.format <;> simp [hasAlpha, isYuv]
  have hb : ¬ BadChroma src.format src.color dst.format dst.color := by
    rintro ⟨_, h, _⟩
    revert h hd; cases dst.format <;> simp [hasAlpha, vsub]
  rw [r.depicts hb .A x y l hx hy hl]
  congr 1
  have hi := column_ieee p simd scalar dst.width x
  refine quantize_sample _ _ _ _ _ _ _ hi (by revert hd; cases dst.format <;> simp [hasAlpha, sampleBits]) ?_
  rw [converted_alpha (fun h => by rw [h.1, hd] at hs; cases hs) hyuv]
  have e : readPic (columnArith (p.ieee simd scalar) dst.width) src.format src.color (asRead src.format sps m) .A x y
      = lit 1.0 := by
    have e2 : ∀ q : Pic F32, withAlpha src.format q .A x y = lit 1.0 := fun q => by simp [withAlpha, hs]
    cases hc : src.color with
    | RGB i => exact e2 _
    | YUV i =>
      rw [readPic]
      split
      · rfl
      · exact e2 _
  rw [e, hi.mul, lit_one, maxSample, fin_mul_nat (by norm_num) (by norm_num)]
  · have h255 : 2 ^ sampleBits dst.format - 1 = 255 := by revert hd; cases dst.format <;> simp [hasAlpha, sampleBits]
    rw [h255, one_mul, rnd_nat (by norm_num)]
  · have := max_lt dst.format
    omega

/-- **C25**: alpha is copied exactly between RGBA and BGRA, whatever the colours. -/
theorem C25_preserved (r : Run (p.ieee simd scalar) src dst sps dps m m') (hs : hasAlpha src.format = true)
    (hd : hasAlpha dst.format = true) {x y : Nat} (hx : x < dst.width) (hy : y < dst.height) :
    sample dst.format dps m' .A x y = sample src.format sps m .A x y := by
  have h8 : ∀ f, hasAlpha f = true → sampleBits f = 8 ∧ sampleBytes f = 1 ∧ isYuv f = false ∧ vsub f = 1 ∧
      ∃ l, sampleLoc f .A x y = some l := by
    intro f; cases f <;> simp [hasAlpha, sampleBits, sampleBytes, sampleLoc, isYuv, vsub]
  obtain ⟨sb, sy, sn, _, ls, hls⟩ := h8 _ hs
  obtain ⟨db, dy, dn, dv, l, hl⟩ := h8 _ hd
  by_cases hsame : src.format = dst.format ∧ src.color = dst.color
  · exact C23_bytes_partial r hsame.1 hsame.2 sy hx hy
  have hr := r.returned
  have hlen : planeCount src.format ≤ sps.length := hr.vsrc.fits.1
  have hV := shown_depicts (w := src.width) (h := src.height) hlen m
  have hb : ¬ BadChroma src.format src.color dst.format dst.color := by
    rintro ⟨_, h, _⟩; omega
  rw [r.depicts hb hV .A x y l hx hy hl, hV .A x y ls (hr.width ▸ hx) (hr.height ▸ hy) hls]
  congr 1
  have hi := column_ieee p simd scalar dst.width x
  have hn : shown src.format sps m .A x y ≤ 2 ^ sampleBits dst.format - 1 := by
    rw [db, shown, sample]
    cases (sampleLoc src.format .A x y).bind (locAddr sps) with
    | none => simp
    | some a => exact sampleVal_le _ _ _ sy
  refine quantize_sample _ _ _ _ _ _ _ hi hn ?_
  rw [converted_alpha hsame dn, ← unscale hi dst.format hn]
  have e : readPic (columnArith (p.ieee simd scalar) dst.width) src.format src.color (shown src.format sps m) .A x y
      = normalize (columnArith (p.ieee simd scalar) dst.width) src.format (shown src.format sps m) .A x y := by
    have e2 : ∀ q : Pic F32, withAlpha src.format q .A x y = q .A x y := fun q => by simp [withAlpha, hs]
    cases hc : src.color with
    | RGB i => exact e2 _
    | YUV i =>
      rw [readPic]
      split
      · rename_i h; rw [sn] at h; cases h
      · exact e2 _
  rw [e, normalize]
  simp only [maxSample, sb, db]

/-- Alpha is kept although the transfer function changes. -/
example (simd scalar : Libm) (m : Mem) : ∃ m',
    sample .BGRA [⟨⟨100, 60⟩, 30⟩] m' .A 3 1 = sample .RGBA [⟨⟨0, 60⟩, 30⟩] m .A 3 1 := by
  obtain ⟨m', r⟩ := rgba_run .neon simd scalar m .RGBA .BGRA (by simp) (by simp) .SRGB .BT2100PQ
  exact ⟨m', C25_preserved r rfl rfl (by decide) (by decide)⟩

/-- From a 12-bit YUV image to RGBA. -/
example (simd scalar : Libm) (m : Mem) : ∃ m', ∀ x < 4, ∀ y < 2,
    sample .RGBA [⟨⟨100, 32⟩, 16⟩] m' .A x y = some 255 := by
  obtain ⟨m', r⟩ := run_exists (c := Platform.avx512.ieee simd scalar) (platform_lawful _ _ _) (src := i012At 0)
    (dst := .raw .RGBA 4 2 [⟨⟨100, 32⟩, 16⟩] (.RGB ⟨.BT2100PQ, .BT2020⟩)) (sps := i012Planes 0)
    (dps := [⟨⟨100, 32⟩, 16⟩]) rfl rfl (planesDisjoint_of (by decide)) (separate_of (by decide))
    (uniform_of (by decide)) (by decide) m
  exact ⟨m', fun x hx y hy => C25_opaque r.done rfl rfl hx hy⟩

end Ezk.Props

import Verif.Proofs.RoundTrip
import Verif.Props.Stores

/-!
# How close conversions between RGB and YUV come to the ideal result

Binary32 arithmetic on every platform, for conversions that need no transfer functions: both images have the same transfer
function and primaries, and the colour space is given by a matrix.  Nothing is assumed of `pow`, `sqrt` and `ln`.
-/

namespace Ezk.Props
open FOps Spec F32

variable {p : Platform} {simd scalar : Libm} {src dst : Img} {sps dps : List Plane} {m m' : Mem}

/-- Exact arithmetic in all columns. -/
noncomputable def exactAr : Nat → Arith ℝ := fun _ => realArith (fun _ => 0) (fun _ => 0) (fun _ => 0)

theorem exactAr_exact (x : Nat) : Exact (exactAr x) := realArith_exact _ _ _

/-- The colours of an RGB source. -/
noncomputable def rgbOf (V : Pic Nat) : Pic ℝ := fun c x y => (V c x y : ℝ) / 255

theorem shown_le {f : PixelFormat} (h : sampleBytes f = 1) (ps : List Plane) (m : Mem) (c : Chan) (x y : Nat) :
    shown f ps m c x y ≤ 255 := by
  rw [shown, sample]
  cases (sampleLoc f c x y).bind (locAddr ps) with
  | none => simp
  | some a => exact sampleVal_le _ _ _ h

theorem rgb8 {f : PixelFormat} (h : isYuv f = false) : sampleBytes f = 1 ∧ sampleBits f = 8 := by
  revert h; cases f <;> simp [isYuv, sampleBytes, sampleBits]

theorem rgb_app {ar : Nat → Arith F32} (hi : ∀ x, IsIeee (ar x)) {f : PixelFormat} (hf : isYuv f = false) {V : Pic Nat}
    (hV : ∀ c x y, V c x y ≤ 255) : PicApp (withAlpha f (Spec.normalize ar f V)) (rgbOf V) (1 / 10 ^ 7) := by
  intro c x y hc
  have h := sample_app (hi x) (n := V c x y) (M := 255) (by norm_num) (by norm_num) (hV c x y)
  have e : withAlpha f (Spec.normalize ar f V) c x y = (ar x).div (FOps.ofNat (V c x y)) (FOps.ofNat 255) := by
    rw [withAlpha, if_neg (by rintro ⟨rfl, _⟩; simp at hc), Spec.normalize, maxSample, (rgb8 hf).2]
  rw [e]
  refine ⟨by exact_mod_cast h.1, by unfold rgbOf; positivity, ?_⟩
  have := (abs_le.mp h.2).2
  exact_mod_cast this

/-- What is stored for YUV destinations of RGB sources. -/
theorem converted_yuv {ar : Nat → Arith F32} {sf df : PixelFormat} {sc : ColorInfo} {i : YuvColorInfo} (hs : isYuv sf = false)
    (hd : isYuv df = true) (ht : sc.transfer = i.transfer) (hp : sc.primaries = i.primaries) (V : Pic Nat) :
    convertedF ar sf sc df (.YUV i) V = encode ar df i (withAlpha sf (Spec.normalize ar sf V)) := by
  have e1 : readPic ar sf sc V = withAlpha sf (Spec.normalize ar sf V) := by
    cases sc <;> simp [readPic, hs]
  rw [convertedF, if_neg (by rintro ⟨rfl, _⟩; rw [hs] at hd; cases hd), e1, adaptPic, if_pos ⟨ht, hp⟩]
  simp only [writePic, hd, if_true]

/-- The store used for YUV samples of format `f`. -/
def yuvStore (f : PixelFormat) : Store := if sampleBytes f = 1 then .planar8 else .planar16

/-- The stored float, compared with the exact formulas. -/
theorem rgb_to_yuv_value (r : Run (p.ieee simd scalar) src dst sps dps m m') (hs : isYuv src.format = false)
    (hd : isYuv dst.format = true) {i : YuvColorInfo} (hi : dst.color = .YUV i) (ht : src.color.transfer = i.transfer)
    (hp : src.color.primaries = i.primaries) (hm : isMatrix i.space = true) {c : Chan} (hc : c = .Y ∨ c = .U ∨ c = .V)
    {x y : Nat} (hx : x < dst.width) (hy : y < dst.height) :
    ∃ v, sample dst.format dps m' c x y = some (stored p simd scalar dst.width x (yuvStore dst.format) v) ∧
      v = F32.mul (encode (columnArith (p.ieee simd scalar) dst.width) dst.format i (withAlpha src.format
        (Spec.normalize (columnArith (p.ieee simd scalar) dst.width) src.format (shown src.format sps m))) c x y)
        (maxSample dst.format) ∧
      App v (encode exactAr dst.format i (rgbOf (shown src.format sps m)) c x y * (2 ^ sampleBits dst.format - 1 : Nat))
        (5 / 10 ^ 6 * (2 ^ sampleBits dst.format - 1 : Nat)) ∧
      0 ≤ encode exactAr dst.format i (rgbOf (shown src.format sps m)) c x y ∧
      encode exactAr dst.format i (rgbOf (shown src.format sps m)) c x y ≤ 1 := by
  have hcol := column_ieee p simd scalar dst.width
  have hV := shown_depicts (w := src.width) (h := src.height) r.returned.vsrc.fits.1 m
  have hle := shown_le (rgb8 hs).1 sps m
  have happ := rgb_app hcol hs hle
  obtain ⟨l, hl⟩ : ∃ l, sampleLoc dst.format c x y = some l := by
    revert hd; rcases hc with rfl | rfl | rfl <;> cases dst.format <;> simp [isYuv, sampleLoc]
  have hb : ¬ BadChroma src.format src.color dst.format dst.color := by
    rintro ⟨_, _, j, h1, h2⟩
    rw [hi] at h1; cases h1
    rw [hm] at h2; cases h2
  rw [r.depicts hb hV c x y l hx hy hl]
  rw [converted, hi, converted_yuv hs hd ht hp]
  obtain ⟨a1, a2⟩ := encode_app hcol exactAr_exact dst.format hm happ hc x y
  obtain ⟨b1, b2⟩ := encode_range exactAr_exact dst.format hm (fun c x y h => (happ c x y h).2) hc x y
  have hs := scale_app (hcol x) dst.format a1 (by linarith) (by norm_num)
  rw [(hcol x).mul] at hs
  refine ⟨_, ?_, rfl, hs.mono (mul_le_mul_of_nonneg_right (by norm_num) (by positivity)), b1, b2⟩
  simp only [quantize, hd, (hcol x).mul, yuvStore]
  rw [if_neg (by simp)]
  split <;> rfl

/-- The stored code, compared with the exact formulas. -/
theorem rgb_to_yuv (r : Run (p.ieee simd scalar) src dst sps dps m m') (hs : isYuv src.format = false)
    (hd : isYuv dst.format = true) {i : YuvColorInfo} (hi : dst.color = .YUV i) (ht : src.color.transfer = i.transfer)
    (hp : src.color.primaries = i.primaries) (hm : isMatrix i.space = true) {c : Chan} (hc : c = .Y ∨ c = .U ∨ c = .V)
    {x y : Nat} (hx : x < dst.width) (hy : y < dst.height) :
    ∃ n, sample dst.format dps m' c x y = some n ∧ n ≤ 2 ^ sampleBits dst.format - 1 ∧
      |(n : ℝ) - encode exactAr dst.format i (rgbOf (shown src.format sps m)) c x y * (2 ^ sampleBits dst.format - 1 : Nat)| <
        1 + 5 / 10 ^ 6 * (2 ^ sampleBits dst.format - 1 : Nat) := by
  have hcol := column_ieee p simd scalar dst.width
  obtain ⟨w, h1, _, h2, b1, b2⟩ := rgb_to_yuv_value r hs hd hi ht hp hm hc hx hy
  refine ⟨_, h1, ?_⟩
  have hM : 255 ≤ 2 ^ sampleBits dst.format - 1 ∧ 2 ^ sampleBits dst.format - 1 ≤ 4095 := by
    cases dst.format <;> simp [sampleBits]
  have hT8 : sampleBytes dst.format = 1 → 2 ^ sampleBits dst.format - 1 ≤ 255 := by
    cases dst.format <;> simp [sampleBytes, sampleBits]
  generalize encode exactAr dst.format i (rgbOf (shown src.format sps m)) c x y = v at *
  generalize 2 ^ sampleBits dst.format - 1 = M at *
  have hM1 : (255 : ℝ) ≤ M := by exact_mod_cast hM.1
  have hM2 : (M : ℝ) ≤ 4095 := by exact_mod_cast hM.2
  have e1 : (5 / 10 ^ 6 : ℝ) * M < 1 / 2 := by norm_num; linarith
  have e3 : 0 ≤ v * M := by positivity
  have e4 : v * M ≤ M := by nlinarith
  unfold yuvStore
  split
  · rename_i h8
    exact ((hcol x).q8.app (hT8 h8) h2 e1 e3 e4).symm
  · exact ((hcol x).q16.app (by omega) h2 e1 e3 e4).symm

/-! ## C38: samples stay within their depth -/

/-- **C38** (partial: RGB sources of the same transfer function and primaries, matrix colour spaces; the full statement has
no such hypotheses and is false, see `C38_yuv_source_exceeds`). Every 10- or 12-bit sample fits. -/
theorem C38_in_depth_partial (r : Run (p.ieee simd scalar) src dst sps dps m m') (hs : isYuv src.format = false)
    (hd : isYuv dst.format = true) {i : YuvColorInfo} (hi : dst.color = .YUV i) (ht : src.color.transfer = i.transfer)
    (hp : src.color.primaries = i.primaries) (hm : isMatrix i.space = true) {c : Chan} (hc : c = .Y ∨ c = .U ∨ c = .V)
    {x y : Nat} (hx : x < dst.width) (hy : y < dst.height) :
    ∃ n, sample dst.format dps m' c x y = some n ∧ n ≤ 2 ^ sampleBits dst.format - 1 := by
  obtain ⟨n, h1, h2, _⟩ := rgb_to_yuv r hs hd hi ht hp hm hc hx hy
  exact ⟨n, h1, h2⟩

/-- A 2×2 limited-range I444 image. -/
def i444Limited : Img :=
  .raw .I444 2 2 [⟨⟨0, 4⟩, 2⟩, ⟨⟨4, 4⟩, 2⟩, ⟨⟨8, 4⟩, 2⟩] (.YUV ⟨.SDR, .BT709, .BT709, false⟩)
/-- A 2×2 full-range I410 image. -/
def i410Full : Img :=
  .raw .I410 2 2 [⟨⟨100, 8⟩, 4⟩, ⟨⟨108, 8⟩, 4⟩, ⟨⟨116, 8⟩, 4⟩] (.YUV ⟨.SDR, .BT709, .BT709, true⟩)

/-- The float of the luma sample for `Y = 255`, `U = V = 128`. -/
def brightLuma : F32 :=
  let ar := scalarArith ⟨fun _ _ => .nan, fun _ => .nan, fun _ => .nan⟩
  let n (k : Nat) : F32 := F32.div (ofNat k) (ofNat 255)
  F32.mul (rgbToYuv ar .BT709 .SDR .BT709 (yuvToRgb ar .BT709 .SDR .BT709
    (expandLuma ar false (n 255), expandChroma ar false (n 128), expandChroma ar false (n 128)))).1 (ofNat 1023)

theorem brightLuma_big : ∃ q, brightLuma = .fin false q ∧ 1116 < q ∧ q < 1117 := by
  have h : (match brightLuma with | .fin false q => decide (1116 < q ∧ q < 1117) | _ => false) = true := by decide +kernel
  cases e : brightLuma with
  | nan => rw [e] at h; cases h
  | inf s => rw [e] at h; cases h
  | fin s q =>
    cases s
    · rw [e] at h; exact ⟨q, rfl, of_decide_eq_true h⟩
    · rw [e] at h; cases h

/-- **C38** is false for YUV sources: limited-range luma above the nominal white 235 becomes a full-range 10-bit sample above
1023, on every platform. -/
theorem C38_yuv_source_exceeds (p : Platform) (simd scalar : Libm) (m : Mem)
    (hY : sample .I444 [⟨⟨0, 4⟩, 2⟩, ⟨⟨4, 4⟩, 2⟩, ⟨⟨8, 4⟩, 2⟩] m .Y 0 0 = some 255)
    (hU : sample .I444 [⟨⟨0, 4⟩, 2⟩, ⟨⟨4, 4⟩, 2⟩, ⟨⟨8, 4⟩, 2⟩] m .U 0 0 = some 128)
    (hV : sample .I444 [⟨⟨0, 4⟩, 2⟩, ⟨⟨4, 4⟩, 2⟩, ⟨⟨8, 4⟩, 2⟩] m .V 0 0 = some 128) :
    ∃ m' n, Run (p.ieee simd scalar) i444Limited i410Full [⟨⟨0, 4⟩, 2⟩, ⟨⟨4, 4⟩, 2⟩, ⟨⟨8, 4⟩, 2⟩]
        [⟨⟨100, 8⟩, 4⟩, ⟨⟨108, 8⟩, 4⟩, ⟨⟨116, 8⟩, 4⟩] m m' ∧
      sample .I410 [⟨⟨100, 8⟩, 4⟩, ⟨⟨108, 8⟩, 4⟩, ⟨⟨116, 8⟩, 4⟩] m' .Y 0 0 = some n ∧ 1116 ≤ n := by
  obtain ⟨m', r⟩ := run_exists (c := p.ieee simd scalar) (platform_lawful p _ _) (src := i444Limited) (dst := i410Full)
    (sps := [⟨⟨0, 4⟩, 2⟩, ⟨⟨4, 4⟩, 2⟩, ⟨⟨8, 4⟩, 2⟩]) (dps := [⟨⟨100, 8⟩, 4⟩, ⟨⟨108, 8⟩, 4⟩, ⟨⟨116, 8⟩, 4⟩]) rfl rfl
    (planesDisjoint_of (by decide)) (separate_of (by decide)) (uniform_of (by decide)) (by decide) m
  have hVd := shown_depicts (f := .I444) (ps := [⟨⟨0, 4⟩, 2⟩, ⟨⟨4, 4⟩, 2⟩, ⟨⟨8, 4⟩, 2⟩]) (w := 2) (h := 2) (by decide) m
  have e := r.depicts (by rintro ⟨_, h, _⟩; cases h) hVd .Y 0 0 ⟨0, 0, 0⟩ (by decide) (by decide) rfl
  refine ⟨m', _, r, e, ?_⟩
  have hi := column_ieee p simd scalar 2 0
  change 1116 ≤ quantize (columnArith (p.ieee simd scalar) 2) .I410 _ .Y 0 0
  simp only [quantize]
  rw [if_neg (by decide), if_neg (by decide)]
  have hv : (columnArith (p.ieee simd scalar) 2 0).mul (convertedF (columnArith (p.ieee simd scalar) 2) .I444 i444Limited.color
      .I410 i410Full.color (shown .I444 [⟨⟨0, 4⟩, 2⟩, ⟨⟨4, 4⟩, 2⟩, ⟨⟨8, 4⟩, 2⟩] m) .Y 0 0) (maxSample .I410) = brightLuma := by
    have sY : shown .I444 [⟨⟨0, 4⟩, 2⟩, ⟨⟨4, 4⟩, 2⟩, ⟨⟨8, 4⟩, 2⟩] m .Y 0 0 = 255 := by rw [shown, hY]; rfl
    have sU : shown .I444 [⟨⟨0, 4⟩, 2⟩, ⟨⟨4, 4⟩, 2⟩, ⟨⟨8, 4⟩, 2⟩] m .U 0 0 = 128 := by rw [shown, hU]; rfl
    have sV : shown .I444 [⟨⟨0, 4⟩, 2⟩, ⟨⟨4, 4⟩, 2⟩, ⟨⟨8, 4⟩, 2⟩] m .V 0 0 = 128 := by rw [shown, hV]; rfl
    rw [convertedF, if_neg (by decide), adaptPic, if_pos (by decide)]
    simp only [writePic, readPic, i444Limited, i410Full, Img.color, isYuv, ↓reduceIte, encode, yuvAt, decode, Spec.normalize, sY, sU,
      sV, compressLuma, rgbToYuv, yuvToRgb, yuvToRgbMatrix, matMul, dot, expandLuma, expandChroma, hi.mul, hi.add, hi.sub, hi.div,
      Bool.false_eq_true, if_false]
    rfl
  have e2 : ∀ v : F32, v = brightLuma → 1116 ≤ ((columnArith (p.ieee simd scalar) 2 0).q16 v).toNat := by
    rintro v rfl
    obtain ⟨q, hq, h1, h2⟩ := brightLuma_big
    have := (hi.q16 false q (by simp only [signed, Bool.false_eq_true, if_false]; linarith)
      (by simp only [signed, Bool.false_eq_true, if_false]; norm_num; linarith)).1
    simp only [signed, Bool.false_eq_true, if_false] at this
    rw [hq]
    have := (abs_lt.mp this).1
    have : (1115 : ℚ) < (((columnArith (p.ieee simd scalar) 2 0).q16 (.fin false q)).toNat : ℚ) := by linarith
    have : 1115 < ((columnArith (p.ieee simd scalar) 2 0).q16 (.fin false q)).toNat := by exact_mod_cast this
    omega
  exact e2 _ hv

example : ∃ m : Mem, sample .I444 [⟨⟨0, 4⟩, 2⟩, ⟨⟨4, 4⟩, 2⟩, ⟨⟨8, 4⟩, 2⟩] m .Y 0 0 = some 255 ∧
    sample .I444 [⟨⟨0, 4⟩, 2⟩, ⟨⟨4, 4⟩, 2⟩, ⟨⟨8, 4⟩, 2⟩] m .U 0 0 = some 128 ∧
    sample .I444 [⟨⟨0, 4⟩, 2⟩, ⟨⟨4, 4⟩, 2⟩, ⟨⟨8, 4⟩, 2⟩] m .V 0 0 = some 128 :=
  ⟨fun a => if a < 4 then 255 else 128, by decide⟩

/-! ## C43: RGB to YUV -/

theorem encode_ideal {i : YuvColorInfo} {k : ℝ × ℝ × ℝ} (hk : IsStandard i.space k) (f : PixelFormat) (V : Pic Nat) {c : Chan}
    (hc : c = .Y ∨ c = .U ∨ c = .V) (x y : Nat) :
    encode exactAr f i (rgbOf V) c x y * (2 ^ sampleBits f - 1 : Nat) = idealYuv k f i.fullRange V c x y := by
  have hch := chromaOf_ideal exactAr_exact hk f (rgbOf V) x y
  have cc : ∀ u, compressChroma (exactAr x) i.fullRange u * (2 ^ sampleBits f - 1 : Nat) =
      chromaCode i.fullRange (2 ^ sampleBits f - 1) u := by
    intro u
    cases i.fullRange
    · rw [compressChroma_real (exactAr_exact x), chromaCode, if_neg (by simp)]; ring
    · rw [compressChroma_full (exactAr_exact x), chromaCode, if_pos rfl]; ring
  rcases hc with rfl | rfl | rfl
  · simp only [encode, yuvAt, rgbToYuv_matrix _ hk.isMatrix, forward_standard (exactAr_exact x) hk, idealYuv, pixelYuv, rgbOf]
    generalize (standardYuv k _ _ _).1 = v
    cases i.fullRange
    · rw [compressLuma_real (exactAr_exact x), lumaCode, if_neg (by simp)]; ring
    · rw [compressLuma, if_pos rfl, lumaCode, if_pos rfl]; ring
  · simp only [encode, hch, cc]; rfl
  · simp only [encode, hch, cc]; rfl

/-- **C43** (partial: BT.601 and BT.709; for BT.2020 it is false, see `C43_bt2020_white`). Every luma and chroma code of a YUV
image converted from RGB differs from the ideal value by less than one code (and 5 millionths of the range). -/
theorem C43_rgb_to_yuv_partial (r : Run (p.ieee simd scalar) src dst sps dps m m') (hs : isYuv src.format = false)
    (hd : isYuv dst.format = true) {i : YuvColorInfo} (hi : dst.color = .YUV i) (ht : src.color.transfer = i.transfer)
    (hp : src.color.primaries = i.primaries) (hcs : i.space = .BT601 ∨ i.space = .BT709) {k : ℝ × ℝ × ℝ}
    (hk : lumaWeights i.space = some k) {c : Chan} (hc : c = .Y ∨ c = .U ∨ c = .V) {x y : Nat} (hx : x < dst.width)
    (hy : y < dst.height) :
    ∃ n, sample dst.format dps m' c x y = some n ∧
      |(n : ℝ) - idealYuv k dst.format i.fullRange (shown src.format sps m) c x y| <
        1 + 5 / 10 ^ 6 * (2 ^ sampleBits dst.format - 1 : Nat) := by
  have hst : IsStandard i.space k := ⟨hcs, hk⟩
  obtain ⟨n, h1, _, h3⟩ := rgb_to_yuv r hs hd hi ht hp hst.isMatrix hc hx hy
  exact ⟨n, h1, by rwa [encode_ideal hst _ _ hc] at h3⟩

/-- **C43** is false for BT.2020, whose weights do not add up to 1: white gets a luma code below two thirds of the range. -/
theorem C43_bt2020_white (r : Run (p.ieee simd scalar) src dst sps dps m m') (hs : isYuv src.format = false)
    (hd : isYuv dst.format = true) {i : YuvColorInfo} (hi : dst.color = .YUV i) (ht : src.color.transfer = i.transfer)
    (hp : src.color.primaries = i.primaries) (hcs : i.space = .BT2020) (hfull : i.fullRange = true) {x y : Nat}
    (hx : x < dst.width) (hy : y < dst.height)
    (hw : ∀ c, (c = .R ∨ c = .G ∨ c = .B) → shown src.format sps m c x y = 255) :
    ∃ n k, sample dst.format dps m' .Y x y = some n ∧ lumaWeights .BT2020 = some k ∧
      idealYuv k dst.format i.fullRange (shown src.format sps m) .Y x y = (2 ^ sampleBits dst.format - 1 : Nat) ∧
      (n : ℝ) < 2 / 3 * (2 ^ sampleBits dst.format - 1 : Nat) := by
  obtain ⟨n, h1, _, h3⟩ := rgb_to_yuv r hs hd hi ht hp (by rw [hcs]; rfl) (Or.inl rfl) hx hy
  refine ⟨n, _, h1, rfl, ?_, ?_⟩
  · simp only [idealYuv, pixelYuv, standardYuv, hw .R (by simp), hw .G (by simp), hw .B (by simp), lumaCode, hfull, if_true]
    norm_num
  · have e : encode exactAr dst.format i (rgbOf (shown src.format sps m)) .Y x y = 644 / 1000 := by
      simp only [encode, yuvAt, hcs, rgbToYuv_matrix (exactAr x) (show isMatrix .BT2020 = true from rfl), hfull, compressLuma,
        if_true, forwardMat, BT2020_RGB_TO_YUV, makeRgbToYuv, matMul, dot_real (exactAr_exact x), rgbOf, hw .R (by simp),
        hw .G (by simp), hw .B (by simp), lit_real]
      norm_num [Rat.cast_ofScientific]
    rw [e] at h3
    have hM : 255 ≤ 2 ^ sampleBits dst.format - 1 := by cases dst.format <;> simp [sampleBits]
    have hM1 : (255 : ℝ) ≤ (2 ^ sampleBits dst.format - 1 : Nat) := by exact_mod_cast hM
    have := (abs_lt.mp h3).2
    norm_num at this ⊢
    norm_num at hM1
    linarith

/-- A 4×2 RGB image at `a`. -/
def rgb24At (a : Nat) : Img := .raw .RGB 4 2 [⟨⟨a, 24⟩, 12⟩] (.RGB ⟨.SRGB, .BT709⟩)
/-- A 4×2 limited-range 10-bit 4:2:0 image at `a`. -/
def i010At (a : Nat) (s : ColorSpace) (full : Bool) : Img :=
  .raw .I010 4 2 [⟨⟨a, 16⟩, 8⟩, ⟨⟨a + 16, 4⟩, 4⟩, ⟨⟨a + 20, 4⟩, 4⟩] (.YUV ⟨.SRGB, .BT709, s, full⟩)

theorem rgb24_run (p : Platform) (simd scalar : Libm) (m : Mem) (s : ColorSpace) (full : Bool) :
    ∃ m', Run (p.ieee simd scalar) (rgb24At 0) (i010At 100 s full) [⟨⟨0, 24⟩, 12⟩] (i012Planes 100) m m' :=
  run_exists (platform_lawful p _ _) rfl rfl (planesDisjoint_of (by decide)) (separate_of (by decide))
    (uniform_of (by decide)) (by cases s <;> cases full <;> decide) m

theorem i010_run (p : Platform) (simd scalar : Libm) (m : Mem) (s : ColorSpace) (full : Bool) :
    ∃ m', Run (p.ieee simd scalar) (i010At 100 s full) (rgb24At 200) (i012Planes 100) [⟨⟨200, 24⟩, 12⟩] m m' :=
  run_exists (platform_lawful p _ _) rfl rfl (planesDisjoint_of (by decide)) (separate_of (by decide))
    (uniform_of (Or.inr (by simp [i010At, Img.format, isYuv, hsub]))) (by cases s <;> cases full <;> decide) m

/-- Chroma of a 10-bit 4:2:0 image on AVX2: within depth, and within 1.006 of the ideal value. -/
example (simd scalar : Libm) (m : Mem) : ∃ m' n k, sample .I010 (i012Planes 100) m' .V 3 1 = some n ∧ n ≤ 1023 ∧
    lumaWeights .BT709 = some k ∧ |(n : ℝ) - idealYuv k .I010 false (shown .RGB [⟨⟨0, 24⟩, 12⟩] m) .V 3 1| < 1.006 := by
  obtain ⟨m', r⟩ := rgb24_run .avx2 simd scalar m .BT709 false
  obtain ⟨n, h1, h2⟩ := C43_rgb_to_yuv_partial r rfl rfl rfl rfl rfl (Or.inr rfl) rfl (c := .V) (by simp) (x := 3) (y := 1)
    (by decide) (by decide)
  obtain ⟨n', h3, h4⟩ := C38_in_depth_partial r rfl rfl rfl rfl rfl rfl (c := .V) (by simp) (x := 3) (y := 1)
    (by decide) (by decide)
  obtain rfl : n = n' := Option.some.inj (h1.symm.trans h3)
  refine ⟨m', n, _, h1, h4, rfl, lt_of_lt_of_le h2 ?_⟩
  norm_num [i010At, Img.format, sampleBits]

/-- A white image, converted on NEON. -/
example (simd scalar : Libm) : ∃ m', Run (Platform.neon.ieee simd scalar) (rgb24At 0) (i010At 100 .BT2020 true)
    [⟨⟨0, 24⟩, 12⟩] (i012Planes 100) (fun _ => 255) m' ∧
    ∃ n, sample .I010 (i012Planes 100) m' .Y 1 1 = some n ∧ (n : ℝ) < 2 / 3 * 1023 := by
  obtain ⟨m', r⟩ := rgb24_run .neon simd scalar (fun _ => 255) .BT2020 true
  obtain ⟨n, k, h1, _, _, h2⟩ := C43_bt2020_white r rfl rfl rfl rfl rfl rfl rfl (x := 1) (y := 1) (by decide) (by decide)
    (by rintro c (rfl | rfl | rfl) <;> decide)
  refine ⟨m', r, n, h1, ?_⟩
  norm_num [i010At, Img.format, sampleBits] at h2
  have h3 : (n : ℝ) < 682 := by exact_mod_cast h2
  linarith

/-! ## C44: YUV to RGB -/

/-- The interleaved stores saturate for all values of moderate size. -/
theorem stored_clamp (p : Platform) (simd scalar : Libm) (w x : Nat) {v : F32} {q : ℚ} (hv : value v = some q)
    (hq : q < 32767) : |(stored p simd scalar w x .interleaved8 v : ℚ) - max 0 (min 255 q)| < 1 := by
  by_cases h1 : q < -1 / 2
  · have e : stored p simd scalar w x .interleaved8 v = 0 := by
      by_cases ht : Truncates p w x
      · exact (C34_truncating_saturates ht simd scalar .interleaved8).2.1 v q hv (by linarith)
      · simp only [Truncates, not_or, not_not] at ht
        have := (C34_packed8_saturates_partial simd scalar hv).1 (by linarith)
        cases p
        · exact absurd rfl ht.1
        · rw [stored, columnArith, if_pos (show x < w - w % ((Platform.avx2.ieee simd scalar).vec.LEN * 2) from ht.2.2)]
          exact this.2.1
        · rw [stored, columnArith, if_pos (show x < w - w % ((Platform.avx512.ieee simd scalar).vec.LEN * 2) from ht.2.2)]
          exact this.2.2
        · exact absurd rfl ht.2.1
    rw [e, min_eq_right (by linarith), max_eq_left (by linarith)]
    norm_num
  · by_cases h2 : q < 255 + 1 / 2
    · have := C34_accurate p simd scalar w x .interleaved8 hv (not_lt.mp h1) (by simpa [Store.top] using h2)
      have hc : stored p simd scalar w x .interleaved8 v ≤ 255 := by
        have := ((columnArith (p.ieee simd scalar) w x).q8i v).toNat_lt
        simp only [stored]; omega
      have hc' : (stored p simd scalar w x .interleaved8 v : ℚ) ≤ 255 := by exact_mod_cast hc
      have h0 : (0 : ℚ) ≤ stored p simd scalar w x .interleaved8 v := by positivity
      rw [abs_lt] at this ⊢
      rcases le_total q 0 with hq0 | hq0
      · rw [min_eq_right (by linarith), max_eq_left hq0]
        constructor <;> linarith [this.1, this.2]
      · rcases le_total q 255 with hq1 | hq1
        · rw [min_eq_right hq1, max_eq_right hq0]; exact this
        · rw [min_eq_left hq1, max_eq_right (by norm_num)]
          constructor <;> linarith [this.1, this.2]
    · have e : stored p simd scalar w x .interleaved8 v = 255 := by
        by_cases ht : Truncates p w x
        · exact (C34_truncating_saturates ht simd scalar .interleaved8).1 v q hv (by simp only [Store.top]; push_cast; linarith)
        · simp only [Truncates, not_or, not_not] at ht
          have := (C34_packed8_saturates_partial simd scalar hv).2 (by linarith) hq
          cases p
          · exact absurd rfl ht.1
          · rw [stored, columnArith, if_pos (show x < w - w % ((Platform.avx2.ieee simd scalar).vec.LEN * 2) from ht.2.2)]
            exact this.2.1
          · rw [stored, columnArith, if_pos (show x < w - w % ((Platform.avx512.ieee simd scalar).vec.LEN * 2) from ht.2.2)]
            exact this.2.2
          · exact absurd rfl ht.2.1
      rw [e, min_eq_left (by linarith), max_eq_right (by norm_num)]
      norm_num

theorem clamp_lipschitz (a b : ℝ) : |clamp255 a - clamp255 b| ≤ |a - b| := by
  unfold clamp255
  have h1 := abs_max_sub_max_le_max 0 (min 255 a) 0 (min 255 b)
  have h2 := abs_min_sub_min_le_max 255 a 255 b
  rw [sub_self, abs_zero, max_eq_right (abs_nonneg (min 255 a - min 255 b))] at h1
  rw [sub_self, abs_zero, max_eq_right (abs_nonneg (a - b))] at h2
  exact h1.trans h2

theorem stored_app (p : Platform) (simd scalar : Libm) (w x : Nat) {v : F32} {r e : ℝ} (hv : App v r e) (hr : r + e < 32767) :
    |(stored p simd scalar w x .interleaved8 v : ℝ) - clamp255 r| < 1 + e := by
  obtain ⟨s, q, rfl, _, ha⟩ := hv
  rw [abs_le] at ha
  have hq : (signed s q : ℝ) < ((32767 : ℚ) : ℝ) := by push_cast; linarith [ha.2]
  have h := stored_clamp p simd scalar w x (v := .fin s q) rfl (by exact_mod_cast hq)
  have h' : ((|(stored p simd scalar w x .interleaved8 (.fin s q) : ℚ) - max 0 (min 255 (signed s q))| : ℚ) : ℝ) < 1 := by
    exact_mod_cast h
  push_cast at h'
  have lip : |clamp255 (signed s q : ℝ) - clamp255 r| ≤ e := (clamp_lipschitz _ _).trans (abs_le.mpr ha)
  have lip : |max 0 (min 255 (signed s q : ℝ)) - clamp255 r| ≤ e := lip
  rw [abs_lt] at h' ⊢
  rw [abs_le] at lip
  constructor <;> linarith [h'.1, h'.2, lip.1, lip.2]


theorem decode_ideal {i : YuvColorInfo} {k : ℝ × ℝ × ℝ} (hk : IsStandard i.space k) (f : PixelFormat) (V : Pic Nat) {c : Chan}
    (hc : c = .R ∨ c = .G ∨ c = .B) (x y : Nat) :
    decode exactAr i (fun c x y => (V c x y : ℝ) / (2 ^ sampleBits f - 1 : Nat)) c x y * 255 =
      idealRgb k f i.fullRange V c x y := by
  have el : ∀ u : ℝ, expandLuma (exactAr x) i.fullRange (u / (2 ^ sampleBits f - 1 : Nat)) =
      lumaOf i.fullRange (2 ^ sampleBits f - 1) u := by
    intro u
    cases i.fullRange
    · simp only [expandLuma, lumaOf, Bool.false_eq_true, if_false, (exactAr_exact x).sub, (exactAr_exact x).mul, lit_real,
        div_real]
      norm_num only [Rat.cast_ofScientific]
      ring
    · simp [expandLuma, lumaOf]
  have ec : ∀ u : ℝ, expandChroma (exactAr x) i.fullRange (u / (2 ^ sampleBits f - 1 : Nat)) =
      chromaOfCode i.fullRange (2 ^ sampleBits f - 1) u := by
    intro u
    cases i.fullRange
    · simp only [expandChroma, chromaOfCode, Bool.false_eq_true, if_false, (exactAr_exact x).sub, (exactAr_exact x).mul,
        lit_real, div_real]
      norm_num only [Rat.cast_ofScientific]
      ring
    · simp only [expandChroma, chromaOfCode, if_true, (exactAr_exact x).sub, lit_real]
      norm_num only [Rat.cast_ofScientific]
  simp only [decode, yuvToRgb_matrix _ hk.isMatrix, el, ec, backward_standard (exactAr_exact x) hk, idealRgb]
  rcases hc with rfl | rfl | rfl <;> exact mul_comm _ _

/-- The value stored as a colour code, compared with the exact formulas of the source. -/
theorem yuv_to_rgb_value (r : Run (p.ieee simd scalar) src dst sps dps m m') (hs : isYuv src.format = true)
    (hd : isYuv dst.format = false) {i : YuvColorInfo} (hi : src.color = .YUV i) (ht : i.transfer = dst.color.transfer)
    (hp : i.primaries = dst.color.primaries) (hmat : isMatrix i.space = true) {c : Chan} (hc : c = .R ∨ c = .G ∨ c = .B)
    {x y : Nat} (hx : x < dst.width) (hy : y < dst.height)
    (hV : InDepth src.format src.width src.height (shown src.format sps m)) :
    ∃ v, sample dst.format dps m' c x y = some (stored p simd scalar dst.width x .interleaved8 v) ∧
      v = F32.mul (decode (columnArith (p.ieee simd scalar) dst.width) i
        (Spec.normalize (columnArith (p.ieee simd scalar) dst.width) src.format (shown src.format sps m)) c x y)
        (maxSample dst.format) ∧
      App v (decode exactAr i (fun c x y => (shown src.format sps m c x y : ℝ) /
        (2 ^ sampleBits src.format - 1 : Nat)) c x y * 255) (1 / 400) ∧
      decode exactAr i (fun c x y => (shown src.format sps m c x y : ℝ) /
        (2 ^ sampleBits src.format - 1 : Nat)) c x y * 255 < 32766 := by
  have hcol := column_ieee p simd scalar dst.width
  have hret := r.returned
  have hV' := shown_depicts (w := src.width) (h := src.height) hret.vsrc.fits.1 m
  obtain ⟨l, hl⟩ : ∃ l, sampleLoc dst.format c x y = some l := by
    revert hd; rcases hc with rfl | rfl | rfl <;> cases dst.format <;> simp [isYuv, sampleLoc]
  have hb : ¬ BadChroma src.format src.color dst.format dst.color := by
    rintro ⟨_, h, _⟩
    revert h hd; cases dst.format <;> simp [isYuv, vsub]
  rw [r.depicts hb hV' c x y l hx hy hl]
  have hsamp : ∀ c, (c = .Y ∨ c = .U ∨ c = .V) →
      App (Spec.normalize (columnArith (p.ieee simd scalar) dst.width) src.format (shown src.format sps m) c x y)
        ((shown src.format sps m c x y : ℝ) / (2 ^ sampleBits src.format - 1 : Nat)) (1 / 10 ^ 7) ∧
      |(shown src.format sps m c x y : ℝ) / (2 ^ sampleBits src.format - 1 : Nat)| ≤ 1 := by
    intro c hc
    obtain ⟨l, hl⟩ : ∃ l, sampleLoc src.format c x y = some l := by
      revert hs; rcases hc with rfl | rfl | rfl <;> cases src.format <;> simp [isYuv, sampleLoc]
    have hm := max_lt src.format
    exact sample_app (hcol x) hm.1 (by omega) (hV c x y l (hret.width ▸ hx) (hret.height ▸ hy) hl)
  have e1 : convertedF (columnArith (p.ieee simd scalar) dst.width) src.format src.color dst.format dst.color
      (shown src.format sps m) = decode (columnArith (p.ieee simd scalar) dst.width) i
        (Spec.normalize (columnArith (p.ieee simd scalar) dst.width) src.format (shown src.format sps m)) := by
    rw [convertedF, if_neg (by rintro ⟨h, _⟩; rw [h, hd] at hs; cases hs), adaptPic, hi, if_pos ⟨ht, hp⟩]
    simp only [readPic, hs, if_true]
    cases dst.color <;> simp [writePic, hd]
  obtain ⟨a1, a2⟩ := decode_app hcol exactAr_exact (q := fun c x y =>
    (shown src.format sps m c x y : ℝ) / (2 ^ sampleBits src.format - 1 : Nat)) hmat hsamp hc
  rw [converted, e1, quantize]
  simp only [hd, if_true]
  have a3 := scale_app (hcol x) dst.format a1 (by linarith) (by norm_num)
  rw [(rgb8 hd).2] at a3
  rw [abs_le] at a2
  refine ⟨_, rfl, by rw [(hcol x).mul], ?_⟩
  generalize decode exactAr i _ c x y = v at *
  norm_num at a3
  exact ⟨a3.mono (by norm_num), by linarith [a2.2]⟩

/-- The stored colour code, compared with the exact formulas of the source. -/
theorem yuv_to_rgb (r : Run (p.ieee simd scalar) src dst sps dps m m') (hs : isYuv src.format = true)
    (hd : isYuv dst.format = false) {i : YuvColorInfo} (hi : src.color = .YUV i) (ht : i.transfer = dst.color.transfer)
    (hp : i.primaries = dst.color.primaries) (hmat : isMatrix i.space = true) {c : Chan} (hc : c = .R ∨ c = .G ∨ c = .B)
    {x y : Nat} (hx : x < dst.width) (hy : y < dst.height)
    (hV : InDepth src.format src.width src.height (shown src.format sps m)) :
    ∃ n, sample dst.format dps m' c x y = some n ∧
      |(n : ℝ) - clamp255 (decode exactAr i (fun c x y => (shown src.format sps m c x y : ℝ) /
        (2 ^ sampleBits src.format - 1 : Nat)) c x y * 255)| < 1 + 1 / 400 := by
  obtain ⟨v, h1, _, h2, h3⟩ := yuv_to_rgb_value r hs hd hi ht hp hmat hc hx hy hV
  exact ⟨_, h1, stored_app p simd scalar dst.width x h2 (by linarith)⟩

/-- **C44** (partial: BT.601 and BT.709; no change of transfer function and primaries). Every colour code of an RGB image
converted from YUV differs from the ideal value, limited to `0 … 255`, by less than one code and a 400th. -/
theorem C44_yuv_to_rgb_partial (r : Run (p.ieee simd scalar) src dst sps dps m m') (hs : isYuv src.format = true)
    (hd : isYuv dst.format = false) {i : YuvColorInfo} (hi : src.color = .YUV i) (ht : i.transfer = dst.color.transfer)
    (hp : i.primaries = dst.color.primaries) (hcs : i.space = .BT601 ∨ i.space = .BT709) {k : ℝ × ℝ × ℝ}
    (hk : lumaWeights i.space = some k) {c : Chan} (hc : c = .R ∨ c = .G ∨ c = .B) {x y : Nat} (hx : x < dst.width)
    (hy : y < dst.height) (hV : InDepth src.format src.width src.height (shown src.format sps m)) :
    ∃ n, sample dst.format dps m' c x y = some n ∧
      |(n : ℝ) - clamp255 (idealRgb k src.format i.fullRange (shown src.format sps m) c x y)| < 1 + 1 / 400 := by
  have hst : IsStandard i.space k := ⟨hcs, hk⟩
  obtain ⟨n, h1, h2⟩ := yuv_to_rgb r hs hd hi ht hp hst.isMatrix hc hx hy hV
  exact ⟨n, h1, by rwa [decode_ideal hst _ _ hc] at h2⟩

/-- **C44** is false for BT.2020 on every platform: a colour with a green of 55 in theory gets a green of at most 1. -/
theorem C44_bt2020_false (r : Run (p.ieee simd scalar) src dst sps dps m m') (hs : isYuv src.format = true)
    (hd : isYuv dst.format = false) {i : YuvColorInfo} (hi : src.color = .YUV i) (ht : i.transfer = dst.color.transfer)
    (hp : i.primaries = dst.color.primaries) (hcs : i.space = .BT2020) (hfull : i.fullRange = true)
    (h8 : sampleBits src.format = 8) {x y : Nat} (hx : x < dst.width) (hy : y < dst.height)
    (hV : InDepth src.format src.width src.height (shown src.format sps m))
    (hY : shown src.format sps m .Y x y = 128) (hU : shown src.format sps m .U x y = 128)
    (hV' : shown src.format sps m .V x y = 255) :
    ∃ n k, sample dst.format dps m' .G x y = some n ∧ lumaWeights .BT2020 = some k ∧ n ≤ 1 ∧
      54 < idealRgb k src.format i.fullRange (shown src.format sps m) .G x y ∧
      idealRgb k src.format i.fullRange (shown src.format sps m) .G x y < 56 := by
  obtain ⟨n, h1, h2⟩ := yuv_to_rgb r hs hd hi ht hp (by rw [hcs]; rfl) (c := .G) (by simp) hx hy hV
  refine ⟨n, _, h1, rfl, ?_, ?_, ?_⟩
  · have e : decode exactAr i (fun c x y => (shown src.format sps m c x y : ℝ) /
        (2 ^ sampleBits src.format - 1 : Nat)) .G x y ≤ 0 := by
      simp only [decode, hcs, yuvToRgb_matrix (exactAr x) (show isMatrix .BT2020 = true from rfl), hfull, expandLuma,
        expandChroma, if_true, yuvToRgbMatrix, backwardMat, BT2020_YUV_TO_RGB, makeYuvToRgb, hY, hU, hV',
        (exactAr_exact x).add, (exactAr_exact x).mul, (exactAr_exact x).sub, mul_real, sub_real, div_real, neg_real,
        lit_real, h8]
      norm_num [Rat.cast_ofScientific]
    rw [clamp255, max_eq_left (min_le_of_right_le (by linarith)), sub_zero, abs_lt] at h2
    have : (n : ℝ) < 2 := by linarith [h2.2]
    have : n < 2 := by exact_mod_cast this
    omega
  all_goals
    simp only [idealRgb, hY, hU, hV', hfull, lumaOf, chromaOfCode, h8, if_true]
    norm_num [standardRgb]

/-- Such an image: 2×2, 4:4:4. -/
example (simd scalar : Libm) : ∃ m' : Mem,
    Run (p.ieee simd scalar) (.raw .I444 2 2 [⟨⟨0, 4⟩, 2⟩, ⟨⟨4, 4⟩, 2⟩, ⟨⟨8, 4⟩, 2⟩] (.YUV ⟨.SDR, .BT2020, .BT2020, true⟩))
      (.raw .RGB 2 2 [⟨⟨100, 12⟩, 6⟩] (.RGB ⟨.SDR, .BT2020⟩)) [⟨⟨0, 4⟩, 2⟩, ⟨⟨4, 4⟩, 2⟩, ⟨⟨8, 4⟩, 2⟩] [⟨⟨100, 12⟩, 6⟩]
      (fun a => if a < 8 then 128 else 255) m' ∧
    ∃ n, sample .RGB [⟨⟨100, 12⟩, 6⟩] m' .G 1 0 = some n ∧ n ≤ 1 := by
  obtain ⟨m', r⟩ := run_exists (c := p.ieee simd scalar)
    (src := .raw .I444 2 2 [⟨⟨0, 4⟩, 2⟩, ⟨⟨4, 4⟩, 2⟩, ⟨⟨8, 4⟩, 2⟩] (.YUV ⟨.SDR, .BT2020, .BT2020, true⟩))
    (dst := .raw .RGB 2 2 [⟨⟨100, 12⟩, 6⟩] (.RGB ⟨.SDR, .BT2020⟩)) (platform_lawful p _ _) rfl rfl
    (planesDisjoint_of (by decide)) (separate_of (by decide)) (uniform_of (by decide)) (by decide)
    (fun a => if a < 8 then 128 else 255)
  obtain ⟨n, _, h1, _, h2, _⟩ := C44_bt2020_false r rfl rfl rfl rfl rfl rfl rfl rfl (x := 1) (y := 0) (by decide) (by decide)
    (fun c x y l _ _ _ => shown_le rfl _ _ c x y) rfl rfl rfl
  exact ⟨m', r, n, h1, h2⟩

/-! ## C45: RGB to YUV and back -/

/-- The pixels sharing the chroma sample of `(x, y)` have the same colour. -/
def FlatCell (f : PixelFormat) (V : Pic Nat) (x y : Nat) : Prop :=
  ∀ a < hsub f, ∀ b < vsub f, ∀ c, (c = .R ∨ c = .G ∨ c = .B) →
    V c (x / hsub f * hsub f + a) (y / vsub f * vsub f + b) = V c x y

theorem cellMean_flat {f : PixelFormat} {V : Pic Nat} {x y : Nat} (h : FlatCell f V x y) (k : ℝ × ℝ × ℝ)
    (g : ℝ × ℝ × ℝ → ℝ) : cellMean f (fun x y => g (pixelYuv k V x y)) x y = g (pixelYuv k V x y) := by
  have hs : (0 : ℝ) < hsub f * vsub f := by cases f <;> norm_num [hsub, vsub]
  have e : ∀ a ∈ Finset.range (hsub f), ∀ b ∈ Finset.range (vsub f),
      g (pixelYuv k V (x / hsub f * hsub f + a) (y / vsub f * vsub f + b)) = g (pixelYuv k V x y) := by
    intro a ha b hb
    have h' := h a (Finset.mem_range.mp ha) b (Finset.mem_range.mp hb)
    simp only [pixelYuv, h' .R (by simp), h' .G (by simp), h' .B (by simp)]
  rw [cellMean, div_eq_iff hs.ne', Finset.sum_congr rfl fun a ha => Finset.sum_congr rfl (e a ha), Finset.sum_const,
    Finset.sum_const, Finset.card_range, Finset.card_range, nsmul_eq_mul, nsmul_eq_mul]
  ring

/-- **C45** (partial: BT.601 and BT.709). RGB to YUV and back, on any two platforms: where the pixels that share a chroma
sample have the same colour (always, for 4:4:4), every colour component comes back with an error of at most 4 if the YUV
samples have 8 bits, and of at most 1 if they have 10 or 12. -/
theorem C45_rgb_yuv_rgb_partial {mid : Img} {mps : List Plane} {m'' : Mem} {p2 : Platform} {simd2 scalar2 : Libm}
    (r1 : Run (p.ieee simd scalar) src mid sps mps m m') (r2 : Run (p2.ieee simd2 scalar2) mid dst mps dps m' m'')
    (hs : isYuv src.format = false) (hm : isYuv mid.format = true) (hd : isYuv dst.format = false) {i : YuvColorInfo}
    (hi : mid.color = .YUV i) (ht : src.color.transfer = i.transfer) (hp : src.color.primaries = i.primaries)
    (ht' : i.transfer = dst.color.transfer) (hp' : i.primaries = dst.color.primaries)
    (hcs : i.space = .BT601 ∨ i.space = .BT709) {c : Chan} (hc : c = .R ∨ c = .G ∨ c = .B) {x y : Nat} (hx : x < dst.width)
    (hy : y < dst.height) (hflat : FlatCell mid.format (shown src.format sps m) x y) :
    ∃ n n', sample src.format sps m c x y = some n ∧ sample dst.format dps m'' c x y = some n' ∧
      |(n' : Int) - n| ≤ if sampleBits mid.format = 8 then 4 else 1 := by
  obtain ⟨k, hk⟩ : ∃ k, lumaWeights i.space = some k := by rcases hcs with h | h <;> rw [h] <;> exact ⟨_, rfl⟩
  have ret1 := r1.returned
  have ret2 := r2.returned
  have hxm : x < mid.width := ret2.width ▸ hx
  have hym : y < mid.height := ret2.height ▸ hy
  -- the YUV image
  have hmid : ∀ c, (c = .Y ∨ c = .U ∨ c = .V) → ∀ x < mid.width, ∀ y < mid.height,
      shown mid.format mps m' c x y ≤ 2 ^ sampleBits mid.format - 1 ∧
      |(shown mid.format mps m' c x y : ℝ) - idealYuv k mid.format i.fullRange (shown src.format sps m) c x y| <
        1 + 5 / 10 ^ 6 * (2 ^ sampleBits mid.format - 1 : Nat) := by
    intro c hc x hx y hy
    have hst : IsStandard i.space k := ⟨hcs, hk⟩
    obtain ⟨n, h1, h2, h3⟩ := rgb_to_yuv r1 hs hm hi ht hp hst.isMatrix hc hx hy
    rw [encode_ideal hst _ _ hc] at h3
    have e : shown mid.format mps m' c x y = n := by rw [shown, h1]; rfl
    rw [e]
    exact ⟨h2, h3⟩
  have hdepth : InDepth mid.format mid.width mid.height (shown mid.format mps m') := by
    intro c x y l hx hy hl
    refine (hmid c ?_ x hx y hy).1
    revert hl hm
    cases mid.format <;> cases c <;> simp [isYuv, sampleLoc]
  obtain ⟨n', hn', hclose⟩ := C44_yuv_to_rgb_partial r2 hm hd hi ht' hp' hcs hk hc hx hy hdepth
  -- the RGB source
  have hsrc : sample src.format sps m c x y = some (shown src.format sps m c x y) := by
    obtain ⟨l, hl⟩ : ∃ l, sampleLoc src.format c x y = some l := by
      revert hs; rcases hc with rfl | rfl | rfl <;> cases src.format <;> simp [isYuv, sampleLoc]
    exact shown_depicts (w := src.width) (h := src.height) ret1.vsrc.fits.1 m c x y l (ret1.width ▸ hxm) (ret1.height ▸ hym) hl
  refine ⟨_, n', hsrc, hn', ?_⟩
  have hle : shown src.format sps m c x y ≤ 255 := shown_le (rgb8 hs).1 sps m c x y
  have hM : 2 ^ sampleBits mid.format - 1 = 255 ∨ 1023 ≤ 2 ^ sampleBits mid.format - 1 := by
    cases mid.format <;> simp [sampleBits]
  have hM8 : 2 ^ sampleBits mid.format - 1 = 255 ↔ sampleBits mid.format = 8 := by cases mid.format <;> simp [sampleBits]
  have hY := (hmid .Y (by simp) x hxm y hym).2
  have hU := (hmid .U (by simp) x hxm y hym).2
  have hV := (hmid .V (by simp) x hxm y hym).2
  simp only [idealYuv, cellMean_flat hflat k (·.2.1), cellMean_flat hflat k (·.2.2)] at hY hU hV
  have core := round_trip_core ⟨hcs, hk⟩ i.fullRange hM hY hU hV
  -- in codes
  have key : |idealRgb k mid.format i.fullRange (shown mid.format mps m') c x y - (shown src.format sps m c x y : ℝ)| <
      if sampleBits mid.format = 8 then 330 / 100 else 90 / 100 := by
    simp only [hM8] at core
    rcases hc with rfl | rfl | rfl
    · have := core.1
      simp only [mul_div_cancel₀ _ (show (255 : ℝ) ≠ 0 by norm_num)] at this
      exact this
    · have := core.2.1
      simp only [mul_div_cancel₀ _ (show (255 : ℝ) ≠ 0 by norm_num)] at this
      exact this
    · have := core.2.2
      simp only [mul_div_cancel₀ _ (show (255 : ℝ) ≠ 0 by norm_num)] at this
      exact this
  have hclamp := clamp_lipschitz (idealRgb k mid.format i.fullRange (shown mid.format mps m') c x y) (shown src.format sps m c x y)
  have hid : clamp255 (shown src.format sps m c x y) = shown src.format sps m c x y := by
    have : (shown src.format sps m c x y : ℝ) ≤ 255 := by exact_mod_cast hle
    rw [clamp255, min_eq_right this, max_eq_right (by positivity)]
  rw [hid] at hclamp
  have tot := abs_sub_le (n' : ℝ) (clamp255 (idealRgb k mid.format i.fullRange (shown mid.format mps m') c x y))
    (shown src.format sps m c x y)
  have hlt : |(n' : ℝ) - shown src.format sps m c x y| < if sampleBits mid.format = 8 then 5 else 2 := by
    refine lt_of_le_of_lt tot ?_
    split at key
    · rename_i h; rw [if_pos h]; norm_num at *; linarith
    · rename_i h; rw [if_neg h]; norm_num at *; linarith
  split at hlt
  · rename_i h; rw [if_pos h]
    have : |((n' : Int) - shown src.format sps m c x y : Int)| < 5 := by exact_mod_cast hlt
    omega
  · rename_i h; rw [if_neg h]
    have : |((n' : Int) - shown src.format sps m c x y : Int)| < 2 := by exact_mod_cast hlt
    omega

/-- There and back on two different platforms, through limited-range 10-bit 4:2:0, for an image of one colour. -/
example (simd scalar simd2 scalar2 : Libm) (r g b : UInt8) : ∃ m m' m'' : Mem,
    Run (Platform.avx512.ieee simd scalar) (rgb24At 0) (i010At 100 .BT601 false) [⟨⟨0, 24⟩, 12⟩] (i012Planes 100) m m' ∧
    Run (Platform.neon.ieee simd2 scalar2) (i010At 100 .BT601 false) (rgb24At 200) (i012Planes 100) [⟨⟨200, 24⟩, 12⟩] m' m'' ∧
    sample .RGB [⟨⟨0, 24⟩, 12⟩] m .G 3 1 = some g.toNat ∧
    ∃ n', sample .RGB [⟨⟨200, 24⟩, 12⟩] m'' .G 3 1 = some n' ∧ |(n' : Int) - g.toNat| ≤ 1 := by
  let m : Mem := fun a => if a % 3 = 0 then r else if a % 3 = 1 then g else b
  obtain ⟨m', r1⟩ := rgb24_run .avx512 simd scalar m .BT601 false
  obtain ⟨m'', r2⟩ := i010_run .neon simd2 scalar2 m' .BT601 false
  have hg : sample .RGB [⟨⟨0, 24⟩, 12⟩] m .G 3 1 = some g.toNat := rfl
  refine ⟨m, m', m'', r1, r2, hg, ?_⟩
  obtain ⟨n, n', h1, h2, h3⟩ := C45_rgb_yuv_rgb_partial r1 r2 rfl rfl rfl rfl rfl rfl rfl rfl (Or.inl rfl) (c := .G) (by simp)
    (x := 3) (y := 1) (by decide) (by decide) (by
      intro a ha b hb c hc
      have ha' : a < 2 := ha
      have hb' : b < 2 := hb
      obtain rfl | rfl : a = 0 ∨ a = 1 := by omega
      all_goals obtain rfl | rfl : b = 0 ∨ b = 1 := by omega
      all_goals rcases hc with rfl | rfl | rfl <;> rfl)
  obtain rfl : n = g.toNat := Option.some.inj (h1.symm.trans hg)
  exact ⟨n', h2, h3⟩

/-- What BT.2020 makes of a white picture. -/
theorem white_2020 {i : YuvColorInfo} (hcs : i.space = .BT2020) (hfull : i.fullRange = true) (f : PixelFormat) {q : Pic ℝ}
    (hq : ∀ c x y, (c = .R ∨ c = .G ∨ c = .B) → q c x y = 1) (x y : Nat) :
    encode exactAr f i q .Y x y = 644 / 1000 ∧ encode exactAr f i q .U x y = 1 - 5847 / 18814 ∧
      encode exactAr f i q .V x y = 1 - 3813 / 14746 := by
  have hR : ∀ x y, q .R x y = 1 := fun x y => hq _ x y (by simp)
  have hG : ∀ x y, q .G x y = 1 := fun x y => hq _ x y (by simp)
  have hB : ∀ x y, q .B x y = 1 := fun x y => hq _ x y (by simp)
  have hf : (hsub f = 1 ∧ vsub f = 1) ∨ (hsub f = 2 ∧ vsub f = 1) ∨ (hsub f = 2 ∧ vsub f = 2) := by
    cases f <;> simp [hsub, vsub]
  have hyuv : ∀ ar : Arith ℝ, Exact ar → rgbToYuv ar .BT2020 i.transfer i.primaries (1, 1, 1) =
      (644 / 1000, 1 / 2 - 5847 / 18814, 1 / 2 - 3813 / 14746) := by
    intro ar ha
    simp only [rgbToYuv_matrix ar (show isMatrix .BT2020 = true from rfl), forwardMat, BT2020_RGB_TO_YUV, makeRgbToYuv, matMul,
      dot_real ha, lit_real, mul_real, div_real, sub_real, Prod.mk.injEq]
    norm_num [Rat.cast_ofScientific]
  have e2 : (lit 2.0 : ℝ) = 2 := by rw [lit_real]; norm_num [Rat.cast_ofScientific]
  have e4 : (lit 0.25 : ℝ) = 1 / 4 := by rw [lit_real]; norm_num [Rat.cast_ofScientific]
  have hc : chromaOf exactAr f i q x y = (1 / 2 - 5847 / 18814, 1 / 2 - 3813 / 14746) := by
    rcases hf with ⟨h1, h2⟩ | ⟨h1, h2⟩ | ⟨h1, h2⟩
    · simp [chromaOf, h1, yuvAt, hcs, hR, hG, hB, hyuv _ (exactAr_exact x)]
    · simp only [chromaOf, h1, h2, chroma422, yuvAt, hcs, hR, hG, hB, hyuv _ (exactAr_exact _), (exactAr_exact x).div,
        (exactAr_exact x).add, e2]
      norm_num
    · simp only [chromaOf, h1, h2, chroma420, show isMatrix .BT2020 = true from rfl, if_true, mean4, hcs, hR, hG, hB,
        (exactAr_exact x).mul, (exactAr_exact x).add, e4]
      norm_num [hyuv _ (exactAr_exact x)]
  refine ⟨?_, ?_, ?_⟩
  · simp only [encode, yuvAt, hcs, hR, hG, hB, hyuv _ (exactAr_exact x), hfull, compressLuma, if_true]
  · simp only [encode, hc, hfull, compressChroma_full (exactAr_exact x)]
    norm_num
  · simp only [encode, hc, hfull, compressChroma_full (exactAr_exact x)]
    norm_num

/-- **C45** is false for BT.2020 on every platform: white comes back with less than a third of its green. -/
theorem C45_bt2020_false {mid : Img} {mps : List Plane} {m'' : Mem} {p2 : Platform} {simd2 scalar2 : Libm}
    (r1 : Run (p.ieee simd scalar) src mid sps mps m m') (r2 : Run (p2.ieee simd2 scalar2) mid dst mps dps m' m'')
    (hs : isYuv src.format = false) (hm : isYuv mid.format = true) (hd : isYuv dst.format = false) {i : YuvColorInfo}
    (hi : mid.color = .YUV i) (ht : src.color.transfer = i.transfer) (hp : src.color.primaries = i.primaries)
    (ht' : i.transfer = dst.color.transfer) (hp' : i.primaries = dst.color.primaries) (hcs : i.space = .BT2020)
    (hfull : i.fullRange = true) (hw : ∀ c x y, (c = .R ∨ c = .G ∨ c = .B) → shown src.format sps m c x y = 255) {x y : Nat}
    (hx : x < dst.width) (hy : y < dst.height) :
    ∃ n, sample dst.format dps m'' .G x y = some n ∧ n < 80 := by
  have ret2 := r2.returned
  have hmat : isMatrix i.space = true := by rw [hcs]; rfl
  have hmid : ∀ c, (c = .Y ∨ c = .U ∨ c = .V) → ∀ x < mid.width, ∀ y < mid.height,
      shown mid.format mps m' c x y ≤ 2 ^ sampleBits mid.format - 1 ∧
      |(shown mid.format mps m' c x y : ℝ) - encode exactAr mid.format i (rgbOf (shown src.format sps m)) c x y *
        (2 ^ sampleBits mid.format - 1 : Nat)| < 1 + 5 / 10 ^ 6 * (2 ^ sampleBits mid.format - 1 : Nat) := by
    intro c hc x hx y hy
    obtain ⟨n, h1, h2, h3⟩ := rgb_to_yuv r1 hs hm hi ht hp hmat hc hx hy
    have e : shown mid.format mps m' c x y = n := by rw [shown, h1]; rfl
    rw [e]
    exact ⟨h2, h3⟩
  have hdepth : InDepth mid.format mid.width mid.height (shown mid.format mps m') := by
    intro c x y l hx hy hl
    refine (hmid c ?_ x hx y hy).1
    revert hl hm
    cases mid.format <;> cases c <;> simp [isYuv, sampleLoc]
  obtain ⟨n, hn, hclose⟩ := yuv_to_rgb r2 hm hd hi ht' hp' hmat (c := .G) (by simp) hx hy hdepth
  refine ⟨n, hn, ?_⟩
  have hxm : x < mid.width := ret2.width ▸ hx
  have hym : y < mid.height := ret2.height ▸ hy
  obtain ⟨w1, w2, w3⟩ := white_2020 hcs hfull mid.format (q := rgbOf (shown src.format sps m))
    (fun c x y h => by simp [rgbOf, hw c x y h]) x y
  have hY := (hmid .Y (by simp) x hxm y hym).2
  have hU := (hmid .U (by simp) x hxm y hym).2
  have hV := (hmid .V (by simp) x hxm y hym).2
  rw [w1] at hY
  rw [w2] at hU
  rw [w3] at hV
  have hM : 255 ≤ 2 ^ sampleBits mid.format - 1 := by cases mid.format <;> simp [sampleBits]
  have hG : decode exactAr i (fun c x y => (shown mid.format mps m' c x y : ℝ) / (2 ^ sampleBits mid.format - 1 : Nat)) .G x y =
      (shown mid.format mps m' .Y x y : ℝ) / (2 ^ sampleBits mid.format - 1 : Nat)
      - 593 / 3220 * (18814 / 10000) * ((shown mid.format mps m' .U x y : ℝ) / (2 ^ sampleBits mid.format - 1 : Nat) - 1 / 2)
      - 2627 / 3220 * (14746 / 10000) * ((shown mid.format mps m' .V x y : ℝ) / (2 ^ sampleBits mid.format - 1 : Nat) - 1 / 2) := by
    simp only [decode, hcs, yuvToRgb_matrix (exactAr x) (show isMatrix .BT2020 = true from rfl), hfull, expandLuma,
      expandChroma, if_true, yuvToRgbMatrix, backwardMat, BT2020_YUV_TO_RGB, makeYuvToRgb,
      (exactAr_exact x).add, (exactAr_exact x).mul, (exactAr_exact x).sub, mul_real, sub_real, div_real, neg_real, lit_real]
    norm_num only [Rat.cast_ofScientific]
    ring
  rw [hG] at hclose
  generalize 2 ^ sampleBits mid.format - 1 = M at *
  have hM1 : (255 : ℝ) ≤ M := by exact_mod_cast hM
  have key : ∀ {n : ℕ} {v : ℝ}, |(n : ℝ) - v * M| < 1 + 5 / 10 ^ 6 * M → |(n : ℝ) / M - v| < 1 / 250 := by
    intro n v h
    have hpos : (0 : ℝ) < M := by linarith
    have e : (n : ℝ) / M - v = ((n : ℝ) - v * M) / M := by field_simp
    rw [e, abs_div, abs_of_pos hpos, div_lt_iff₀ hpos]
    refine h.trans_le ?_
    norm_num
    linarith
  have kY := abs_lt.mp (key hY)
  have kU := abs_lt.mp (key hU)
  have kV := abs_lt.mp (key hV)
  generalize (shown mid.format mps m' .Y x y : ℝ) / M = a at *
  generalize (shown mid.format mps m' .U x y : ℝ) / M = b at *
  generalize (shown mid.format mps m' .V x y : ℝ) / M = c at *
  have hlt : (a - 593 / 3220 * (18814 / 10000) * (b - 1 / 2) - 2627 / 3220 * (14746 / 10000) * (c - 1 / 2)) * 255 < 77 := by
    linarith [kY.2, kU.1, kV.1]
  have hclamp : clamp255 ((a - 593 / 3220 * (18814 / 10000) * (b - 1 / 2) - 2627 / 3220 * (14746 / 10000) * (c - 1 / 2)) * 255)
      ≤ 77 := max_le (by norm_num) (min_le_of_right_le hlt.le)
  have := (abs_lt.mp hclose).2
  have h80 : (n : ℝ) < 80 := by linarith
  exact_mod_cast h80

/-- White on two different platforms, through full-range 10-bit 4:2:0. -/
example (simd scalar simd2 scalar2 : Libm) : ∃ m' m'' : Mem,
    Run (Platform.avx512.ieee simd scalar) (rgb24At 0) (i010At 100 .BT2020 true) [⟨⟨0, 24⟩, 12⟩] (i012Planes 100)
      (fun _ => 255) m' ∧
    Run (Platform.neon.ieee simd2 scalar2) (i010At 100 .BT2020 true) (rgb24At 200) (i012Planes 100) [⟨⟨200, 24⟩, 12⟩] m' m'' ∧
    ∃ n, sample .RGB [⟨⟨200, 24⟩, 12⟩] m'' .G 3 1 = some n ∧ n < 80 := by
  obtain ⟨m', r1⟩ := rgb24_run .avx512 simd scalar (fun _ => 255) .BT2020 true
  obtain ⟨m'', r2⟩ := i010_run .neon simd2 scalar2 m' .BT2020 true
  refine ⟨m', m'', r1, r2, C45_bt2020_false r1 r2 rfl rfl rfl rfl rfl rfl rfl rfl rfl rfl ?_ (by decide) (by decide)⟩
  rintro c x y (rfl | rfl | rfl) <;> rfl

end Ezk.Props

import Verif.Props.Accuracy
import Verif.Spec.Quantisation

/-!
# C56: the digital representation of the standards
-/

namespace Ezk.Props
open FOps Spec F32 PixelFormat

variable {p : Platform} {simd scalar : Libm} {src dst : Img} {sps dps : List Plane} {m m' : Mem}

theorem depth_cases (f : PixelFormat) : sampleBits f = 8 ∨ sampleBits f = 10 ∨ sampleBits f = 12 := by
  cases f <;> simp [sampleBits]

/-! ## To YUV -/

/-- What the crate aims at, in terms of the codes of the standards. -/
theorem ideal_standard (k : ℝ × ℝ × ℝ) (f : PixelFormat) (full : Bool) (V : Pic Nat) {c : Chan}
    (hc : c = .Y ∨ c = .U ∨ c = .V) (x y : Nat) :
    idealYuv k f full V c x y = if full then standardCodes k f full V c x y - (if c = .Y then 0 else 1 / 2)
      else standardCodes k f full V c x y * ((2 ^ sampleBits f - 1) / (255 * 2 ^ (sampleBits f - 8))) := by
  rcases hc with rfl | rfl | rfl <;> cases full <;>
    simp only [idealYuv, standardCodes, lumaCode, chromaCode, digitalLuma, digitalChroma, if_true, reduceCtorEq, if_false] <;>
    rcases depth_cases f with hn | hn | hn <;> simp only [hn] <;> norm_num <;> ring

/-- **C56** (partial: 8 bits, or full range; BT.601 and BT.709). Codes written for RGB are those of the standards, with an error
below one code (and 5 millionths of the range) for luma and for limited-range chroma, and below one and a half for full-range
chroma. -/
theorem C56_encode_partial (r : Run (p.ieee simd scalar) src dst sps dps m m') (hs : isYuv src.format = false)
    (hd : isYuv dst.format = true) {i : YuvColorInfo} (hi : dst.color = .YUV i) (ht : src.color.transfer = i.transfer)
    (hp : src.color.primaries = i.primaries) (hcs : i.space = .BT601 ∨ i.space = .BT709) {k : ℝ × ℝ × ℝ}
    (hk : lumaWeights i.space = some k) (hr : i.fullRange = true ∨ sampleBits dst.format = 8) {c : Chan}
    (hc : c = .Y ∨ c = .U ∨ c = .V) {x y : Nat} (hx : x < dst.width) (hy : y < dst.height) :
    ∃ n, sample dst.format dps m' c x y = some n ∧
      |(n : ℝ) - standardCodes k dst.format i.fullRange (shown src.format sps m) c x y| <
        1 + 5 / 10 ^ 6 * (2 ^ sampleBits dst.format - 1 : Nat) + if i.fullRange = true ∧ c ≠ .Y then 1 / 2 else 0 := by
  obtain ⟨n, h1, h2⟩ := C43_rgb_to_yuv_partial r hs hd hi ht hp hcs hk hc hx hy
  refine ⟨n, h1, ?_⟩
  rw [ideal_standard k _ _ _ hc] at h2
  rcases hf : i.fullRange with _ | _
  · rw [hf] at hr h2
    obtain h8 := hr.resolve_left (by simp)
    rw [h8] at h2 ⊢
    norm_num at h2 ⊢
    exact h2
  · rw [hf] at h2
    simp only [if_true] at h2
    by_cases hy : c = .Y
    · simp only [hy, if_true, sub_zero, ne_eq, not_true, and_false, if_false, add_zero] at h2 ⊢
      exact h2
    · simp only [hy, if_false, ne_eq, not_false_iff, and_true, if_true] at h2 ⊢
      rw [abs_lt] at h2 ⊢
      constructor <;> linarith [h2.1, h2.2]

/-- **C56**: what is missing. Limited-range codes of 10 and 12 bits are those of the standards times 1023/1020 and 4095/4080. -/
theorem C56_deep_scaled (r : Run (p.ieee simd scalar) src dst sps dps m m') (hs : isYuv src.format = false)
    (hd : isYuv dst.format = true) {i : YuvColorInfo} (hi : dst.color = .YUV i) (ht : src.color.transfer = i.transfer)
    (hp : src.color.primaries = i.primaries) (hcs : i.space = .BT601 ∨ i.space = .BT709) {k : ℝ × ℝ × ℝ}
    (hk : lumaWeights i.space = some k) (hr : i.fullRange = false) {c : Chan} (hc : c = .Y ∨ c = .U ∨ c = .V) {x y : Nat}
    (hx : x < dst.width) (hy : y < dst.height) :
    ∃ n, sample dst.format dps m' c x y = some n ∧
      |(n : ℝ) - standardCodes k dst.format false (shown src.format sps m) c x y *
        ((2 ^ sampleBits dst.format - 1) / (255 * 2 ^ (sampleBits dst.format - 8)))| <
        1 + 5 / 10 ^ 6 * (2 ^ sampleBits dst.format - 1 : Nat) := by
  obtain ⟨n, h1, h2⟩ := C43_rgb_to_yuv_partial r hs hd hi ht hp hcs hk hc hx hy
  rw [ideal_standard k _ _ _ hc, hr] at h2
  exact ⟨n, h1, h2⟩

theorem white_codes {k : ℝ × ℝ × ℝ} {s : ColorSpace} (hcs : s = .BT601 ∨ s = .BT709) (hk : lumaWeights s = some k)
    (f : PixelFormat) {V : Pic Nat} {x y : Nat} (hw : ∀ c, (c = .R ∨ c = .G ∨ c = .B) → V c x y = 255) :
    standardCodes k f false V .Y x y = 235 * 2 ^ (sampleBits f - 8) := by
  simp only [standardCodes, pixelYuv, hw .R (by simp), hw .G (by simp), hw .B (by simp), digitalLuma]
  rcases hcs with rfl | rfl <;> cases hk <;> norm_num [standardYuv]

/-- **C56** is false for limited range at 10 and 12 bits, on every platform: white, 940 and 3760 in the standards, is stored as
at least 942 and 3773. -/
theorem C56_deep_white_false (r : Run (p.ieee simd scalar) src dst sps dps m m') (hs : isYuv src.format = false)
    (hd : isYuv dst.format = true) {i : YuvColorInfo} (hi : dst.color = .YUV i) (ht : src.color.transfer = i.transfer)
    (hp : src.color.primaries = i.primaries) (hcs : i.space = .BT601 ∨ i.space = .BT709) {k : ℝ × ℝ × ℝ}
    (hk : lumaWeights i.space = some k) (hr : i.fullRange = false) {x y : Nat} (hx : x < dst.width) (hy : y < dst.height)
    (hw : ∀ c, (c = .R ∨ c = .G ∨ c = .B) → shown src.format sps m c x y = 255) :
    ∃ n, sample dst.format dps m' .Y x y = some n ∧
      (sampleBits dst.format = 10 → standardCodes k dst.format false (shown src.format sps m) .Y x y = 940 ∧ 942 ≤ n) ∧
      (sampleBits dst.format = 12 → standardCodes k dst.format false (shown src.format sps m) .Y x y = 3760 ∧ 3773 ≤ n) := by
  obtain ⟨n, h1, h2⟩ := C56_deep_scaled r hs hd hi ht hp hcs hk hr (c := .Y) (by simp) hx hy
  have hw' := white_codes hcs hk dst.format hw
  refine ⟨n, h1, fun h => ?_, fun h => ?_⟩ <;> rw [hw', h, abs_lt] at h2 <;> refine ⟨by rw [hw', h]; norm_num, ?_⟩
  · have := h2.1
    norm_num at this
    have : (941 : ℝ) < n := by linarith
    have : 941 < n := by exact_mod_cast this
    omega
  · have := h2.1
    norm_num at this
    have : (3772 : ℝ) < n := by linarith
    have : 3772 < n := by exact_mod_cast this
    omega

theorem grey_codes {k : ℝ × ℝ × ℝ} {s : ColorSpace} (hcs : s = .BT601 ∨ s = .BT709) (hk : lumaWeights s = some k)
    (f : PixelFormat) {V : Pic Nat} {x y : Nat} (hflat : FlatCell f V x y) (hg : V .R x y = V .G x y)
    (hb : V .B x y = V .G x y) (full : Bool) {c : Chan} (hc : c = .U ∨ c = .V) :
    standardCodes k f full V c x y = 2 ^ (sampleBits f - 1) := by
  have e : (pixelYuv k V x y).2.1 = 0 ∧ (pixelYuv k V x y).2.2 = 0 := by
    simp only [pixelYuv, hg, hb]
    rcases hcs with rfl | rfl <;> cases hk <;> constructor <;> simp only [standardYuv] <;> ring
  rcases hc with rfl | rfl
  · simp only [standardCodes, cellMean_flat hflat k (fun v => v.2.1), e.1, digitalChroma]
    cases full <;> rcases depth_cases f with hn | hn | hn <;> simp only [hn] <;> norm_num
  · simp only [standardCodes, cellMean_flat hflat k (fun v => v.2.2), e.2, digitalChroma]
    cases full <;> rcases depth_cases f with hn | hn | hn <;> simp only [hn] <;> norm_num

/-- **C56** is false for limited range at 10 and 12 bits, on every platform: the chroma of greys, 512 and 2048 in the standards, is
stored as at least 513 and 2055. -/
theorem C56_deep_neutral_false (r : Run (p.ieee simd scalar) src dst sps dps m m') (hs : isYuv src.format = false)
    (hd : isYuv dst.format = true) {i : YuvColorInfo} (hi : dst.color = .YUV i) (ht : src.color.transfer = i.transfer)
    (hp : src.color.primaries = i.primaries) (hcs : i.space = .BT601 ∨ i.space = .BT709) {k : ℝ × ℝ × ℝ}
    (hk : lumaWeights i.space = some k) (hr : i.fullRange = false) {c : Chan} (hc : c = .U ∨ c = .V) {x y : Nat}
    (hx : x < dst.width) (hy : y < dst.height) (hflat : FlatCell dst.format (shown src.format sps m) x y)
    (hg : shown src.format sps m .R x y = shown src.format sps m .G x y)
    (hb : shown src.format sps m .B x y = shown src.format sps m .G x y) :
    ∃ n, sample dst.format dps m' c x y = some n ∧
      (sampleBits dst.format = 10 → standardCodes k dst.format false (shown src.format sps m) c x y = 512 ∧ 513 ≤ n) ∧
      (sampleBits dst.format = 12 → standardCodes k dst.format false (shown src.format sps m) c x y = 2048 ∧ 2055 ≤ n) := by
  obtain ⟨n, h1, h2⟩ := C56_deep_scaled r hs hd hi ht hp hcs hk hr (c := c) (by rcases hc with rfl | rfl <;> simp) hx hy
  have hw' := grey_codes hcs hk dst.format hflat hg hb false hc
  refine ⟨n, h1, fun h => ?_, fun h => ?_⟩ <;> rw [hw', h, abs_lt] at h2 <;> refine ⟨by rw [hw', h]; norm_num, ?_⟩
  · have := h2.1
    norm_num at this
    have : (512 : ℝ) < n := by linarith
    have : 512 < n := by exact_mod_cast this
    omega
  · have := h2.1
    norm_num at this
    have : (2054 : ℝ) < n := by linarith
    have : 2054 < n := by exact_mod_cast this
    omega

/-- A white image on AVX2: white is 940 and neutral chroma 512, and not what is stored. -/
example (simd scalar : Libm) : ∃ m' a b, Run (Platform.avx2.ieee simd scalar) (rgb24At 0) (i010At 100 .BT709 false)
    [⟨⟨0, 24⟩, 12⟩] (i012Planes 100) (fun _ => 255) m' ∧ sample .I010 (i012Planes 100) m' .Y 3 1 = some a ∧ 942 ≤ a ∧
    sample .I010 (i012Planes 100) m' .V 3 1 = some b ∧ 513 ≤ b := by
  obtain ⟨m', r⟩ := rgb24_run .avx2 simd scalar (fun _ => 255) .BT709 false
  obtain ⟨a, h1, h2, _⟩ := C56_deep_white_false r rfl rfl rfl rfl rfl (Or.inr rfl) rfl rfl (x := 3) (y := 1) (by decide)
    (by decide) (by rintro c (rfl | rfl | rfl) <;> decide)
  obtain ⟨b, h3, h4, _⟩ := C56_deep_neutral_false r rfl rfl rfl rfl rfl (Or.inr rfl) rfl rfl (c := .V) (by simp) (x := 3) (y := 1)
    (by decide) (by decide) (by rintro a ha b hb c (rfl | rfl | rfl) <;> revert b <;> revert a <;> decide) (by decide) (by decide)
  exact ⟨m', a, b, r, h1, (h2 rfl).2, h3, (h4 rfl).2⟩

/-- Full-range chroma of the same image is within 1.51 of the standard's 512. -/
example (simd scalar : Libm) : ∃ m' b k, sample .I010 (i012Planes 100) m' .V 3 1 = some b ∧ lumaWeights .BT709 = some k ∧
    |(b : ℝ) - standardCodes k .I010 true (shown .RGB [⟨⟨0, 24⟩, 12⟩] fun _ => 255) .V 3 1| < 1.51 := by
  obtain ⟨m', r⟩ := rgb24_run .avx2 simd scalar (fun _ => 255) .BT709 true
  obtain ⟨b, h1, h2⟩ := C56_encode_partial r rfl rfl rfl rfl rfl (Or.inr rfl) rfl (Or.inl rfl) (c := .V) (by simp) (x := 3)
    (y := 1) (by decide) (by decide)
  refine ⟨m', b, _, h1, rfl, lt_of_lt_of_le h2 ?_⟩
  rw [if_pos ⟨rfl, by decide⟩]
  norm_num [i010At, Img.format, sampleBits]

/-! ## From YUV -/

theorem ideal_colours_limited {k : ℝ × ℝ × ℝ} {f : PixelFormat} (h8 : sampleBits f = 8) (V : Pic Nat) {c : Chan} (x y : Nat) :
    idealRgb k f false V c x y = standardColours k f false V c x y := by
  have e1 : ∀ d : ℝ, lumaOf false (2 ^ 8 - 1) d = lumaOfDigital false 8 d := by
    intro d; simp only [lumaOf, lumaOfDigital]; norm_num; ring
  have e2 : ∀ d : ℝ, chromaOfCode false (2 ^ 8 - 1) d = chromaOfDigital false 8 d := by
    intro d; simp only [chromaOfCode, chromaOfDigital]; norm_num; ring
  simp only [idealRgb, standardColours, h8, e1, e2]
  rfl

theorem ideal_colours_full {k : ℝ × ℝ × ℝ} {s : ColorSpace} (hcs : s = .BT601 ∨ s = .BT709) (hk : lumaWeights s = some k)
    (f : PixelFormat) (V : Pic Nat) {c : Chan} (hc : c = .R ∨ c = .G ∨ c = .B) (x y : Nat) :
    idealRgb k f true V c x y - standardColours k f true V c x y =
      255 / (2 ^ sampleBits f - 1) * (match c with
        | .R => 1 - k.1
        | .G => - (k.1 * (1 - k.1) + k.2.2 * (1 - k.2.2)) / k.2.1
        | _ => 1 - k.2.2) := by
  have e1 : ∀ d : ℝ, lumaOf true (2 ^ sampleBits f - 1) d = lumaOfDigital true (sampleBits f) d := by
    intro d; simp only [lumaOf, lumaOfDigital, if_true]
    rcases depth_cases f with hn | hn | hn <;> simp only [hn] <;> norm_num
  have e2 : ∀ d : ℝ, chromaOfCode true (2 ^ sampleBits f - 1) d =
      chromaOfDigital true (sampleBits f) d + 1 / 2 / (2 ^ sampleBits f - 1) := by
    intro d; simp only [chromaOfCode, chromaOfDigital, if_true]
    rcases depth_cases f with hn | hn | hn <;> simp only [hn] <;> norm_num <;> ring
  have hk2 : k.2.1 ≠ 0 := by rcases hcs with rfl | rfl <;> cases hk <;> norm_num
  simp only [idealRgb, standardColours, e1, e2]
  generalize lumaOfDigital _ _ _ = Y
  generalize chromaOfDigital _ _ _ = U
  generalize chromaOfDigital _ _ _ = W
  generalize (2 ^ sampleBits f - 1 : ℝ) = M
  rcases hc with rfl | rfl | rfl <;> simp only [standardRgb]
  · ring
  · field_simp; ring
  · ring

/-- **C56** (partial: 8 bits, or full range; BT.601 and BT.709). Colours written for codes of the standards have an error below one
code and a 400th for limited range, and one 0.93/(2^(n-8)) larger for full range. -/
theorem C56_decode_partial (r : Run (p.ieee simd scalar) src dst sps dps m m') (hs : isYuv src.format = true)
    (hd : isYuv dst.format = false) {i : YuvColorInfo} (hi : src.color = .YUV i) (ht : i.transfer = dst.color.transfer)
    (hp : i.primaries = dst.color.primaries) (hcs : i.space = .BT601 ∨ i.space = .BT709) {k : ℝ × ℝ × ℝ}
    (hk : lumaWeights i.space = some k) (hr : i.fullRange = true ∨ sampleBits src.format = 8) {c : Chan}
    (hc : c = .R ∨ c = .G ∨ c = .B) {x y : Nat} (hx : x < dst.width) (hy : y < dst.height)
    (hV : InDepth src.format src.width src.height (shown src.format sps m)) :
    ∃ n, sample dst.format dps m' c x y = some n ∧
      |(n : ℝ) - clamp255 (standardColours k src.format i.fullRange (shown src.format sps m) c x y)| <
        1 + 1 / 400 + if i.fullRange then 0.93 / 2 ^ (sampleBits src.format - 8) else 0 := by
  obtain ⟨n, h1, h2⟩ := C44_yuv_to_rgb_partial r hs hd hi ht hp hcs hk hc hx hy hV
  refine ⟨n, h1, ?_⟩
  rcases hf : i.fullRange with _ | _
  · rw [hf] at hr h2
    rw [ideal_colours_limited (hr.resolve_left (by simp))] at h2
    simpa using h2
  · rw [hf] at h2
    have e := ideal_colours_full hcs hk src.format (shown src.format sps m) hc x y
    have hd : |idealRgb k src.format true (shown src.format sps m) c x y -
        standardColours k src.format true (shown src.format sps m) c x y| ≤ 0.93 / 2 ^ (sampleBits src.format - 8) := by
      rw [e]
      rcases hcs with h | h <;> rw [h] at hk <;> cases hk <;> rcases hc with rfl | rfl | rfl <;>
        rcases depth_cases src.format with h | h | h <;> rw [h] <;> norm_num [abs_le]
    have hl := (clamp_lipschitz _ _).trans hd
    simp only [if_true]
    rw [abs_lt] at h2 ⊢
    rw [abs_le] at hl
    constructor <;> linarith [h2.1, h2.2, hl.1, hl.2]

/-- **C56** is false for limited range at 10 and 12 bits, on every platform: the white of the standards does not become white. -/
theorem C56_deep_decode_false (r : Run (p.ieee simd scalar) src dst sps dps m m') (hs : isYuv src.format = true)
    (hd : isYuv dst.format = false) {i : YuvColorInfo} (hi : src.color = .YUV i) (ht : i.transfer = dst.color.transfer)
    (hp : i.primaries = dst.color.primaries) (hcs : i.space = .BT601 ∨ i.space = .BT709) {k : ℝ × ℝ × ℝ}
    (hk : lumaWeights i.space = some k) (hr : i.fullRange = false)
    (hn : sampleBits src.format = 10 ∨ sampleBits src.format = 12) {c : Chan} (hc : c = .R ∨ c = .B) {x y : Nat}
    (hx : x < dst.width) (hy : y < dst.height) (hV : InDepth src.format src.width src.height (shown src.format sps m))
    (hY : shown src.format sps m .Y x y = 235 * 2 ^ (sampleBits src.format - 8))
    (hU : shown src.format sps m .U x y = 128 * 2 ^ (sampleBits src.format - 8))
    (hW : shown src.format sps m .V x y = 128 * 2 ^ (sampleBits src.format - 8)) :
    ∃ n, sample dst.format dps m' c x y = some n ∧
      standardColours k src.format false (shown src.format sps m) c x y = 255 ∧ n ≤ 254 := by
  obtain ⟨n, h1, h2⟩ := C44_yuv_to_rgb_partial r hs hd hi ht hp hcs hk (c := c) (by rcases hc with rfl | rfl <;> simp) hx hy hV
  refine ⟨n, h1, ?_, ?_⟩
  · simp only [standardColours, hY, hU, hW]
    rcases hcs with h | h <;> rw [h] at hk <;> cases hk <;> rcases hc with rfl | rfl <;> rcases hn with h | h <;> rw [h] <;>
      norm_num [lumaOfDigital, chromaOfDigital, standardRgb]
  · have hi : clamp255 (idealRgb k src.format false (shown src.format sps m) c x y) ≤ 253.7 := by
      refine max_le (by norm_num) (min_le_of_right_le ?_)
      simp only [idealRgb, hY, hU, hW]
      rcases hcs with h | h <;> rw [h] at hk <;> cases hk <;> rcases hc with rfl | rfl <;> rcases hn with h | h <;> rw [h] <;>
        norm_num [lumaOf, chromaOfCode, standardRgb]
    rw [hr, abs_lt] at h2
    have : (n : ℝ) < 255 := by linarith [h2.2]
    have : n < 255 := by exact_mod_cast this
    omega

/-- Values more than a code apart get different codes. -/
theorem stored_gap (p : Platform) (simd scalar : Libm) (w x : Nat) {u v : F32} {a b e : ℝ} (hu : App u a e) (hv : App v b e)
    (h : b + 1 + 2 * e < a) (hb : e ≤ b) (ha : a + e ≤ 255) :
    stored p simd scalar w x .interleaved8 v < stored p simd scalar w x .interleaved8 u := by
  obtain ⟨s, q, rfl, _, ha'⟩ := hu
  obtain ⟨t, q', rfl, _, hb'⟩ := hv
  rw [abs_le] at ha' hb'
  have h1 : signed t q' + 1 < signed s q := by
    have : ((signed t q' + 1 : ℚ) : ℝ) < (signed s q : ℝ) := by push_cast; linarith [ha'.1, hb'.2]
    exact_mod_cast this
  have h2 : 0 ≤ signed t q' := by
    have : ((0 : ℚ) : ℝ) ≤ (signed t q' : ℝ) := by push_cast; linarith [hb'.1]
    exact_mod_cast this
  have h3 : signed s q ≤ 255 := by
    have : (signed s q : ℝ) ≤ ((255 : ℚ) : ℝ) := by push_cast; linarith [ha'.2]
    exact_mod_cast this
  by_cases htr : Truncates p w x
  · have f1 := C34_truncating_floor htr simd scalar .interleaved8 (v := .fin s q) rfl (by linarith)
      (by simp only [Store.top]; push_cast; linarith)
    have f2 := C34_truncating_floor htr simd scalar .interleaved8 (v := .fin t q') rfl h2
      (by simp only [Store.top]; push_cast; linarith)
    have : ⌊signed t q'⌋ + 1 ≤ ⌊signed s q⌋ := by
      rw [Int.le_floor]; push_cast; linarith [Int.floor_le (signed t q')]
    have : ((⌊signed t q'⌋ + 1 : Int) : ℚ) ≤ (⌊signed s q⌋ : ℚ) := by exact_mod_cast this
    push_cast at this
    rw [← f1, ← f2] at this
    have : (stored p simd scalar w x .interleaved8 (.fin t q') + 1 : ℚ) ≤ stored p simd scalar w x .interleaved8 (.fin s q) := this
    exact_mod_cast this
  · have f1 := C34_rounding_nearest htr simd scalar .interleaved8 (v := .fin s q) rfl (by linarith)
      (by simp only [Store.top]; push_cast; linarith)
    have f2 := C34_rounding_nearest htr simd scalar .interleaved8 (v := .fin t q') rfl (by linarith)
      (by simp only [Store.top]; push_cast; linarith)
    rw [abs_le] at f1 f2
    have : (stored p simd scalar w x .interleaved8 (.fin t q') : ℚ) < stored p simd scalar w x .interleaved8 (.fin s q) := by
      linarith [f1.1, f2.2]
    exact_mod_cast this

/-- **C56** is false for full-range chroma at 8 bits, on every platform: the greys of the standards (both chroma codes 128) come out
with red above green. -/
theorem C56_full_grey_false (r : Run (p.ieee simd scalar) src dst sps dps m m') (hs : isYuv src.format = true)
    (hd : isYuv dst.format = false) {i : YuvColorInfo} (hi : src.color = .YUV i) (ht : i.transfer = dst.color.transfer)
    (hp : i.primaries = dst.color.primaries) (hcs : i.space = .BT601 ∨ i.space = .BT709) {k : ℝ × ℝ × ℝ}
    (hk : lumaWeights i.space = some k) (hr : i.fullRange = true) (h8 : sampleBits src.format = 8) {x y : Nat}
    (hx : x < dst.width) (hy : y < dst.height) (hV : InDepth src.format src.width src.height (shown src.format sps m))
    (hY : 1 ≤ shown src.format sps m .Y x y ∧ shown src.format sps m .Y x y ≤ 254)
    (hU : shown src.format sps m .U x y = 128) (hW : shown src.format sps m .V x y = 128) :
    ∃ a b, sample dst.format dps m' .R x y = some a ∧ sample dst.format dps m' .G x y = some b ∧ b < a ∧
      standardColours k src.format true (shown src.format sps m) .R x y = shown src.format sps m .Y x y ∧
      standardColours k src.format true (shown src.format sps m) .G x y = shown src.format sps m .Y x y := by
  have hst : IsStandard i.space k := ⟨hcs, hk⟩
  obtain ⟨u, h1, _, h2, _⟩ := yuv_to_rgb_value r hs hd hi ht hp hst.isMatrix (c := .R) (by simp) hx hy hV
  obtain ⟨v, h3, _, h4, _⟩ := yuv_to_rgb_value r hs hd hi ht hp hst.isMatrix (c := .G) (by simp) hx hy hV
  rw [decode_ideal hst _ _ (by simp), hr] at h2 h4
  have eR := ideal_colours_full hcs hk src.format (shown src.format sps m) (c := .R) (by simp) x y
  have eG := ideal_colours_full hcs hk src.format (shown src.format sps m) (c := .G) (by simp) x y
  have sc : ∀ c, (c = .R ∨ c = .G) → standardColours k src.format true (shown src.format sps m) c x y =
      shown src.format sps m .Y x y := by
    intro c hc
    simp only [standardColours, hU, hW, h8]
    rcases hcs with h | h <;> rw [h] at hk <;> cases hk <;> rcases hc with rfl | rfl <;>
      simp only [lumaOfDigital, chromaOfDigital, standardRgb, if_true] <;> norm_num <;> ring
  refine ⟨_, _, h1, h3, stored_gap p simd scalar dst.width x h2 h4 ?_ ?_ ?_, sc _ (by simp), sc _ (by simp)⟩
  all_goals
    rw [sc .R (by simp), h8] at eR
    rw [sc .G (by simp), h8] at eG
    have l1 : (1 : ℝ) ≤ shown src.format sps m .Y x y := by exact_mod_cast hY.1
    have l2 : (shown src.format sps m .Y x y : ℝ) ≤ 254 := by exact_mod_cast hY.2
    generalize idealRgb k src.format true (shown src.format sps m) .R x y = A at *
    generalize idealRgb k src.format true (shown src.format sps m) .G x y = B at *
    generalize (shown src.format sps m .Y x y : ℝ) = L at *
    rcases hcs with h | h <;> rw [h] at hk <;> cases hk <;> norm_num at eR eG <;> linarith

/-- Such an image on NEON: 2×2, 4:4:4, all samples 128. -/
example (simd scalar : Libm) : ∃ m' a b,
    Run (Platform.neon.ieee simd scalar)
      (.raw .I444 2 2 [⟨⟨0, 4⟩, 2⟩, ⟨⟨4, 4⟩, 2⟩, ⟨⟨8, 4⟩, 2⟩] (.YUV ⟨.SRGB, .BT709, .BT601, true⟩))
      (.raw .RGB 2 2 [⟨⟨100, 12⟩, 6⟩] (.RGB ⟨.SRGB, .BT709⟩)) [⟨⟨0, 4⟩, 2⟩, ⟨⟨4, 4⟩, 2⟩, ⟨⟨8, 4⟩, 2⟩] [⟨⟨100, 12⟩, 6⟩]
      (fun _ => 128) m' ∧
    sample .RGB [⟨⟨100, 12⟩, 6⟩] m' .R 1 0 = some a ∧ sample .RGB [⟨⟨100, 12⟩, 6⟩] m' .G 1 0 = some b ∧ b < a := by
  obtain ⟨m', r⟩ := run_exists (c := Platform.neon.ieee simd scalar)
    (src := .raw .I444 2 2 [⟨⟨0, 4⟩, 2⟩, ⟨⟨4, 4⟩, 2⟩, ⟨⟨8, 4⟩, 2⟩] (.YUV ⟨.SRGB, .BT709, .BT601, true⟩))
    (dst := .raw .RGB 2 2 [⟨⟨100, 12⟩, 6⟩] (.RGB ⟨.SRGB, .BT709⟩)) (platform_lawful .neon _ _) rfl rfl
    (planesDisjoint_of (by decide)) (separate_of (by decide)) (uniform_of (by decide)) (by decide) (fun _ => 128)
  obtain ⟨a, b, h1, h2, h3, _⟩ := C56_full_grey_false r rfl rfl rfl rfl rfl (Or.inl rfl) rfl rfl rfl (x := 1) (y := 0)
    (by decide) (by decide) (fun c x y l _ _ _ => shown_le rfl _ _ c x y) ⟨by decide, by decide⟩ rfl rfl
  exact ⟨m', a, b, r, h1, h2, h3⟩

/-- Memory of a 10-bit image holding the standard's white: 940 (0x3ac) in the luma plane, 512 (0x200) in the chroma planes. -/
def white10 : Mem := fun a =>
  if a < 116 then (if a % 2 = 0 then 0xac else 0x03) else (if a % 2 = 0 then 0 else 2)

/-- The standard's 10-bit white on AVX-512, not white in the result. -/
example (simd scalar : Libm) : ∃ m' n, Run (Platform.avx512.ieee simd scalar) (i010At 100 .BT709 false) (rgb24At 200)
    (i012Planes 100) [⟨⟨200, 24⟩, 12⟩] white10 m' ∧ sample .RGB [⟨⟨200, 24⟩, 12⟩] m' .B 2 1 = some n ∧ n ≤ 254 := by
  obtain ⟨m', r⟩ := i010_run .avx512 simd scalar white10 .BT709 false
  have key : ∀ c : Chan, ∀ x < 4, ∀ y < 2, shown .I010 (i012Planes 100) white10 c x y ≤ 1023 := by
    intro c; cases c <;> decide
  obtain ⟨n, h1, _, h2⟩ := C56_deep_decode_false r rfl rfl rfl rfl rfl (Or.inr rfl) rfl rfl (Or.inl rfl) (c := .B) (by simp)
    (x := 2) (y := 1) (by decide) (by decide) (fun c x y l hx hy _ => key c x hx y hy) (by decide) (by decide) (by decide)
  exact ⟨m', n, r, h1, h2⟩

end Ezk.Props

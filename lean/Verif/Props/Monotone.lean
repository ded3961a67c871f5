import Verif.Props.Accuracy
import Verif.Proofs.Monotone

/-!
# C57: conversions keep the order of colours

Brighter colours do not get smaller codes.  This compares two pixels, of one image or of two, converted on the same or on different
platforms, in binary32.
-/

namespace Ezk.Props
open FOps Spec F32 PixelFormat

/-! ## Stores -/

/-- Values on which the stores that round do not wrap. -/
def Storable (s : Store) (q : ℚ) : Prop :=
  (-1 / 2 ≤ q ∧ q < s.top + 1 / 2) ∨ (s = .interleaved8 ∧ -2 ^ 31 ≤ q ∧ q < 32767)

theorem stored_rounds {p : Platform} {w x : Nat} (h : ¬ Truncates p w x) (simd scalar : Libm) (s : Store) {v : F32} {q : ℚ}
    (hv : Is v q) (hq : Storable s q) : stored p simd scalar w x s v = min (rne q).toNat s.top := by
  simp only [Truncates, not_or, not_not] at h
  obtain ⟨b, r, rfl, _, rfl⟩ := hv
  have hT : s.top ≤ 65535 := by cases s <;> simp [Store.top]
  have hT' : (s.top : ℚ) ≤ 65535 := by exact_mod_cast hT
  have ec : cvtps (fin b r) = rne (signed b r) :=
    cvtps_of_range (by rcases hq with h | h; · linarith [h.1]
                       · exact h.2.1) (by rcases hq with h | h <;> linarith [h.2])
  have hi : 0 ≤ rne (signed b r) ∧ rne (signed b r) ≤ s.top ∨ s = .interleaved8 ∧ rne (signed b r) ≤ 32767 := by
    rcases hq with h | h
    · exact Or.inl (rne_bounds h.1 h.2)
    · exact Or.inr ⟨h.1, rne_le (by exact_mod_cast h.2.2.le)⟩
  cases p
  · exact absurd rfl h.1
  · have e : columnArith (Platform.avx2.ieee simd scalar) w x = (Platform.avx2.ieee simd scalar).vec.ar := by
      rw [columnArith, if_pos (show x < w - w % ((Platform.avx2.ieee simd scalar).vec.LEN * 2) from h.2.2)]
    cases s <;> simp only [stored, e, Store.top] at hi ⊢
    · change (packus16 (packus32 (cvtps (fin b r)))).toNat = _
      rw [pack8_toNat, ec]; simp only [reduceCtorEq, false_and, or_false] at hi; split_ifs <;> omega
    · change (packus16 (packus32 (cvtps (fin b r)))).toNat = _
      rw [pack8_toNat, ec]; split_ifs <;> omega
    · change (packus32 (cvtps (fin b r))).toNat = _
      rw [packus32_toNat, ec]; simp only [reduceCtorEq, false_and, or_false] at hi; split_ifs <;> omega
  · have e : columnArith (Platform.avx512.ieee simd scalar) w x = (Platform.avx512.ieee simd scalar).vec.ar := by
      rw [columnArith, if_pos (show x < w - w % ((Platform.avx512.ieee simd scalar).vec.LEN * 2) from h.2.2)]
    cases s <;> simp only [stored, e, Store.top] at hi ⊢
    · change (truncate8 (cvtps (fin b r))).toNat = _
      rw [truncate8_toNat, ec]; simp only [reduceCtorEq, false_and, or_false] at hi; omega
    · change (packus16 (packus32 (cvtps (fin b r)))).toNat = _
      rw [pack8_toNat, ec]; split_ifs <;> omega
    · change (truncate16 (cvtps (fin b r))).toNat = _
      rw [truncate16_toNat, ec]; simp only [reduceCtorEq, false_and, or_false] at hi; omega
  · exact absurd rfl h.2.1

theorem trunc_mono {a b : ℚ} (h : a ≤ b) : trunc a ≤ trunc b := by
  by_cases ha : 0 ≤ a
  · rw [trunc_eq_floor ha, trunc_eq_floor (ha.trans h)]; exact Int.floor_le_floor h
  · rw [trunc_neg (not_le.mp ha)]
    have : ⌈a⌉ ≤ 0 := Int.ceil_le.mpr (by push_cast; linarith)
    by_cases hb : 0 ≤ b
    · rw [trunc_eq_floor hb]; exact this.trans (Int.floor_nonneg.mpr hb)
    · rw [trunc_neg (not_le.mp hb)]; exact Int.ceil_le_ceil h

theorem trunc_le_rne {a : ℚ} (h : 0 ≤ a) : trunc a ≤ rne a := by
  rw [trunc_eq_floor h]; exact le_rne (Int.floor_le a)

/-- The stores are monotone, unless the larger value is truncated and the smaller one rounded. -/
theorem stored_mono {p p' : Platform} {w x w' x' : Nat} (ht : Truncates p' w' x' → Truncates p w x) (simd scalar simd' scalar' : Libm)
    (s : Store) {v v' : F32} {a b : ℚ} (hv : Is v a) (hv' : Is v' b) (ha : Storable s a) (hb : Storable s b) (h : a ≤ b) :
    stored p simd scalar w x s v ≤ stored p' simd' scalar' w' x' s v' := by
  have et : ∀ {p w x simd scalar v a}, Truncates p w x → Is v a →
      stored p simd scalar w x s v = min (trunc a).toNat s.top := by
    intro p w x simd scalar v a ht hv
    rw [stored_truncates ht]
    obtain ⟨_, _, rfl, _, rfl⟩ := hv
    rfl
  by_cases h1 : Truncates p' w' x'
  · rw [et (ht h1) hv, et h1 hv']
    have := trunc_mono h
    omega
  · rw [stored_rounds h1 _ _ s hv' hb]
    by_cases h2 : Truncates p w x
    · rw [et h2 hv]
      by_cases h0 : 0 ≤ a
      · have := (trunc_le_rne h0).trans (rne_mono h)
        omega
      · have : trunc a ≤ 0 := by
          rw [trunc_neg (not_le.mp h0)]; exact Int.ceil_le.mpr (by push_cast; linarith)
        omega
    · rw [stored_rounds h2 _ _ s hv ha]
      have := rne_mono h
      omega

/-! ## RGB to YUV -/

variable {p p' : Platform} {simd scalar simd' scalar' : Libm} {src dst src' dst' : Img} {sps dps sps' dps' : List Plane}
  {m mo n no : Mem}

/-- Two codes written for RGB, in terms of the floats before the last multiplication. -/
theorem codes_ordered {B : ℚ} (hB : 1 / 1000 ≤ B) (hB' : B ≤ 200000) (r : Run (p.ieee simd scalar) src dst sps dps m mo)
    (r' : Run (p'.ieee simd' scalar') src' dst' sps' dps' n no) (hs : isYuv src.format = false) (hs' : isYuv src'.format = false)
    (hd : isYuv dst.format = true) (hf : dst'.format = dst.format) {i : YuvColorInfo} (hi : dst.color = .YUV i)
    (hi' : dst'.color = .YUV i) (ht : src.color.transfer = i.transfer) (ht' : src'.color.transfer = i.transfer)
    (hp : src.color.primaries = i.primaries) (hp' : src'.color.primaries = i.primaries) (hm : isMatrix i.space = true)
    {c : Chan} (hc : c = .Y ∨ c = .U ∨ c = .V) {x y x' y' : Nat} (hx : x < dst.width) (hy : y < dst.height) (hx' : x' < dst'.width)
    (hy' : y' < dst'.height) (hT : Truncates p' dst'.width x' → Truncates p dst.width x)
    (hord : Ord B (encode (columnArith (p.ieee simd scalar) dst.width) dst.format i (withAlpha src.format
        (Spec.normalize (columnArith (p.ieee simd scalar) dst.width) src.format (shown src.format sps m))) c x y)
      (encode (columnArith (p'.ieee simd' scalar') dst'.width) dst.format i (withAlpha src'.format
        (Spec.normalize (columnArith (p'.ieee simd' scalar') dst'.width) src'.format (shown src'.format sps' n))) c x' y')) :
    ∃ a b, sample dst.format dps mo c x y = some a ∧ sample dst.format dps' no c x' y' = some b ∧ a ≤ b := by
  obtain ⟨v, h1, h2, h3, h4, h5⟩ := rgb_to_yuv_value r hs hd hi ht hp hm hc hx hy
  obtain ⟨v', g1, g2, g3, g4, g5⟩ := rgb_to_yuv_value r' hs' (hf ▸ hd) hi' ht' hp' hm hc hx' hy'
  rw [hf] at g1 g2 g3 g4 g5
  refine ⟨_, _, h1, g1, ?_⟩
  have hM : 255 ≤ 2 ^ sampleBits dst.format - 1 ∧ 2 ^ sampleBits dst.format - 1 ≤ 4095 := by
    cases dst.format <;> simp [sampleBits]
  have hT8 : 2 ^ sampleBits dst.format - 1 ≤ (yuvStore dst.format).top := by
    cases dst.format <;> simp [sampleBytes, sampleBits, yuvStore, Store.top]
  have hM1 : (255 : ℝ) ≤ (2 ^ sampleBits dst.format - 1 : Nat) := by exact_mod_cast hM.1
  have hM2 : ((2 ^ sampleBits dst.format - 1 : Nat) : ℝ) ≤ 4095 := by exact_mod_cast hM.2
  have hM3 : ((2 ^ sampleBits dst.format - 1 : Nat) : ℝ) ≤ (yuvStore dst.format).top := by exact_mod_cast hT8
  have hmax : Is (maxSample dst.format : F32) ((2 ^ sampleBits dst.format - 1 : Nat) : ℚ) :=
    ⟨false, _, ofNat_eq (by omega), by positivity, by simp [signed]⟩
  have hscale := ord_mul (A := B) (K := 4095) (C := 2 * (B * 4095)) hord hmax (by positivity) (by exact_mod_cast hM.2)
    (by linarith) (by linarith) (le_refl _)
  rw [← h2, ← g2] at hscale
  obtain ⟨a, b, ia, ib, _, _, hab⟩ := hscale
  have st : ∀ {v : F32} {a : ℚ} {r : ℝ}, Is v a → 0 ≤ r → r ≤ 1 →
      App v (r * (2 ^ sampleBits dst.format - 1 : Nat)) (5 / 10 ^ 6 * (2 ^ sampleBits dst.format - 1 : Nat)) →
      Storable (yuvStore dst.format) a := by
    intro v a r ha r0 r1 happ
    obtain ⟨a', ia', e⟩ := happ.is
    obtain rfl := ha.unique ia'
    rw [abs_le] at e
    have k1 : 0 ≤ r * (2 ^ sampleBits dst.format - 1 : Nat) := mul_nonneg r0 (by linarith)
    have k2 : r * (2 ^ sampleBits dst.format - 1 : Nat) ≤ (2 ^ sampleBits dst.format - 1 : Nat) :=
      mul_le_of_le_one_left (by linarith) r1
    have k3 : 5 / 10 ^ 6 * ((2 ^ sampleBits dst.format - 1 : Nat) : ℝ) < 1 / 2 := by
      generalize ((2 ^ sampleBits dst.format - 1 : Nat) : ℝ) = M at *
      norm_num; linarith
    left
    constructor
    · have : ((-1 / 2 : ℚ) : ℝ) ≤ a := by push_cast; linarith [e.1]
      exact_mod_cast this
    · have : (a : ℝ) < (((yuvStore dst.format).top + 1 / 2 : ℚ) : ℝ) := by push_cast; linarith [e.2]
      exact_mod_cast this
  exact stored_mono hT simd scalar simd' scalar' _ ia ib (st ia h4 h5 h3) (st ib g4 g5 g3) hab

theorem withAlpha_rgb (f : PixelFormat) (q : Pic F32) {c : Chan} (hc : c = .R ∨ c = .G ∨ c = .B) (x y : Nat) :
    withAlpha f q c x y = q c x y := by
  rcases hc with rfl | rfl | rfl <;> simp [withAlpha]

/-- Components of RGB pictures, in order. -/
theorem ord_rgb {ar ar' : Nat → Arith F32} (hi : ∀ x, IsIeee (ar x)) (hi' : ∀ x, IsIeee (ar' x)) {f f' : PixelFormat}
    (hs : isYuv f = false) (hs' : isYuv f' = false) {sps sps' : List Plane} {m n : Mem} {c : Chan}
    (hc : c = .R ∨ c = .G ∨ c = .B) {x y x' y' : Nat} (h : shown f sps m c x y ≤ shown f' sps' n c x' y') :
    Ord 2 (withAlpha f (Spec.normalize ar f (shown f sps m)) c x y)
      (withAlpha f' (Spec.normalize ar' f' (shown f' sps' n)) c x' y') := by
  rw [withAlpha_rgb _ _ hc, withAlpha_rgb _ _ hc]
  have hle := shown_le (rgb8 hs').1 sps' n c x' y'
  have := ord_sample (hi x) (hi' x') f h (by rw [(rgb8 hs).2]; exact hle)
  simp only [Spec.normalize]
  have e : (maxSample f' : F32) = maxSample f := by simp only [maxSample, (rgb8 hs).2, (rgb8 hs').2]
  rw [e]
  exact this

/-- **C57**: a colour with at least as much red, green and blue does not get a smaller luma code. -/
theorem C57_luma_partial (r : Run (p.ieee simd scalar) src dst sps dps m mo)
    (r' : Run (p'.ieee simd' scalar') src' dst' sps' dps' n no) (hs : isYuv src.format = false) (hs' : isYuv src'.format = false)
    (hd : isYuv dst.format = true) (hf : dst'.format = dst.format) {i : YuvColorInfo} (hi : dst.color = .YUV i)
    (hi' : dst'.color = .YUV i) (ht : src.color.transfer = i.transfer) (ht' : src'.color.transfer = i.transfer)
    (hp : src.color.primaries = i.primaries) (hp' : src'.color.primaries = i.primaries) (hm : isMatrix i.space = true)
    {x y x' y' : Nat} (hx : x < dst.width) (hy : y < dst.height) (hx' : x' < dst'.width) (hy' : y' < dst'.height)
    (hT : Truncates p' dst'.width x' → Truncates p dst.width x)
    (hle : ∀ c, (c = .R ∨ c = .G ∨ c = .B) → shown src.format sps m c x y ≤ shown src'.format sps' n c x' y') :
    ∃ a b, sample dst.format dps mo .Y x y = some a ∧ sample dst.format dps' no .Y x' y' = some b ∧ a ≤ b := by
  have hcol := column_ieee p simd scalar dst.width
  have hcol' := column_ieee p' simd' scalar' dst'.width
  refine codes_ordered (B := 8192) (by norm_num) (by norm_num) r r' hs hs' hd hf hi hi' ht ht' hp hp' hm (by simp) hx hy hx' hy' hT ?_
  have k := fun (c : Chan) (hc : c = .R ∨ c = .G ∨ c = .B) =>
    (ord_rgb hcol hcol' hs hs' hc (hle c hc)).mono (show (2 : ℚ) ≤ 64 by norm_num)
  simp only [encode, yuvAt]
  exact ord_compressLuma (hcol x) (hcol' x') _
    (ord_luma (hcol x) (hcol' x') hm _ _ (k Chan.R (by simp)) (k Chan.G (by simp)) (k Chan.B (by simp)))

/-- **C57**: chroma. A cell whose pixels are bluer (more blue, less red and green) does not get a smaller U code, and one whose pixels
are redder does not get a smaller V code. -/
theorem C57_chroma_partial (r : Run (p.ieee simd scalar) src dst sps dps m mo)
    (r' : Run (p'.ieee simd' scalar') src' dst' sps' dps' n no) (hs : isYuv src.format = false) (hs' : isYuv src'.format = false)
    (hd : isYuv dst.format = true) (hf : dst'.format = dst.format) {i : YuvColorInfo} (hi : dst.color = .YUV i)
    (hi' : dst'.color = .YUV i) (ht : src.color.transfer = i.transfer) (ht' : src'.color.transfer = i.transfer)
    (hp : src.color.primaries = i.primaries) (hp' : src'.color.primaries = i.primaries) (hm : isMatrix i.space = true)
    {x y x' y' : Nat} (hx : x < dst.width) (hy : y < dst.height) (hx' : x' < dst'.width) (hy' : y' < dst'.height)
    (hT : Truncates p' dst'.width x' → Truncates p dst.width x) {up : Chan}
    (hup : up = .B ∨ up = .R)
    (hle : ∀ c, (c = .R ∨ c = .G ∨ c = .B) → cellwise dst.format x y x' y' (fun x y x' y' =>
      if c = up then shown src.format sps m c x y ≤ shown src'.format sps' n c x' y'
      else shown src'.format sps' n c x' y' ≤ shown src.format sps m c x y)) :
    ∃ a b, sample dst.format dps mo (if up = .B then .U else .V) x y = some a ∧
      sample dst.format dps' no (if up = .B then .U else .V) x' y' = some b ∧ a ≤ b := by
  have hcol := column_ieee p simd scalar dst.width
  have hcol' := column_ieee p' simd' scalar' dst'.width
  refine codes_ordered (B := 200000) (by norm_num) (by norm_num) r r' hs hs' hd hf hi hi' ht ht' hp hp' hm
    (by rcases hup with rfl | rfl <;> simp) hx hy hx' hy' hT ?_
  have hch := ord_chroma hcol hcol' dst.format hm (withAlpha src.format
    (Spec.normalize (columnArith (p.ieee simd scalar) dst.width) src.format (shown src.format sps m)))
    (withAlpha src'.format (Spec.normalize (columnArith (p'.ieee simd' scalar') dst'.width) src'.format (shown src'.format sps' n)))
    x y x' y'
  rcases hup with rfl | rfl
  · simp only [if_true, encode]
    refine ord_compressChroma (hcol x) (hcol' x') _ (hch.1 fun a ha b hb => ⟨?_, ?_, ?_⟩)
    · exact ord_rgb hcol' hcol hs' hs (by simp) (hle .R (by simp) a ha b hb)
    · exact ord_rgb hcol' hcol hs' hs (by simp) (hle .G (by simp) a ha b hb)
    · exact ord_rgb hcol hcol' hs hs' (by simp) (hle .B (by simp) a ha b hb)
  · simp only [reduceCtorEq, if_false, encode]
    refine ord_compressChroma (hcol x) (hcol' x') _ (hch.2 fun a ha b hb => ⟨?_, ?_, ?_⟩)
    · exact ord_rgb hcol hcol' hs hs' (by simp) (hle .R (by simp) a ha b hb)
    · exact ord_rgb hcol' hcol hs' hs (by simp) (hle .G (by simp) a ha b hb)
    · exact ord_rgb hcol' hcol hs' hs (by simp) (hle .B (by simp) a ha b hb)

theorem tail_truncates (w x : Nat) (h : w < 16) : Truncates .avx2 w x := by
  simp only [Truncates, lanes]; omega

/-- Bytes in ascending order: the last pixel is brighter than the first. -/
example (simd scalar : Libm) : ∃ mo a b, sample .I010 (i012Planes 100) mo .Y 0 0 = some a ∧
    sample .I010 (i012Planes 100) mo .Y 3 1 = some b ∧ a ≤ b := by
  obtain ⟨mo, r⟩ := rgb24_run .avx2 simd scalar (fun a => UInt8.ofNat a) .BT2020 false
  obtain ⟨a, b, h⟩ := C57_luma_partial r r rfl rfl rfl rfl rfl rfl rfl rfl rfl rfl rfl (x := 0) (y := 0) (x' := 3) (y' := 1)
    (by decide) (by decide) (by decide) (by decide) (fun _ => tail_truncates _ _ (by decide))
    (by rintro c (rfl | rfl | rfl) <;> decide)
  exact ⟨mo, a, b, h⟩

/-- Blue ascending and the others descending from left to right: the second cell is bluer. -/
example (simd scalar : Libm) : ∃ mo a b, sample .I010 (i012Planes 100) mo .U 0 0 = some a ∧
    sample .I010 (i012Planes 100) mo .U 2 1 = some b ∧ a ≤ b := by
  obtain ⟨mo, r⟩ := rgb24_run .avx2 simd scalar
    (fun a => UInt8.ofNat (if a % 3 = 2 then a % 12 else 200 - a % 12)) .BT601 true
  obtain ⟨a, b, h⟩ := C57_chroma_partial r r rfl rfl rfl rfl rfl rfl rfl rfl rfl rfl rfl (x := 0) (y := 0) (x' := 2) (y' := 1)
    (by decide) (by decide) (by decide) (by decide) (fun _ => tail_truncates _ _ (by decide)) (Or.inl rfl)
    (by rintro c (rfl | rfl | rfl) a ha b hb <;> revert b <;> revert a <;> decide)
  exact ⟨mo, a, b, h⟩

/-- **C57** is false where the brighter pixel is truncated and the darker one rounded, as in the last columns of images on AVX2 and
AVX-512: the darker one gets the larger luma code. -/
theorem C57_last_columns_false (r : Run (p.ieee simd scalar) src dst sps dps m mo) (hs : isYuv src.format = false)
    (hd : isYuv dst.format = true) (h8 : sampleBits dst.format = 8) {i : YuvColorInfo} (hi : dst.color = .YUV i)
    (ht : src.color.transfer = i.transfer) (hp : src.color.primaries = i.primaries) (hcs : i.space = .BT709)
    (hfull : i.fullRange = true) {x y x' y' : Nat} (hx : x < dst.width) (hy : y < dst.height) (hx' : x' < dst.width)
    (hy' : y' < dst.height) (hT : ¬ Truncates p dst.width x) (hT' : Truncates p dst.width x')
    (hdark : shown src.format sps m .R x y = 0 ∧ shown src.format sps m .G x y = 0 ∧ shown src.format sps m .B x y = 9)
    (hbright : shown src.format sps m .R x' y' = 0 ∧ shown src.format sps m .G x' y' = 0 ∧ shown src.format sps m .B x' y' = 10) :
    sample dst.format dps mo .Y x y = some 1 ∧ sample dst.format dps mo .Y x' y' = some 0 := by
  have hst : IsStandard i.space (0.2126, 0.7152, 0.0722) := by rw [hcs]; exact ⟨Or.inr rfl, rfl⟩
  have h1 : sampleBytes dst.format = 1 := by revert h8; cases dst.format <;> simp [sampleBits, sampleBytes]
  obtain ⟨v, e1, _, a1, _⟩ := rgb_to_yuv_value r hs hd hi ht hp hst.isMatrix (c := .Y) (by simp) hx hy
  obtain ⟨w, e2, _, a2, _⟩ := rgb_to_yuv_value r hs hd hi ht hp hst.isMatrix (c := .Y) (by simp) hx' hy'
  rw [encode_ideal hst _ _ (by simp)] at a1 a2
  simp only [idealYuv, pixelYuv, standardYuv, hdark.1, hdark.2.1, hdark.2.2, hbright.1, hbright.2.1, hbright.2.2, lumaCode, hfull,
    if_true, h8] at a1 a2
  norm_num at a1 a2
  obtain ⟨q, i1, b1⟩ := a1.is
  obtain ⟨q', i2, b2⟩ := a2.is
  rw [abs_le] at b1 b2
  have c1 : 1 / 2 < q ∧ q < 1 := by
    constructor
    · have : ((1 / 2 : ℚ) : ℝ) < q := by push_cast; linarith [b1.1]
      exact_mod_cast this
    · have : (q : ℝ) < ((1 : ℚ) : ℝ) := by push_cast; linarith [b1.2]
      exact_mod_cast this
  have c2 : 0 ≤ q' ∧ q' < 1 := by
    constructor
    · have : ((0 : ℚ) : ℝ) ≤ q' := by push_cast; linarith [b2.1]
      exact_mod_cast this
    · have : (q' : ℝ) < ((1 : ℚ) : ℝ) := by push_cast; linarith [b2.2]
      exact_mod_cast this
  rw [e1, e2]
  have es : yuvStore dst.format = .planar8 := by rw [yuvStore, if_pos h1]
  constructor
  · rw [es, stored_rounds hT simd scalar _ i1 (Or.inl ⟨by linarith [c1.1], by simp only [Store.top]; push_cast; linarith [c1.2]⟩)]
    have : rne q = 1 := rne_of_near (by rw [abs_lt]; push_cast; constructor <;> linarith [c1.1, c1.2])
    rw [this]; rfl
  · rw [es, stored_truncates hT']
    obtain ⟨b, t, rfl, _, rfl⟩ := i2
    have : trunc (signed b t) = 0 := by rw [trunc_eq_floor c2.1]; exact Int.floor_eq_zero_iff.mpr ⟨c2.1, c2.2⟩
    simp only [asUnsigned, this]; rfl

/-- An 18×2 image of `(0, 0, 9)`, with `(0, 0, 10)` in the last two columns. -/
def nearlyBlack : Mem := fun a => if a % 3 = 2 then (if 48 ≤ a % 54 then 10 else 9) else 0

/-- Such an image. -/
example (simd scalar : Libm) : ∃ mo, Run (Platform.avx2.ieee simd scalar)
    (.raw .RGB 18 2 [⟨⟨0, 108⟩, 54⟩] (.RGB ⟨.SDR, .BT709⟩))
    (.raw .I444 18 2 [⟨⟨200, 36⟩, 18⟩, ⟨⟨236, 36⟩, 18⟩, ⟨⟨272, 36⟩, 18⟩] (.YUV ⟨.SDR, .BT709, .BT709, true⟩)) [⟨⟨0, 108⟩, 54⟩]
    [⟨⟨200, 36⟩, 18⟩, ⟨⟨236, 36⟩, 18⟩, ⟨⟨272, 36⟩, 18⟩] nearlyBlack mo ∧
    sample .I444 [⟨⟨200, 36⟩, 18⟩, ⟨⟨236, 36⟩, 18⟩, ⟨⟨272, 36⟩, 18⟩] mo .Y 15 1 = some 1 ∧
    sample .I444 [⟨⟨200, 36⟩, 18⟩, ⟨⟨236, 36⟩, 18⟩, ⟨⟨272, 36⟩, 18⟩] mo .Y 16 1 = some 0 := by
  obtain ⟨mo, r⟩ := run_exists (c := Platform.avx2.ieee simd scalar)
    (src := .raw .RGB 18 2 [⟨⟨0, 108⟩, 54⟩] (.RGB ⟨.SDR, .BT709⟩))
    (dst := .raw .I444 18 2 [⟨⟨200, 36⟩, 18⟩, ⟨⟨236, 36⟩, 18⟩, ⟨⟨272, 36⟩, 18⟩] (.YUV ⟨.SDR, .BT709, .BT709, true⟩))
    (sps := [⟨⟨0, 108⟩, 54⟩]) (dps := [⟨⟨200, 36⟩, 18⟩, ⟨⟨236, 36⟩, 18⟩, ⟨⟨272, 36⟩, 18⟩])
    (platform_lawful .avx2 _ _) rfl rfl (planesDisjoint_of (by decide)) (separate_of (by decide)) (uniform_of (by decide))
    (by decide) nearlyBlack
  exact ⟨mo, r, C57_last_columns_false r rfl rfl rfl rfl rfl rfl rfl rfl (x := 15) (y := 1) (x' := 16) (y' := 1) (by decide)
    (by decide) (by decide) (by decide) (by simp [Truncates, lanes, Img.width])
    (by simp [Truncates, lanes, Img.width]) (by decide) (by decide)⟩

/-! ## YUV to RGB -/

theorem decode_ordered (r : Run (p.ieee simd scalar) src dst sps dps m mo)
    (r' : Run (p'.ieee simd' scalar') src' dst' sps' dps' n no) (hs : isYuv src.format = true) (hs' : isYuv src'.format = true)
    (hd : isYuv dst.format = false) (hd' : isYuv dst'.format = false) {i : YuvColorInfo} (hi : src.color = .YUV i)
    (hi' : src'.color = .YUV i) (ht : i.transfer = dst.color.transfer) (ht' : i.transfer = dst'.color.transfer)
    (hp : i.primaries = dst.color.primaries) (hp' : i.primaries = dst'.color.primaries) (hm : isMatrix i.space = true)
    (hV : InDepth src.format src.width src.height (shown src.format sps m))
    (hV' : InDepth src'.format src'.width src'.height (shown src'.format sps' n))
    {c : Chan} (hc : c = .R ∨ c = .G ∨ c = .B) {x y x' y' : Nat} (hx : x < dst.width) (hy : y < dst.height) (hx' : x' < dst'.width)
    (hy' : y' < dst'.height) (hT : Truncates p' dst'.width x' → Truncates p dst.width x)
    (hord : Ord 4096 (decode (columnArith (p.ieee simd scalar) dst.width) i
        (Spec.normalize (columnArith (p.ieee simd scalar) dst.width) src.format (shown src.format sps m)) c x y)
      (decode (columnArith (p'.ieee simd' scalar') dst'.width) i
        (Spec.normalize (columnArith (p'.ieee simd' scalar') dst'.width) src'.format (shown src'.format sps' n)) c x' y')) :
    ∃ a b, sample dst.format dps mo c x y = some a ∧ sample dst'.format dps' no c x' y' = some b ∧ a ≤ b := by
  obtain ⟨v, h1, h2, h3, h4⟩ := yuv_to_rgb_value r hs hd hi ht hp hm hc hx hy hV
  obtain ⟨v', g1, g2, g3, g4⟩ := yuv_to_rgb_value r' hs' hd' hi' ht' hp' hm hc hx' hy' hV'
  refine ⟨_, _, h1, g1, ?_⟩
  have hmax : ∀ f : PixelFormat, isYuv f = false → (maxSample f : F32) = FOps.ofNat 255 := by
    intro f h; simp only [maxSample, (rgb8 h).2]
  rw [hmax _ hd] at h2
  rw [hmax _ hd'] at g2
  have hscale := ord_mul (K := 255) (C := 2 * (4096 * 255)) hord (show Is (FOps.ofNat 255 : F32) 255 from
    ⟨false, (255 : Nat), ofNat_eq (by norm_num), by positivity, by simp [signed]⟩) (by norm_num) (le_refl _) (by norm_num)
    (by norm_num) (le_refl _)
  rw [← h2, ← g2] at hscale
  obtain ⟨a, b, ia, ib, ba, bb, hab⟩ := hscale
  have st : ∀ {v : F32} {a : ℚ} {q : ℝ}, Is v a → |a| ≤ 2 * (4096 * 255) → App v q (1 / 400) → q < 32766 →
      Storable .interleaved8 a := by
    intro v a q ha hb happ hq
    obtain ⟨a', ia', e⟩ := happ.is
    obtain rfl := ha.unique ia'
    rw [abs_le] at e hb
    refine Or.inr ⟨rfl, by linarith [hb.1], ?_⟩
    have : (a : ℝ) < ((32767 : ℚ) : ℝ) := by push_cast; linarith [e.2]
    exact_mod_cast this
  exact stored_mono hT simd scalar simd' scalar' _ ia ib (st ia ba h3 h4) (st ib bb g3 g4) hab

/-- **C57**: more luma does not give smaller red, green or blue codes; nor does more V for red, more U for blue, and less of both for
green. -/
theorem C57_rgb_partial (r : Run (p.ieee simd scalar) src dst sps dps m mo)
    (r' : Run (p'.ieee simd' scalar') src' dst' sps' dps' n no) (hs : isYuv src.format = true) (hs' : isYuv src'.format = true)
    (hf : sampleBits src'.format = sampleBits src.format)
    (hd : isYuv dst.format = false) (hd' : isYuv dst'.format = false) {i : YuvColorInfo} (hi : src.color = .YUV i)
    (hi' : src'.color = .YUV i) (ht : i.transfer = dst.color.transfer) (ht' : i.transfer = dst'.color.transfer)
    (hp : i.primaries = dst.color.primaries) (hp' : i.primaries = dst'.color.primaries) (hm : isMatrix i.space = true)
    (hV : InDepth src.format src.width src.height (shown src.format sps m))
    (hV' : InDepth src'.format src'.width src'.height (shown src'.format sps' n))
    {x y x' y' : Nat} (hx : x < dst.width) (hy : y < dst.height) (hx' : x' < dst'.width) (hy' : y' < dst'.height)
    (hT : Truncates p' dst'.width x' → Truncates p dst.width x)
    (hY : shown src.format sps m .Y x y ≤ shown src'.format sps' n .Y x' y') {c : Chan}
    (hc : c = .R ∧ shown src.format sps m .V x y ≤ shown src'.format sps' n .V x' y' ∨
      c = .B ∧ shown src.format sps m .U x y ≤ shown src'.format sps' n .U x' y' ∨
      c = .G ∧ shown src'.format sps' n .U x' y' ≤ shown src.format sps m .U x y ∧
        shown src'.format sps' n .V x' y' ≤ shown src.format sps m .V x y) :
    ∃ a b, sample dst.format dps mo c x y = some a ∧ sample dst'.format dps' no c x' y' = some b ∧ a ≤ b := by
  have hcol := column_ieee p simd scalar dst.width
  have hcol' := column_ieee p' simd' scalar' dst'.width
  have hret := r.returned
  have hret' := r'.returned
  have e : (maxSample src'.format : F32) = maxSample src.format := by simp only [maxSample, hf]
  have dep : ∀ c, (c = .Y ∨ c = .U ∨ c = .V) → shown src.format sps m c x y ≤ 2 ^ sampleBits src.format - 1 := by
    intro c hc
    obtain ⟨l, hl⟩ : ∃ l, sampleLoc src.format c x y = some l := by
      revert hs; rcases hc with rfl | rfl | rfl <;> cases src.format <;> simp [isYuv, sampleLoc]
    exact hV c x y l (hret.width ▸ hx) (hret.height ▸ hy) hl
  have dep' : ∀ c, (c = .Y ∨ c = .U ∨ c = .V) → shown src'.format sps' n c x' y' ≤ 2 ^ sampleBits src.format - 1 := by
    intro c hc
    obtain ⟨l, hl⟩ : ∃ l, sampleLoc src'.format c x' y' = some l := by
      revert hs'; rcases hc with rfl | rfl | rfl <;> cases src'.format <;> simp [isYuv, sampleLoc]
    rw [← hf]
    exact hV' c x' y' l (hret'.width ▸ hx') (hret'.height ▸ hy') hl
  have up : ∀ c, (c = .Y ∨ c = .U ∨ c = .V) → shown src.format sps m c x y ≤ shown src'.format sps' n c x' y' →
      Ord 2 (Spec.normalize (columnArith (p.ieee simd scalar) dst.width) src.format (shown src.format sps m) c x y)
        (Spec.normalize (columnArith (p'.ieee simd' scalar') dst'.width) src'.format (shown src'.format sps' n) c x' y') := by
    intro c hc h
    simp only [Spec.normalize, e]
    exact ord_sample (hcol x) (hcol' x') _ h (dep' c hc)
  have down : ∀ c, (c = .Y ∨ c = .U ∨ c = .V) → shown src'.format sps' n c x' y' ≤ shown src.format sps m c x y →
      Ord 2 (Spec.normalize (columnArith (p'.ieee simd' scalar') dst'.width) src'.format (shown src'.format sps' n) c x' y')
        (Spec.normalize (columnArith (p.ieee simd scalar) dst.width) src.format (shown src.format sps m) c x y) := by
    intro c hc h
    simp only [Spec.normalize, e]
    exact ord_sample (hcol' x') (hcol x) _ h (dep c hc)
  refine decode_ordered r r' hs hs' hd hd' hi hi' ht ht' hp hp' hm hV hV' (by rcases hc with h | h | h <;> simp [h.1]) hx hy hx' hy' hT ?_
  have hl := ord_expandLuma (hcol x) (hcol' x') i.fullRange (up .Y (by simp) hY)
  rcases hc with ⟨rfl, h⟩ | ⟨rfl, h⟩ | ⟨rfl, h1, h2⟩ <;> simp only [decode]
  · exact (ord_decode (hcol x) (hcol' x') hm _ _ hl).1 (ord_expandChroma (hcol x) (hcol' x') _ (up .V (by simp) h))
  · exact (ord_decode (hcol x) (hcol' x') hm _ _ hl).2.2 (ord_expandChroma (hcol x) (hcol' x') _ (up .U (by simp) h))
  · exact (ord_decode (hcol x) (hcol' x') hm _ _ hl).2.1 (ord_expandChroma (hcol' x') (hcol x) _ (down .U (by simp) h1))
      (ord_expandChroma (hcol' x') (hcol x) _ (down .V (by simp) h2))

/-- Samples in ascending order: red of the last pixel is above that of the first. -/
example (simd scalar : Libm) : ∃ mo a b, sample .RGB [⟨⟨200, 24⟩, 12⟩] mo .R 0 0 = some a ∧
    sample .RGB [⟨⟨200, 24⟩, 12⟩] mo .R 3 1 = some b ∧ a ≤ b := by
  obtain ⟨mo, r⟩ := i010_run .avx2 simd scalar (fun a => if a % 2 = 0 then UInt8.ofNat a else 1) .BT709 false
  have key : ∀ c : Chan, ∀ x < 4, ∀ y < 2,
      shown .I010 (i012Planes 100) (fun a => if a % 2 = 0 then UInt8.ofNat a else 1) c x y ≤ 1023 := by
    intro c; cases c <;> decide
  obtain ⟨a, b, h⟩ := C57_rgb_partial r r rfl rfl rfl rfl rfl rfl rfl rfl rfl rfl rfl rfl (fun c x y l hx hy _ => key c x hx y hy)
    (fun c x y l hx hy _ => key c x hx y hy) (x := 0) (y := 0) (x' := 3) (y' := 1)
    (by decide) (by decide) (by decide) (by decide) (fun _ => tail_truncates _ _ (by decide)) (by decide) (c := .R)
    (Or.inl ⟨rfl, by decide⟩)
  exact ⟨mo, a, b, h⟩

end Ezk.Props

import Verif.Props.BlackWhiteYuv
import Verif.Props.YuvGrey

/-!
# C77: video black and video white
-/

namespace Ezk.Props
open Ezk Ezk.F32 Ezk.Spec

attribute [local instance] ratOps

variable {p : Platform} {scalar : Libm} {src dst : Img} {sps dps : List Plane} {m m' : Mem}

/-- What a grey pixel of a YUV image becomes in an RGB image of another transfer function or other primaries. -/
theorem video_value (r : Run (p.real scalar) src dst sps dps m m') (hs : isYuv src.format = true)
    (hd : isYuv dst.format = false) {i : YuvColorInfo} (hi : src.color = .YUV i)
    (hne : ¬ (src.color.transfer = dst.color.transfer ∧ src.color.primaries = dst.color.primaries))
    (hm : isMatrix i.space = true) (hr : i.fullRange = false) (h8 : sampleBits src.format = 8)
    {x y : Nat} (hx : x < dst.width) (hy : y < dst.height) (hU : shown src.format sps m .U x y = 128)
    (hV : shown src.format sps m .V x y = 128) {c : Chan} (hc : c = .R ∨ c = .G ∨ c = .B) :
    let ar := columnArith (p.real scalar) dst.width x
    let l := decodeTransfer ar src.color.transfer (lumaFloat (shown src.format sps m .Y x y))
    sample dst.format dps m' c x y = some (stored p (p.libm scalar) scalar dst.width x .interleaved8
      (ar.mul (encodeTransfer ar dst.color.transfer (component (rowMul ar (rowMul ar (l, l, l)
        src.color.primaries.rgbToXyzMat) dst.color.primaries.xyzToRgbMat) c)) (maxSample dst.format))) := by
  have hcol : ∀ x, IsIeee (columnArith (p.real scalar) dst.width x) := column_ieee p (p.libm scalar) scalar dst.width
  have hY1 : shown src.format sps m .Y x y ≤ 255 :=
    shown_le (by revert h8; cases src.format <;> simp [sampleBits, sampleBytes]) ..
  have hdec := fun c hc => decode_neutral (ar := columnArith (p.real scalar) dst.width) hcol hm hr h8 hY1 hU hV (c := c) hc
  intro ar l
  rw [yuv_change_pick r hs hd hi hne hc hx hy]
  have e : changeColor (columnArith (p.real scalar) dst.width) src.color dst.color (decode (columnArith (p.real scalar) dst.width) i
      (Spec.normalize (columnArith (p.real scalar) dst.width) src.format (shown src.format sps m))) c x y =
      encodeTransfer ar dst.color.transfer (component (rowMul ar (rowMul ar (l, l, l) src.color.primaries.rgbToXyzMat)
        dst.color.primaries.xyzToRgbMat) c) := by
    simp only [changeColor, hdec .R (by simp), hdec .G (by simp), hdec .B (by simp)]
    rcases hc with rfl | rfl | rfl <;> rfl
  rw [e]

/-- The light of a luma code from 235 up, except for PQ. -/
theorem headroom_light {rr : Arith ℝ} (he : Exact rr) {ar : Arith F32} (hf : Floats ar) {t : ColorTransfer} (ht : t ≠ .BT2100PQ) {n : Nat}
    (h0 : 235 ≤ n) (h1 : n ≤ 255) : ∃ L, App (decodeTransfer ar t (lumaFloat n)) L (42 / 10 ^ 6) ∧ 999 / 1000 ≤ L ∧ L ≤ 67 / 10 := by
  have hn : (235 : ℝ) ≤ n := by exact_mod_cast h0
  have hn1 : (n : ℝ) ≤ 255 := by exact_mod_cast h1
  obtain ⟨X, hX, hdX, _⟩ := luma_is h1
  have hd : |(X : ℝ) - ((n : ℝ) - 16) / 219| ≤ 24 / 10 ^ 7 := by
    have : ((|X - ((n : ℚ) - 16) / 219| : ℚ) : ℝ) ≤ ((1 / 10 ^ 6 : ℚ) : ℝ) := by exact_mod_cast hdX
    push_cast at this
    exact this.trans (by norm_num)
  have d1 := (abs_le.mp hd).1
  have d2 := (abs_le.mp hd).2
  norm_num at d1 d2
  have hg : Good (lumaFloat n) := luma_good n
  have s0 : 1 ≤ ((n : ℝ) - 16) / 219 := by linarith
  have s1 : ((n : ℝ) - 16) / 219 ≤ 11 / 10 := by linarith
  have X0 : ((0 : ℚ) : ℝ) ≤ X := by push_cast; linarith
  have X1 : (X : ℝ) ≤ ((22 / 10 : ℚ) : ℝ) := by push_cast; linarith
  have X0' : 0 ≤ X := by exact_mod_cast X0
  have X1' : X ≤ 22 / 10 := by exact_mod_cast X1
  have hw := white_light he ht
  have z1 : (0 : ℝ) ≤ 1 := by norm_num
  have sgn : SignedTransfer t → decodeTransfer rr t 1 ≤ decodeTransfer rr t (((n : ℝ) - 16) / 219) →
      ∃ L, App (decodeTransfer ar t (lumaFloat n)) L (42 / 10 ^ 6) ∧ 999 / 1000 ≤ L ∧ L ≤ 67 / 10 := fun ht hmono =>
    ⟨_, dec_signed_app he hf ht hX hg (by linarith) X1' (by linarith) hd fun h => absurd h (not_lt.mpr X0'), hw.trans hmono,
      (abs_le.mp (dec_wide_range he ht (by linarith) (by linarith))).2⟩
  have rng : InRange t (((n : ℝ) - 16) / 219) → decodeTransfer rr t 1 ≤ decodeTransfer rr t (((n : ℝ) - 16) / 219) →
      ∃ L, App (decodeTransfer ar t (lumaFloat n)) L (42 / 10 ^ 6) ∧ 999 / 1000 ≤ L ∧ L ≤ 67 / 10 := fun ht hmono =>
    ⟨_, (dec_range_app he hf ht hX hg hd).1, hw.trans hmono, (abs_le.mp (dec_range_app he hf ht hX hg hd).2).2⟩
  generalize ((n : ℝ) - 16) / 219 = s at *
  cases t with
  | Linear => exact sgn (.inl rfl) s0
  | SRGB => exact sgn (.inr (.inl rfl)) (dec_srgb_mono he z1 s0)
  | SDR => exact sgn (.inr (.inr rfl)) (dec_sdr_mono he z1 s0)
  | Gamma22 => exact rng (.inl ⟨.inl rfl, by norm_num; linarith, by linarith⟩) (gamma_mono he z1 s0).2.1
  | Gamma28 => exact rng (.inl ⟨.inr rfl, by norm_num; linarith, by linarith⟩) (gamma_mono he z1 s0).2.2
  | BT2100HLG => exact rng (.inr ⟨rfl, s1⟩) (dec_hlg_mono he s0)
  | BT2100PQ => exact absurd rfl ht

/-- **C77**, black. A pixel of an 8-bit limited-range YUV image whose luma is 16 and whose chroma samples are 128 becomes exactly black in
an RGB image, whatever transfer functions, primaries and matrix, on every platform and in every column. -/
theorem C77_black (r : Run (p.real scalar) src dst sps dps m m') (ha : scalar.Accurate) (hs : isYuv src.format = true)
    (hd : isYuv dst.format = false) {i : YuvColorInfo} (hi : src.color = .YUV i)
    (hcs : i.space = .BT601 ∨ i.space = .BT709 ∨ i.space = .BT2020) (hr : i.fullRange = false) (h8 : sampleBits src.format = 8)
    {x y : Nat} (hx : x < dst.width) (hy : y < dst.height) (hY : shown src.format sps m .Y x y = 16)
    (hU : shown src.format sps m .U x y = 128) (hV : shown src.format sps m .V x y = 128) {c : Chan} (hc : c = .R ∨ c = .G ∨ c = .B) :
    sample dst.format dps m' c x y = some 0 := by
  have hm : isMatrix i.space = true := by rcases hcs with h | h | h <;> rw [h] <;> rfl
  by_cases hne : src.color.transfer = dst.color.transfer ∧ src.color.primaries = dst.color.primaries
  · have ht : i.transfer = dst.color.transfer := by rw [← hne.1, hi]; rfl
    have hp : i.primaries = dst.color.primaries := by rw [← hne.2, hi]; rfl
    obtain ⟨n, hn, hcode⟩ := C76_same_partial r hs hd hi ht hp hcs hr h8 hx hy hU hV
    rw [hn c hc]
    congr 1
    rw [hY] at hcode
    have cl : clamp255 (255 * (((16 : Nat) : ℝ) - 16) / 219) = 0 := by norm_num [clamp255]
    rw [cl] at hcode
    have : (n : ℝ) < ((1 : Nat) : ℝ) := by
      by_cases ht : Truncates p dst.width x
      · have := (hcode.2 ht).1
        norm_num at this; push_cast; linarith
      · have := (abs_le.mp (hcode.1 ht)).2
        norm_num at this; push_cast; linarith
    have : n < 1 := by exact_mod_cast this
    omega
  have hf := column_floats p ha dst.width x
  rw [video_value r hs hd hi hne hm hr h8 hx hy hU hV hc]
  beta_reduce
  rw [hY]
  have e : lumaFloat 16 = (columnArith (p.real scalar) dst.width x).div (FOps.ofNat 0) (FOps.ofNat 255) := by
    rw [hf.div]; decide +kernel
  rw [e]
  obtain ⟨a, a0, da, hcode⟩ := grey_code_value ha src.color.primaries dst.color.primaries dst.color.transfer hd dst.width x hc
    (black_light (exactAr_exact x) hf src.color.transfer) (le_refl _) (by norm_num) (by norm_num) fun _ => .inl (by norm_num)
  congr 1
  generalize stored p (p.libm scalar) scalar dst.width x .interleaved8 _ = k at *
  have a1 : a ≤ 11 / 10 ^ 9 := by
    have := (abs_le.mp da).2
    rw [max_self, max_eq_left (by norm_num)] at this
    norm_num at this ⊢
    linarith
  have hb := enc_black (exactAr_exact x) dst.color.transfer a0 a1
  have cl : clamp255 (encodeTransfer (exactAr x) dst.color.transfer a * 255) ≤ 4335 / 10 ^ 4 := by
    unfold clamp255
    refine max_le (by norm_num) (min_le_of_right_le ?_)
    norm_num at hb ⊢; linarith
  have : (k : ℝ) < ((1 : ℕ) : ℝ) := by
    by_cases ht : Truncates p dst.width x
    · have := (hcode.2 ht).1
      norm_num at this cl; push_cast; linarith
    · have := (abs_le.mp (hcode.1 ht)).2
      norm_num at this cl; push_cast; linarith
  have : k < 1 := by exact_mod_cast this
  omega

/-- **C77**, white (partial: PQ destinations only without a change, the white of the other functions is dark in the unit of light of PQ,
see `C49_white_to_pq`; PQ sources in a change only with the luma 235, and not to `Linear` where stores round, see `C50_linear_black`;
where stores truncate the code may be 254). A pixel of an 8-bit limited-range YUV image whose luma is at least 235 and whose chroma
samples are 128 becomes white. -/
theorem C77_white_partial (r : Run (p.real scalar) src dst sps dps m m') (ha : scalar.Accurate) (hs : isYuv src.format = true)
    (hd : isYuv dst.format = false) {i : YuvColorInfo} (hi : src.color = .YUV i)
    (hcs : i.space = .BT601 ∨ i.space = .BT709 ∨ i.space = .BT2020) (hr : i.fullRange = false) (h8 : sampleBits src.format = 8)
    (hpq : dst.color.transfer = .BT2100PQ → src.color.transfer = .BT2100PQ ∧ src.color.primaries = dst.color.primaries)
    {x y : Nat} (hx : x < dst.width) (hy : y < dst.height) (hY : 235 ≤ shown src.format sps m .Y x y)
    (hY' : src.color.transfer = .BT2100PQ → dst.color.transfer ≠ .BT2100PQ → shown src.format sps m .Y x y = 235)
    (hlin : src.color.transfer = .BT2100PQ → dst.color.transfer = .Linear → Truncates p dst.width x)
    (hU : shown src.format sps m .U x y = 128) (hV : shown src.format sps m .V x y = 128) {c : Chan} (hc : c = .R ∨ c = .G ∨ c = .B) :
    ∃ k, sample dst.format dps m' c x y = some k ∧ 254 ≤ k ∧ k ≤ 255 ∧ (¬ Truncates p dst.width x → k = 255) := by
  have hm : isMatrix i.space = true := by rcases hcs with h | h | h <;> rw [h] <;> rfl
  have hY1 : shown src.format sps m .Y x y ≤ 255 :=
    shown_le (by revert h8; cases src.format <;> simp [sampleBits, sampleBytes]) ..
  have hk255 : ∀ {k}, sample dst.format dps m' c x y = some k → k ≤ 255 := by
    intro k hk
    have := shown_le (rgb8 hd).1 dps m' c x y
    rw [shown, hk] at this
    exact this
  -- a code near 255
  have fin : ∀ {k : Nat} {C : ℝ}, sample dst.format dps m' c x y = some k → 2546 / 10 ≤ C → CodeOf p dst.width x (1 / 50) k C →
      ∃ k, sample dst.format dps m' c x y = some k ∧ 254 ≤ k ∧ k ≤ 255 ∧ (¬ Truncates p dst.width x → k = 255) := by
    intro k C hk cl hcode
    have h255 := hk255 hk
    refine ⟨k, hk, ?_, h255, fun ht => ?_⟩
    · have : ((253 : ℕ) : ℝ) < k := by
        by_cases ht : Truncates p dst.width x
        · have := (hcode.2 ht).2
          norm_num at this cl; push_cast; linarith
        · have := (abs_le.mp (hcode.1 ht)).1
          norm_num at this cl; push_cast; linarith
      have : 253 < k := by exact_mod_cast this
      omega
    · have : ((254 : ℕ) : ℝ) < k := by
        have := (abs_le.mp (hcode.1 ht)).1
        norm_num at this cl; push_cast; linarith
      have : 254 < k := by exact_mod_cast this
      omega
  by_cases hne : src.color.transfer = dst.color.transfer ∧ src.color.primaries = dst.color.primaries
  · have ht : i.transfer = dst.color.transfer := by rw [← hne.1, hi]; rfl
    have hp : i.primaries = dst.color.primaries := by rw [← hne.2, hi]; rfl
    obtain ⟨n, hn, hcode⟩ := C76_same_partial r hs hd hi ht hp hcs hr h8 hx hy hU hV
    have hYr : (235 : ℝ) ≤ shown src.format sps m .Y x y := by exact_mod_cast hY
    refine fin (hn c hc) (C := 255) (by norm_num) ?_
    have cl : clamp255 (255 * ((shown src.format sps m .Y x y : ℝ) - 16) / 219) = 255 := by
      unfold clamp255
      rw [min_eq_left (by linarith), max_eq_right (by norm_num)]
    rw [cl] at hcode
    exact ⟨fun h => (hcode.1 h).trans (by norm_num), fun h => ⟨(hcode.2 h).1.trans (by norm_num), by linarith [(hcode.2 h).2]⟩⟩
  have hdp : dst.color.transfer ≠ .BT2100PQ := fun h => hne ⟨by rw [(hpq h).1, h], (hpq h).2⟩
  have hf := column_floats p ha dst.width x
  have he := exactAr_exact x
  have val := video_value r hs hd hi hne hm hr h8 hx hy hU hV hc
  dsimp only at val
  obtain ⟨a, a1, hcode⟩ : ∃ a : ℝ, 9989 / 10 ^ 4 ≤ a ∧ CodeOf p dst.width x (1 / 50) (stored p (p.libm scalar) scalar dst.width x .interleaved8
      ((columnArith (p.real scalar) dst.width x).mul (encodeTransfer (columnArith (p.real scalar) dst.width x) dst.color.transfer
        (component (rowMul (columnArith (p.real scalar) dst.width x) (rowMul (columnArith (p.real scalar) dst.width x)
          (decodeTransfer (columnArith (p.real scalar) dst.width x) src.color.transfer (lumaFloat (shown src.format sps m .Y x y)),
          decodeTransfer (columnArith (p.real scalar) dst.width x) src.color.transfer (lumaFloat (shown src.format sps m .Y x y)),
          decodeTransfer (columnArith (p.real scalar) dst.width x) src.color.transfer (lumaFloat (shown src.format sps m .Y x y)))
        src.color.primaries.rgbToXyzMat) dst.color.primaries.xyzToRgbMat) c)) (maxSample dst.format)))
      (clamp255 (encodeTransfer (exactAr x) dst.color.transfer a * 255)) := by
    by_cases ht : src.color.transfer = .BT2100PQ
    · have e : lumaFloat (shown src.format sps m .Y x y) =
          (columnArith (p.real scalar) dst.width x).div (FOps.ofNat 255) (FOps.ofNat 255) := by
        rw [hY' ht hdp, hf.div]; decide +kernel
      rw [e]
      have h := light_pq_app he hf (le_refl 255)
      rw [← ht] at h
      have w := white_pq x
      rw [← ht] at w
      obtain ⟨a, a0, da, hcode⟩ := grey_code_value ha src.color.primaries dst.color.primaries dst.color.transfer hd dst.width x hc h.1 h.2.1
        (by have := h.2.2; norm_num at this ⊢; linarith) (by have := h.2.2; norm_num at this ⊢; linarith) fun h' => .inr (.inr (hlin ht h'))
      refine ⟨a, ?_, hcode⟩
      have h2 := h.2.2
      have := (abs_le.mp da).1
      rw [max_eq_right h.2.1, max_eq_right (by norm_num at w ⊢; linarith)] at this
      norm_num at this w h2 ⊢
      linarith
    · obtain ⟨L, hL, l0, l1⟩ := headroom_light he hf ht hY hY1
      obtain ⟨a, a0, da, hcode⟩ := grey_code_value ha src.color.primaries dst.color.primaries dst.color.transfer hd dst.width x hc hL
        (by linarith) (by norm_num) (by norm_num at l1 ⊢; linarith) fun _ => .inr (.inl (by norm_num at l1 ⊢; linarith))
      refine ⟨a, ?_, hcode⟩
      have := (abs_le.mp da).1
      rw [max_eq_right (by linarith), max_eq_right (by norm_num at l0 ⊢; linarith)] at this
      norm_num at this l0 l1 ⊢
      linarith
  have hw := Ezk.enc_white he hdp a1
  refine fin val ?_ hcode
  unfold clamp255
  refine le_max_of_le_right (le_min (by norm_num) ?_)
  norm_num at hw ⊢; linarith

/-! ## To YUV -/

/-- Video black and video white are read as exactly 0 and 1. -/
theorem video_read (hs : isYuv src.format = true) {i : YuvColorInfo} (hi : src.color = .YUV i) (hm : isMatrix i.space = true)
    (hr : i.fullRange = false) (h8 : sampleBits src.format = 8) {w x y n Y : Nat} (hY : shown src.format sps m .Y x y = Y)
    (hn : Y = 16 ∧ n = 0 ∨ Y = 235 ∧ n = 255) (hU : shown src.format sps m .U x y = 128) (hV : shown src.format sps m .V x y = 128)
    {c : Chan} (hc : c = .R ∨ c = .G ∨ c = .B) :
    readPic (columnArith (p.real scalar) w) src.format src.color (shown src.format sps m) c x y =
      (columnArith (p.real scalar) w x).div (FOps.ofNat n) (FOps.ofNat 255) := by
  have hcol : ∀ x, IsIeee (columnArith (p.real scalar) w x) := column_ieee p (p.libm scalar) scalar w
  have e1 : readPic (columnArith (p.real scalar) w) src.format src.color (shown src.format sps m) =
      decode (columnArith (p.real scalar) w) i (Spec.normalize (columnArith (p.real scalar) w) src.format (shown src.format sps m)) := by
    rw [hi]; simp [readPic, hs]
  rw [e1, decode_neutral hcol hm hr h8 (by rw [hY]; omega) hU hV hc, hY, (hcol x).div]
  rcases hn with ⟨rfl, rfl⟩ | ⟨rfl, rfl⟩ <;> decide +kernel

/-- Without a change of format and colour lumas stay as they are. -/
theorem kept_luma (r : Run (p.real scalar) src dst sps dps m m') (h8 : sampleBits src.format = 8)
    (hcopy : src.format = dst.format ∧ src.color = dst.color) {x y : Nat} (hx : x < dst.width) (hy : y < dst.height) {n : Nat} (h0 : n ≠ 0)
    (hn : shown src.format sps m .Y x y = n) : sample dst.format dps m' .Y x y = some n := by
  rw [C23_bytes_partial r hcopy.1 hcopy.2 (by revert h8; cases src.format <;> simp [sampleBits, sampleBytes]) hx hy]
  rw [shown] at hn
  cases h : sample src.format sps m .Y x y with
  | none => rw [h] at hn; exact absurd hn.symm h0
  | some k => rw [h] at hn; exact congrArg some hn

/-- **C77** from YUV to YUV, black (partial: no ICtCp; gamma destinations of another transfer function or primaries are left out, in
which black is not a number, see `C50_gamma_yuv_black`). Video black becomes the luma of black: with 8 bits the code 16 in limited
range, 0 in full range, where stores round, and at most one less elsewhere; with more bits up to one code and 0.2% of the range. -/
theorem C77_yuv_black_partial (r : Run (p.real scalar) src dst sps dps m m') (ha : scalar.Accurate) (hs : isYuv src.format = true)
    (hd : isYuv dst.format = true) {i j : YuvColorInfo} (hi : src.color = .YUV i) (hm : isMatrix i.space = true) (hr : i.fullRange = false)
    (h8 : sampleBits src.format = 8) (hj : dst.color = .YUV j) (hm' : isMatrix j.space = true)
    (hg : ¬ (src.color.transfer = dst.color.transfer ∧ src.color.primaries = dst.color.primaries) → ¬ GammaTransfer j.transfer)
    {x y : Nat} (hx : x < dst.width) (hy : y < dst.height) (hY : shown src.format sps m .Y x y = 16)
    (hU : shown src.format sps m .U x y = 128) (hV : shown src.format sps m .V x y = 128) :
    ∃ k : Nat, sample dst.format dps m' .Y x y = some k ∧
      |(k : ℚ) - (if j.fullRange then 0 else 16) / 255 * (2 ^ sampleBits dst.format - 1 : Nat)| <
        1 + 2 / 1000 * (2 ^ sampleBits dst.format - 1 : Nat) ∧
      (sampleBits dst.format = 8 → k ≤ (if j.fullRange then 0 else 16) ∧ (if j.fullRange then 0 else 16) ≤ k + 1 ∧
        (¬ Truncates p dst.width x → k = if j.fullRange then 0 else 16)) := by
  by_cases hcopy : src.format = dst.format ∧ src.color = dst.color
  · refine ⟨16, kept_luma r h8 hcopy hx hy (by norm_num) hY, ?_⟩
    obtain rfl : i = j := by have := hcopy.2; rw [hi, hj] at this; injection this
    rw [← hcopy.1, hr, depth_255 h8]
    norm_num
  · exact black_luma r ha hcopy hd hj hm' hg hx hy fun _ hc => video_read hs hi hm hr h8 hY (.inl ⟨rfl, rfl⟩) hU hV hc

/-- **C77** from YUV to YUV, white (partial: BT.601 and BT.709 destinations, see `C74_yuv_white_false` for BT.2020; in a change neither
the source nor the destination in PQ). Video white becomes the luma of white: with 8 bits the code 235 in limited range, 255 in full
range, where stores round, and at most one less elsewhere; with more bits up to one code and 0.2% of the range. -/
theorem C77_yuv_white_partial (r : Run (p.real scalar) src dst sps dps m m') (ha : scalar.Accurate) (hs : isYuv src.format = true)
    (hd : isYuv dst.format = true) {i j : YuvColorInfo} (hi : src.color = .YUV i) (hm : isMatrix i.space = true) (hr : i.fullRange = false)
    (h8 : sampleBits src.format = 8) (hj : dst.color = .YUV j) (hcs : j.space = .BT601 ∨ j.space = .BT709)
    (hpq : ¬ (src.color.transfer = dst.color.transfer ∧ src.color.primaries = dst.color.primaries) →
      src.color.transfer ≠ .BT2100PQ ∧ j.transfer ≠ .BT2100PQ)
    {x y : Nat} (hx : x < dst.width) (hy : y < dst.height) (hY : shown src.format sps m .Y x y = 235)
    (hU : shown src.format sps m .U x y = 128) (hV : shown src.format sps m .V x y = 128) :
    ∃ k : Nat, sample dst.format dps m' .Y x y = some k ∧
      |(k : ℚ) - (if j.fullRange then 255 else 235) / 255 * (2 ^ sampleBits dst.format - 1 : Nat)| <
        1 + 2 / 1000 * (2 ^ sampleBits dst.format - 1 : Nat) ∧
      (sampleBits dst.format = 8 → k ≤ (if j.fullRange then 255 else 235) ∧ (if j.fullRange then 255 else 235) ≤ k + 1 ∧
        (¬ Truncates p dst.width x → k = if j.fullRange then 255 else 235)) := by
  have hm' : isMatrix j.space = true := by rcases hcs with h | h <;> rw [h] <;> rfl
  by_cases hcopy : src.format = dst.format ∧ src.color = dst.color
  · refine ⟨235, kept_luma r h8 hcopy hx hy (by norm_num) hY, ?_⟩
    obtain rfl : i = j := by have := hcopy.2; rw [hi, hj] at this; injection this
    rw [← hcopy.1, hr, depth_255 h8]
    norm_num
  · exact white_luma r ha hcopy hd hj hcs hpq hx hy fun _ hc => video_read hs hi hm hr h8 hY (.inr ⟨rfl, rfl⟩) hU hV hc

/-- C77 is false for YUV destinations in BT.2020: unless neither format nor colour change, video white always becomes a grey, with 8 bits
at most 165 — even when an image is only repacked, say from I420 to NV12. -/
theorem C77_yuv_white_false (r : Run (p.real scalar) src dst sps dps m m') (ha : scalar.Accurate) (hs : isYuv src.format = true)
    (hd : isYuv dst.format = true) {i j : YuvColorInfo} (hi : src.color = .YUV i) (hm : isMatrix i.space = true) (hr : i.fullRange = false)
    (h8 : sampleBits src.format = 8) (hj : dst.color = .YUV j) (hcs : j.space = .BT2020)
    (hcopy : ¬ (src.format = dst.format ∧ src.color = dst.color))
    (hpq : ¬ (src.color.transfer = dst.color.transfer ∧ src.color.primaries = dst.color.primaries) →
      src.color.transfer ≠ .BT2100PQ ∧ j.transfer ≠ .BT2100PQ)
    {x y : Nat} (hx : x < dst.width) (hy : y < dst.height) (hY : shown src.format sps m .Y x y = 235)
    (hU : shown src.format sps m .U x y = 128) (hV : shown src.format sps m .V x y = 128) :
    ∃ k : Nat, sample dst.format dps m' .Y x y = some k ∧ (k : ℚ) ≤ 165 / 255 * (2 ^ sampleBits dst.format - 1 : Nat) + 1 / 2 :=
  white_luma_2020 r ha hcopy hd hj hcs hpq hx hy fun _ hc => video_read hs hi hm hr h8 hY (.inr ⟨rfl, rfl⟩) hU hV hc

/-! ## Examples -/

/-- A picture of video black (luma 16) in HLG becomes black, one of video white with headroom (luma 240) white, in sRGB on AVX2. -/
example : ∃ (scalar : Libm) (mo mo' : Mem), scalar.Accurate ∧ sample .RGBA [⟨⟨400, 256⟩, 128⟩] mo .G 7 1 = some 0 ∧
    sample .RGBA [⟨⟨400, 256⟩, 128⟩] mo' .G 7 1 = some 255 := by
  obtain ⟨scalar, ha⟩ := libm_exists
  obtain ⟨mo, r⟩ := run_exists (c := Platform.avx2.real scalar) (platform_lawful .avx2 _ _)
    (src := .raw .I420 32 2 [⟨⟨0, 64⟩, 32⟩, ⟨⟨100, 16⟩, 16⟩, ⟨⟨200, 16⟩, 16⟩] (.YUV ⟨.BT2100HLG, .BT2020, .BT2020, false⟩))
    (dst := .raw .RGBA 32 2 [⟨⟨400, 256⟩, 128⟩] (.RGB ⟨.SRGB, .BT709⟩))
    (sps := [⟨⟨0, 64⟩, 32⟩, ⟨⟨100, 16⟩, 16⟩, ⟨⟨200, 16⟩, 16⟩]) (dps := [⟨⟨400, 256⟩, 128⟩]) rfl rfl
    (planesDisjoint_of (by decide)) (separate_of (by decide)) (uniform_of (by decide)) (by decide) fun a => if a < 64 then 16 else 128
  obtain ⟨mo', r'⟩ := run_exists (c := Platform.avx2.real scalar) (platform_lawful .avx2 _ _)
    (src := .raw .I420 32 2 [⟨⟨0, 64⟩, 32⟩, ⟨⟨100, 16⟩, 16⟩, ⟨⟨200, 16⟩, 16⟩] (.YUV ⟨.BT2100HLG, .BT2020, .BT2020, false⟩))
    (dst := .raw .RGBA 32 2 [⟨⟨400, 256⟩, 128⟩] (.RGB ⟨.SRGB, .BT709⟩))
    (sps := [⟨⟨0, 64⟩, 32⟩, ⟨⟨100, 16⟩, 16⟩, ⟨⟨200, 16⟩, 16⟩]) (dps := [⟨⟨400, 256⟩, 128⟩]) rfl rfl
    (planesDisjoint_of (by decide)) (separate_of (by decide)) (uniform_of (by decide)) (by decide) fun a => if a < 64 then 240 else 128
  have h := C77_black r ha rfl rfl rfl (by simp) rfl rfl (x := 7) (y := 1) (by decide) (by decide) (by decide) (by decide) (by decide)
    (c := .G) (by simp)
  obtain ⟨k, hk, -, -, h'⟩ := C77_white_partial r' ha rfl rfl rfl (by simp) rfl rfl (x := 7) (y := 1) nofun (by decide) (by decide) (by decide)
    nofun nofun (by decide) (by decide) (c := .G) (by simp)
  refine ⟨scalar, mo, mo', ha, h, hk.trans ?_⟩
  rw [h' (by
    rintro (h | h | h)
    · cases h
    · cases h
    · exact absurd (by decide) h)]

/-- The same pictures made SDR images in 4:2:2 on AVX2. -/
example : ∃ (scalar : Libm) (mo mo' : Mem), scalar.Accurate ∧
    sample .I422 [⟨⟨400, 64⟩, 32⟩, ⟨⟨500, 32⟩, 16⟩, ⟨⟨600, 32⟩, 16⟩] mo .Y 7 1 = some 16 ∧
    sample .I422 [⟨⟨400, 64⟩, 32⟩, ⟨⟨500, 32⟩, 16⟩, ⟨⟨600, 32⟩, 16⟩] mo' .Y 7 1 = some 235 := by
  obtain ⟨scalar, ha⟩ := libm_exists
  obtain ⟨mo, r⟩ := run_exists (c := Platform.avx2.real scalar) (platform_lawful .avx2 _ _)
    (src := .raw .I420 32 2 [⟨⟨0, 64⟩, 32⟩, ⟨⟨100, 16⟩, 16⟩, ⟨⟨200, 16⟩, 16⟩] (.YUV ⟨.BT2100HLG, .BT2020, .BT2020, false⟩))
    (dst := .raw .I422 32 2 [⟨⟨400, 64⟩, 32⟩, ⟨⟨500, 32⟩, 16⟩, ⟨⟨600, 32⟩, 16⟩] (.YUV ⟨.SDR, .BT709, .BT709, false⟩))
    (sps := [⟨⟨0, 64⟩, 32⟩, ⟨⟨100, 16⟩, 16⟩, ⟨⟨200, 16⟩, 16⟩]) (dps := [⟨⟨400, 64⟩, 32⟩, ⟨⟨500, 32⟩, 16⟩, ⟨⟨600, 32⟩, 16⟩]) rfl rfl
    (planesDisjoint_of (by decide)) (separate_of (by decide)) (uniform_of (by decide)) (by decide) fun a => if a < 64 then 16 else 128
  obtain ⟨mo', r'⟩ := run_exists (c := Platform.avx2.real scalar) (platform_lawful .avx2 _ _)
    (src := .raw .I420 32 2 [⟨⟨0, 64⟩, 32⟩, ⟨⟨100, 16⟩, 16⟩, ⟨⟨200, 16⟩, 16⟩] (.YUV ⟨.BT2100HLG, .BT2020, .BT2020, false⟩))
    (dst := .raw .I422 32 2 [⟨⟨400, 64⟩, 32⟩, ⟨⟨500, 32⟩, 16⟩, ⟨⟨600, 32⟩, 16⟩] (.YUV ⟨.SDR, .BT709, .BT709, false⟩))
    (sps := [⟨⟨0, 64⟩, 32⟩, ⟨⟨100, 16⟩, 16⟩, ⟨⟨200, 16⟩, 16⟩]) (dps := [⟨⟨400, 64⟩, 32⟩, ⟨⟨500, 32⟩, 16⟩, ⟨⟨600, 32⟩, 16⟩]) rfl rfl
    (planesDisjoint_of (by decide)) (separate_of (by decide)) (uniform_of (by decide)) (by decide) fun a => if a < 64 then 235 else 128
  have ht : ¬ Truncates .avx2 32 7 := by
    rintro (h | h | h)
    · cases h
    · cases h
    · exact absurd (by decide) h
  obtain ⟨k, hk, -, h⟩ := C77_yuv_black_partial r ha rfl rfl rfl rfl rfl rfl rfl rfl (by rintro - (h | h) <;> cases h) (x := 7) (y := 1)
    (by decide) (by decide) (by decide) (by decide) (by decide)
  obtain ⟨k', hk', -, h'⟩ := C77_yuv_white_partial r' ha rfl rfl rfl rfl rfl rfl rfl (.inr rfl) (fun _ => ⟨nofun, nofun⟩) (x := 7) (y := 1)
    (by decide) (by decide) (by decide) (by decide) (by decide)
  refine ⟨scalar, mo, mo', ha, hk.trans ?_, hk'.trans ?_⟩
  · rw [(h rfl).2.2 ht]; rfl
  · rw [(h' rfl).2.2 ht]; rfl

/-- A white BT.2020 picture repacked from I420 to NV12 on AVX2 turns grey. -/
example : ∃ (scalar : Libm) (mo : Mem) (k : Nat), scalar.Accurate ∧
    sample .NV12 [⟨⟨400, 64⟩, 32⟩, ⟨⟨500, 32⟩, 32⟩] mo .Y 7 1 = some k ∧ k ≤ 165 := by
  obtain ⟨scalar, ha⟩ := libm_exists
  obtain ⟨mo, r⟩ := run_exists (c := Platform.avx2.real scalar) (platform_lawful .avx2 _ _)
    (src := .raw .I420 32 2 [⟨⟨0, 64⟩, 32⟩, ⟨⟨100, 16⟩, 16⟩, ⟨⟨200, 16⟩, 16⟩] (.YUV ⟨.SDR, .BT2020, .BT2020, false⟩))
    (dst := .raw .NV12 32 2 [⟨⟨400, 64⟩, 32⟩, ⟨⟨500, 32⟩, 32⟩] (.YUV ⟨.SDR, .BT2020, .BT2020, false⟩))
    (sps := [⟨⟨0, 64⟩, 32⟩, ⟨⟨100, 16⟩, 16⟩, ⟨⟨200, 16⟩, 16⟩]) (dps := [⟨⟨400, 64⟩, 32⟩, ⟨⟨500, 32⟩, 32⟩]) rfl rfl
    (planesDisjoint_of (by decide)) (separate_of (by decide)) (uniform_of (by decide)) (by decide) fun a => if a < 64 then 235 else 128
  obtain ⟨k, hk, h⟩ := C77_yuv_white_false r ha rfl rfl rfl rfl rfl rfl rfl rfl (fun h => nomatch h.1) (fun _ => ⟨nofun, nofun⟩) (x := 7) (y := 1)
    (by decide) (by decide) (by decide) (by decide) (by decide)
  refine ⟨scalar, mo, k, ha, hk, ?_⟩
  norm_num [sampleBits, Img.format] at h
  have : (k : ℚ) < (166 : Nat) := by push_cast; linarith
  have : k < 166 := by exact_mod_cast this
  omega

end Ezk.Props

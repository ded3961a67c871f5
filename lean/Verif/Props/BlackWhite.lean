import Verif.Proofs.BlackWhite
import Verif.Props.Grey
import Verif.Props.Lossless

/-!
# C74: black stays black, white stays white
-/

namespace Ezk.Props
open Ezk Ezk.F32 Ezk.Spec

attribute [local instance] ratOps

variable {p : Platform} {scalar : Libm} {src dst : Img} {sps dps : List Plane} {m m' : Mem}

theorem rgb_locs {f g : PixelFormat} (hs : isYuv f = false) (hd : isYuv g = false) {c : Chan} (hc : c = .R ∨ c = .G ∨ c = .B) (x y : Nat) :
    (∃ l, sampleLoc f c x y = some l) ∧ ∃ l, sampleLoc g c x y = some l := by
  revert hs hd; rcases hc with rfl | rfl | rfl <;> cases f <;> cases g <;> simp [isYuv, sampleLoc]

/-- A full signal is white light, except for PQ. -/
theorem white_light {rr : Arith ℝ} (he : Exact rr) {t : ColorTransfer} (ht : t ≠ .BT2100PQ) : 999 / 1000 ≤ decodeTransfer rr t 1 := by
  cases t with
  | Linear => simp only [decodeTransfer]; norm_num
  | Gamma22 => rw [dec_gamma22 he, Real.one_rpow]; norm_num
  | Gamma28 => rw [dec_gamma28 he, Real.one_rpow]; norm_num
  | SRGB => rw [dec_srgb he, if_neg (by norm_num)]; norm_num
  | SDR =>
    rw [dec_sdr he, if_neg (by norm_num)]
    have l1 : (1 : ℝ) ≤ ((1 + 0.0993) / 1.099) ^ (1 / 0.45 : ℝ) := by
      rw [le_rpow_iff (m := 20) (n := 9) (by norm_num) (by norm_num) (by norm_num) (by norm_num)]; norm_num
    exact le_trans (by norm_num) l1
  | BT2100PQ => exact absurd rfl ht
  | BT2100HLG =>
    rw [dec_hlg he, max_eq_left (by norm_num), if_neg (by norm_num)]
    have e : Real.exp ((1 - 0.5599107) / 0.17883277) = Real.exp ((1 - 0.5599107) / 0.17883277 / 4) ^ 4 := by
      rw [← Real.exp_nat_mul]; norm_num
    have l1 : (1.8497 : ℝ) ≤ Real.exp ((1 - 0.5599107) / 0.17883277 / 4) := by
      refine le_exp (by rw [abs_le]; norm_num) ?_
      rw [abs_of_pos (by norm_num)]; norm_num
    have l3 := pow_le_pow_left₀ (by norm_num) l1 4
    rw [e]
    generalize Real.exp ((1 - 0.5599107) / 0.17883277 / 4) ^ 4 = z at *
    norm_num at l3 ⊢
    linarith

/-- What becomes of the light `l` of a grey pixel: every component is the code of the encoding of a light `a`, which is nearly `l`. -/
theorem grey_code_value (ha : scalar.Accurate) (sp dp : ColorPrimaries) (t : ColorTransfer) {f : PixelFormat} (hd : isYuv f = false)
    (w x : Nat) {c : Chan} (hc : c = .R ∨ c = .G ∨ c = .B) {l : F32} {L E : ℝ}
    (hL : App l L E) (h0 : 0 ≤ L) (hE : E ≤ 6) (hLE : L + E ≤ 10010) (hlin : t = .Linear → L ≤ 2 ∧ E ≤ 1 ∨ L + E ≤ 100 ∨ Truncates p w x) :
    ∃ a : ℝ, 0 ≤ a ∧ |a - max 0 L| ≤ E + 35 / 10 ^ 7 * max (1 / 10 ^ 4) (L + E) + 1 / 10 ^ 8 ∧
      CodeOf p w x (1 / 50) (stored p (p.libm scalar) scalar w x .interleaved8 ((columnArith (p.real scalar) w x).mul
        (encodeTransfer (columnArith (p.real scalar) w x) t (component (rowMul (columnArith (p.real scalar) w x) (rowMul
          (columnArith (p.real scalar) w x) (l, l, l) sp.rgbToXyzMat) dp.xyzToRgbMat) c)) (maxSample f)))
        (clamp255 (encodeTransfer (exactAr x) t a * 255)) := by
  have hf := column_floats p ha w x
  have he := exactAr_exact x
  have E0 := hL.nonneg
  obtain ⟨q, hq, dq⟩ := hL.is
  have dq' := abs_le.mp dq
  have qa : |(q : ℝ)| ≤ L + E := abs_le.mpr ⟨by linarith, by linarith⟩
  have hS2 : max (1 / 10 ^ 4) (L + E) ≤ 10010 := max_le (by norm_num) hLE
  have hS3 : L + E ≤ 100 → max (1 / 10 ^ 4) (L + E) ≤ 100 := fun h => max_le (by norm_num) h
  set S := max (1 / 10 ^ 4) (L + E) with hS
  obtain ⟨m1, m2, m3⟩ := mix_grey_app he hf.toIsIeee sp dp hq (S := S) (le_max_left _ _)
    (hS2.trans (by norm_num)) (qa.trans (le_max_right _ _))
  obtain ⟨c1, c2⟩ : App (component (rowMul (columnArith (p.real scalar) w x) (rowMul (columnArith (p.real scalar) w x) (l, l, l)
        sp.rgbToXyzMat) dp.xyzToRgbMat) c) q (35 / 10 ^ 7 * S) ∧
      Good (component (rowMul (columnArith (p.real scalar) w x) (rowMul (columnArith (p.real scalar) w x) (l, l, l)
        sp.rgbToXyzMat) dp.xyzToRgbMat) c) := by
    rcases hc with rfl | rfl | rfl
    · exact ⟨m1, good_dot hf.toIsIeee⟩
    · exact ⟨m2, good_dot hf.toIsIeee⟩
    · exact ⟨m3, good_dot hf.toIsIeee⟩
  generalize component (rowMul (columnArith (p.real scalar) w x) (rowMul (columnArith (p.real scalar) w x) (l, l, l)
        sp.rgbToXyzMat) dp.xyzToRgbMat) c = v at c1 c2 ⊢
  obtain ⟨X, hX, dX⟩ := c1.is
  have dX' := abs_le.mp dX
  have d1 := dX'.1
  have d2 := dX'.2
  have e1 : 35 / 10 ^ 7 * S ≤ 1 := by norm_num; linarith
  have X1 : ((-19900 : ℚ) : ℝ) ≤ X := by push_cast; linarith
  have X2 : (X : ℝ) ≤ ((19900 : ℚ) : ℝ) := by push_cast; linarith
  obtain ⟨a, a0, da, ea⟩ := enc_any he hf t hX c2 (by exact_mod_cast X1) (by exact_mod_cast X2)
  have far : |a - max 0 L| ≤ E + 35 / 10 ^ 7 * S + 1 / 10 ^ 8 := by
    have h1 : |max 0 (X : ℝ) - max 0 L| ≤ |(X : ℝ) - L| := by
      rw [max_comm 0, max_comm 0]; exact abs_max_sub_max_le_abs _ _ 0
    have h2 := abs_sub_le a (max 0 (X : ℝ)) (max 0 L)
    have h3 := abs_sub_le (X : ℝ) q L
    linarith
  refine ⟨a, a0, far, codeOf_encodes ea p _ _ _ _ hd fun h => ?_⟩
  have h4 := (abs_le.mp far).2
  rw [max_eq_right h0] at h4
  rcases hlin h with ⟨l2, e2⟩ | l3 | ht
  · left
    norm_num at h4
    linarith
  · left
    have := hS3 l3
    norm_num at h4
    linarith
  · exact .inr ht

/-- The codes of a grey pixel of an RGB image in another transfer function or with other primaries. -/
theorem grey_code (r : Run (p.real scalar) src dst sps dps m m') (ha : scalar.Accurate) (hs : isYuv src.format = false)
    (hd : isYuv dst.format = false) (hne : ¬ (src.color.transfer = dst.color.transfer ∧ src.color.primaries = dst.color.primaries))
    {c : Chan} (hc : c = .R ∨ c = .G ∨ c = .B) {x y n : Nat} (hx : x < dst.width) (hy : y < dst.height)
    (hn : ∀ c, c = .R ∨ c = .G ∨ c = .B → shown src.format sps m c x y = n) {L E : ℝ}
    (hL : App (decodeTransfer (columnArith (p.real scalar) dst.width x) src.color.transfer
      ((columnArith (p.real scalar) dst.width x).div (FOps.ofNat n) (FOps.ofNat 255))) L E) (h0 : 0 ≤ L) (hE : E ≤ 6) (hLE : L + E ≤ 10010)
    (hlin : dst.color.transfer = .Linear → L ≤ 2 ∧ E ≤ 1 ∨ Truncates p dst.width x) :
    ∃ (k : Nat) (a : ℝ), sample dst.format dps m' c x y = some k ∧ 0 ≤ a ∧
      |a - max 0 L| ≤ E + 35 / 10 ^ 7 * max (1 / 10 ^ 4) (L + E) + 1 / 10 ^ 8 ∧
      CodeOf p dst.width x (1 / 50) k (clamp255 (encodeTransfer (exactAr x) dst.color.transfer a * 255)) := by
  rw [change_value r hs hd hne hc hx hy]
  beta_reduce
  rw [hn .R (by simp), hn .G (by simp), hn .B (by simp)]
  obtain ⟨a, h⟩ := grey_code_value ha src.color.primaries dst.color.primaries dst.color.transfer hd dst.width x hc hL h0 hE hLE
    fun h => (hlin h).imp_right .inr
  exact ⟨_, a, rfl, h⟩

/-- **C74**, black: a black pixel of an RGB image stays exactly black, whatever transfer function, primaries and format the
destination has, on every platform and in every column. -/
theorem C74_black (r : Run (p.real scalar) src dst sps dps m m') (ha : scalar.Accurate) (hs : isYuv src.format = false)
    (hd : isYuv dst.format = false) {c : Chan} (hc : c = .R ∨ c = .G ∨ c = .B) {x y : Nat} (hx : x < dst.width) (hy : y < dst.height)
    (hn : ∀ c, c = .R ∨ c = .G ∨ c = .B → sample src.format sps m c x y = some 0) :
    sample dst.format dps m' c x y = some 0 := by
  by_cases hne : src.color.transfer = dst.color.transfer ∧ src.color.primaries = dst.color.primaries
  · obtain ⟨h1, h2⟩ := rgb_locs hs hd hc x y
    rw [C24_same_light r hs hd hne.1 hne.2 hx hy h1 h2, hn c hc]
  have hn' : ∀ c, c = .R ∨ c = .G ∨ c = .B → shown src.format sps m c x y = 0 := fun c hc => by rw [shown, hn c hc]; rfl
  obtain ⟨k, a, hk, a0, da, hcode⟩ := grey_code r ha hs hd hne hc hx hy hn' (black_light (exactAr_exact x) (column_floats p ha dst.width x) _)
    (le_refl _) (by norm_num) (by norm_num) fun _ => .inl (by norm_num)
  rw [hk]
  congr 1
  have a1 : a ≤ 11 / 10 ^ 9 := by
    have := (abs_le.mp da).2
    rw [max_self, max_eq_left (by norm_num)] at this
    norm_num at this ⊢
    linarith
  have hb := enc_black (exactAr_exact x) dst.color.transfer a0 a1
  have cl : clamp255 (encodeTransfer (exactAr x) dst.color.transfer a * 255) ≤ 4335 / 10 ^ 4 := by
    unfold clamp255
    refine max_le (by norm_num) (min_le_of_right_le ?_)
    norm_num at hb ⊢; linarith
  have : (k : ℝ) < ((1 : ℕ) : ℝ) := by
    by_cases ht : Truncates p dst.width x
    · have := (hcode.2 ht).1
      norm_num at this cl; push_cast; linarith
    · have := (abs_le.mp (hcode.1 ht)).2
      norm_num at this cl; push_cast; linarith
  have : k < 1 := by exact_mod_cast this
  omega

/-- **C74**, white (partial: PQ destinations are left out, in whose unit of light the white of the other functions is dark, see
`C49_white_to_pq`, and PQ sources with `Linear` destinations on AVX2 and AVX-512, see `C50_linear_black`; where stores truncate
the code may be 254, see `C62_white_false`). A white pixel stays white: 255 where stores round, at least 254 elsewhere. -/
theorem C74_white_partial (r : Run (p.real scalar) src dst sps dps m m') (ha : scalar.Accurate) (hs : isYuv src.format = false)
    (hd : isYuv dst.format = false) (hpq : dst.color.transfer ≠ .BT2100PQ) {c : Chan} (hc : c = .R ∨ c = .G ∨ c = .B) {x y : Nat}
    (hx : x < dst.width) (hy : y < dst.height)
    (hlin : src.color.transfer = .BT2100PQ → dst.color.transfer = .Linear → Truncates p dst.width x)
    (hn : ∀ c, c = .R ∨ c = .G ∨ c = .B → sample src.format sps m c x y = some 255) :
    ∃ k, sample dst.format dps m' c x y = some k ∧ 254 ≤ k ∧ k ≤ 255 ∧ (¬ Truncates p dst.width x → k = 255) := by
  have hk255 : ∀ {k}, sample dst.format dps m' c x y = some k → k ≤ 255 := by
    intro k hk
    have := shown_le (rgb8 hd).1 dps m' c x y
    rw [shown, hk] at this
    exact this
  by_cases hne : src.color.transfer = dst.color.transfer ∧ src.color.primaries = dst.color.primaries
  · obtain ⟨h1, h2⟩ := rgb_locs hs hd hc x y
    exact ⟨255, (C24_same_light r hs hd hne.1 hne.2 hx hy h1 h2).trans (hn c hc), by norm_num, by norm_num, fun _ => rfl⟩
  have hn' : ∀ c, c = .R ∨ c = .G ∨ c = .B → shown src.format sps m c x y = 255 := fun c hc => by rw [shown, hn c hc]; rfl
  have hf := column_floats p ha dst.width x
  have he := exactAr_exact x
  obtain ⟨k, a, hk, a1, hcode⟩ : ∃ (k : Nat) (a : ℝ), sample dst.format dps m' c x y = some k ∧ 9989 / 10 ^ 4 ≤ a ∧
      CodeOf p dst.width x (1 / 50) k (clamp255 (encodeTransfer (exactAr x) dst.color.transfer a * 255)) := by
    by_cases ht : src.color.transfer = .BT2100PQ
    · have h := light_pq_app he hf (le_refl 255)
      rw [← ht] at h
      have w := white_pq x
      rw [← ht] at w
      obtain ⟨k, a, hk, a0, da, hcode⟩ := grey_code r ha hs hd hne hc hx hy hn' h.1 h.2.1 (by have := h.2.2; norm_num at this ⊢; linarith)
        (by have := h.2.2; norm_num at this ⊢; linarith) fun h' => .inr (hlin ht h')
      refine ⟨k, a, hk, ?_, hcode⟩
      have h2 := h.2.2
      have := (abs_le.mp da).1
      rw [max_eq_right h.2.1, max_eq_right (by norm_num at w ⊢; linarith)] at this
      norm_num at this w h2 ⊢
      linarith
    · have h := light_app hf he ht (le_refl 255)
      have w : 999 / 1000 ≤ decodeTransfer (exactAr x) src.color.transfer (((255 : Nat) : ℝ) / 255) := by
        rw [show ((255 : Nat) : ℝ) / 255 = 1 by norm_num]
        exact white_light he ht
      obtain ⟨k, a, hk, a0, da, hcode⟩ := grey_code r ha hs hd hne hc hx hy hn' h.1 h.2.1 (by norm_num)
        (by have := h.2.2; norm_num at this ⊢; linarith) fun _ => .inl ⟨by linarith [h.2.2], by norm_num⟩
      refine ⟨k, a, hk, ?_, hcode⟩
      have h2 := h.2.2
      have := (abs_le.mp da).1
      rw [max_eq_right h.2.1, max_eq_right (by norm_num at w ⊢; linarith)] at this
      norm_num at this w h2 ⊢
      linarith
  have hw := enc_white he hpq a1
  have cl : 2546 / 10 ≤ clamp255 (encodeTransfer (exactAr x) dst.color.transfer a * 255) := by
    unfold clamp255
    refine le_max_of_le_right (le_min (by norm_num) ?_)
    norm_num at hw ⊢; linarith
  have h255 := hk255 hk
  refine ⟨k, hk, ?_, h255, fun ht => ?_⟩
  · have : ((253 : ℕ) : ℝ) < k := by
      by_cases ht : Truncates p dst.width x
      · have := (hcode.2 ht).2
        norm_num at this cl; push_cast; linarith
      · have := (abs_le.mp (hcode.1 ht)).1
        norm_num at this cl; push_cast; linarith
    have : 253 < k := by exact_mod_cast this
    omega
  · have : ((254 : ℕ) : ℝ) < k := by
      have := (abs_le.mp (hcode.1 ht)).1
      norm_num at this cl; push_cast; linarith
    have : 254 < k := by exact_mod_cast this
    omega

/-! ## Examples -/

/-- A black sRGB image of 32×2 pixels, converted to PQ with the primaries of BT.2020 by AVX2. -/
example : ∃ (scalar : Libm) (mo : Mem), scalar.Accurate ∧ sample .RGBA [⟨⟨400, 256⟩, 128⟩] mo .G 7 1 = some 0 := by
  obtain ⟨scalar, ha⟩ := libm_exists
  obtain ⟨mo, r⟩ := run_exists (c := Platform.avx2.real scalar) (platform_lawful .avx2 _ _)
    (src := .raw .RGB 32 2 [⟨⟨0, 200⟩, 96⟩] (.RGB ⟨.SRGB, .BT709⟩)) (dst := .raw .RGBA 32 2 [⟨⟨400, 256⟩, 128⟩] (.RGB ⟨.BT2100PQ, .BT2020⟩))
    (sps := [⟨⟨0, 200⟩, 96⟩]) (dps := [⟨⟨400, 256⟩, 128⟩]) rfl rfl
    (planesDisjoint_of (by decide)) (separate_of (by decide)) (uniform_of (by decide)) (by decide) fun _ => 0
  refine ⟨scalar, mo, ha, C74_black r ha rfl rfl (by simp) (x := 7) (y := 1) (by decide) (by decide) ?_⟩
  rintro c (rfl | rfl | rfl) <;> decide

/-- A white PQ image converted to `Gamma28`: exactly white in the vectors of AVX2. -/
example : ∃ (scalar : Libm) (mo : Mem), scalar.Accurate ∧ sample .RGBA [⟨⟨400, 256⟩, 128⟩] mo .G 7 1 = some 255 := by
  obtain ⟨scalar, ha⟩ := libm_exists
  obtain ⟨mo, r⟩ := run_exists (c := Platform.avx2.real scalar) (platform_lawful .avx2 _ _)
    (src := .raw .RGB 32 2 [⟨⟨0, 200⟩, 96⟩] (.RGB ⟨.BT2100PQ, .BT709⟩)) (dst := .raw .RGBA 32 2 [⟨⟨400, 256⟩, 128⟩] (.RGB ⟨.Gamma28, .BT2020⟩))
    (sps := [⟨⟨0, 200⟩, 96⟩]) (dps := [⟨⟨400, 256⟩, 128⟩]) rfl rfl
    (planesDisjoint_of (by decide)) (separate_of (by decide)) (uniform_of (by decide)) (by decide) fun _ => 255
  obtain ⟨k, hk, -, -, h⟩ := C74_white_partial r ha rfl rfl nofun (c := .G) (by simp) (x := 7) (y := 1) (by decide) (by decide)
    (by simp [Img.color, ColorInfo.transfer]) (by rintro c (rfl | rfl | rfl) <;> decide)
  refine ⟨scalar, mo, ha, hk.trans (congrArg some (h ?_))⟩
  rintro (h | h | h)
  · cases h
  · cases h
  · exact h (by decide)

end Ezk.Props

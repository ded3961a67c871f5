import Verif.Proofs.LinearTrip
import Verif.Props.Gamut
import Verif.Props.ToneCurve

/-!
# C84: images in linear light survive other transfer functions
-/

namespace Ezk.Props
open FOps Spec F32 PixelFormat

variable {p p2 : Platform} {scalar scalar2 : Libm} {src mid dst : Img} {sps mps dps : List Plane} {m m' m'' : Mem}

/-- By how much a code may be off after the round trip if all stores round. HLG has the steepest decoder. -/
def tripNear (t : ColorTransfer) : Nat := if t = .BT2100HLG then 3 else 1

/-- By how much a code may be too small if stores truncate. -/
def tripFar (t : ColorTransfer) : Nat := if t = .BT2100HLG then 6 else 3

/-- Bounds of real numbers as bounds of codes. -/
theorem codes_le {a b j : Nat} {z : ℝ} (h : (a : ℝ) < b + z) (hz : z ≤ j + 1) : a ≤ b + j := by
  have : (a : ℝ) < ((b + (j + 1) : Nat) : ℝ) := by push_cast; linarith
  have : a < b + (j + 1) := by exact_mod_cast this
  omega

/-- The codes in between and at the end, with how far the ones in between may be below and above. -/
theorem trip_codes (r1 : Run (p.real scalar) src mid sps mps m m') (r2 : Run (p2.real scalar2) mid dst mps dps m' m'') (ha : scalar.Accurate)
    (ha2 : scalar2.Accurate) (hs : isYuv src.format = false) (hm : isYuv mid.format = false) (hd : isYuv dst.format = false)
    (hst : src.color.transfer = .Linear) (hmt : mid.color.transfer ≠ .Linear) (hmq : mid.color.transfer ≠ .BT2100PQ)
    (hdt : dst.color.transfer = .Linear) (hmp : src.color.primaries = mid.color.primaries) (hdp : mid.color.primaries = dst.color.primaries)
    {c : Chan} (hc : c = .R ∨ c = .G ∨ c = .B) {x y n : Nat} (hx : x < dst.width) (hy : y < dst.height)
    (hn : sample src.format sps m c x y = some n) {d : ℝ} (d1 : 52 / 100 ≤ d) (d2 : Truncates p mid.width x → 102 / 100 ≤ d) :
    ∃ (k : Nat) (C : ℝ), sample dst.format dps m'' c x y = some k ∧
      CodeOf p2 dst.width x (1 / 50) k C ∧
      -(tripSlope mid.color.transfer * d + tripError mid.color.transfer + 4 / 1000) ≤ C - n ∧
      C - n ≤ tripSlope mid.color.transfer * (52 / 100) + tripError mid.color.transfer + 4 / 1000 := by
  have hx1 : x < mid.width := by rw [r2.returned.width]; exact hx
  have hy1 : y < mid.height := by rw [r2.returned.height]; exact hy
  have n255 : n ≤ 255 := by
    have := shown_le (rgb8 hs).1 sps m c x y
    rwa [shown, hn] at this
  obtain ⟨k1, a, e1, a0, ha1, hk1⟩ := channel_code r1 ha hs hm hmp (by rw [hst]; exact hmt.symm) (by rw [hst]; nofun) hc hx1 hy1 hn
  obtain ⟨k, b, e2, b0, hb1, hk⟩ := channel_code r2 ha2 hm hd hdp (by rw [hdt]; exact hmt) hmq hc hx hy e1
  have k255 : k1 ≤ 255 := by
    have := shown_le (rgb8 hm).1 mps m' c x y
    rwa [shown, e1] at this
  rw [hst, show decodeTransfer (exactAr x) .Linear ((n : ℝ) / 255) = (n : ℝ) / 255 from rfl] at ha1
  rw [hdt, show encodeTransfer (exactAr x) .Linear b = b from rfl] at hk
  refine ⟨k, _, e2, hk, ?_⟩
  have nr : (n : ℝ) ≤ 255 := by exact_mod_cast n255
  have n0 : (0 : ℝ) ≤ n := by positivity
  have kr : (k1 : ℝ) ≤ 255 := by exact_mod_cast k255
  have d0 : 0 ≤ d := le_trans (by norm_num) d1
  have band : -d ≤ 255 * ((k1 : ℝ) / 255) - clamp255 (encodeTransfer (exactAr x) mid.color.transfer a * 255) ∧
      255 * ((k1 : ℝ) / 255) - clamp255 (encodeTransfer (exactAr x) mid.color.transfer a * 255) ≤ 52 / 100 := by
    rw [mul_div_cancel₀ _ (by norm_num)]
    by_cases ht : Truncates p mid.width x
    · have := d2 ht
      obtain ⟨h1, h2⟩ := hk1.2 ht
      constructor <;> linarith
    · obtain ⟨h1, h2⟩ := abs_le.mp (hk1.1 ht)
      constructor <;> linarith
  obtain ⟨l1, l2⟩ := trip_core (exactAr_exact x) hmq a0 (by rw [div_le_one (by norm_num)]; exact nr) ha1 (by positivity)
    (by rw [div_le_one (by norm_num)]; exact kr) d0 (by norm_num) band.1 band.2
  have hK : 0 ≤ tripSlope mid.color.transfer := by cases mid.color.transfer <;> simp only [tripSlope] <;> norm_num
  have hE : 0 ≤ tripError mid.color.transfer := by cases mid.color.transfer <;> simp only [tripError] <;> norm_num
  have hKd := mul_nonneg hK d0
  generalize decodeTransfer (exactAr x) mid.color.transfer ((k1 : ℝ) / 255) = L at *
  obtain ⟨b1, b2⟩ := abs_le.mp hb1
  norm_num at b1 b2
  refine clamp_near n0 nr (by linarith) (by linarith) ?_ ?_ <;> linarith

/-- **C84**. An image in linear light, converted to another transfer function (not PQ) and back, has its codes changed by one at most (HLG: three)
where both conversions round. Where one of them truncates, codes may be smaller by up to three (HLG: six). The two conversions may be on
different platforms. -/
theorem C84_round_trip (r1 : Run (p.real scalar) src mid sps mps m m') (r2 : Run (p2.real scalar2) mid dst mps dps m' m'') (ha : scalar.Accurate)
    (ha2 : scalar2.Accurate) (hs : isYuv src.format = false) (hm : isYuv mid.format = false) (hd : isYuv dst.format = false)
    (hst : src.color.transfer = .Linear) (hmt : mid.color.transfer ≠ .Linear) (hmq : mid.color.transfer ≠ .BT2100PQ)
    (hdt : dst.color.transfer = .Linear) (hmp : src.color.primaries = mid.color.primaries) (hdp : mid.color.primaries = dst.color.primaries)
    {c : Chan} (hc : c = .R ∨ c = .G ∨ c = .B) {x y n : Nat} (hx : x < dst.width) (hy : y < dst.height)
    (hn : sample src.format sps m c x y = some n) : ∃ k, sample dst.format dps m'' c x y = some k ∧
      k ≤ n + tripNear mid.color.transfer ∧ n ≤ k + tripFar mid.color.transfer ∧
      (¬ Truncates p mid.width x → ¬ Truncates p2 dst.width x → n ≤ k + tripNear mid.color.transfer) := by
  obtain ⟨d, d1, d2, d3, d4⟩ : ∃ d : ℝ, 52 / 100 ≤ d ∧ (Truncates p mid.width x → 102 / 100 ≤ d) ∧ d ≤ 102 / 100 ∧
      (¬ Truncates p mid.width x → d = 52 / 100) := by
    by_cases ht : Truncates p mid.width x
    · exact ⟨102 / 100, by norm_num, fun _ => le_rfl, le_rfl, fun h => absurd ht h⟩
    · exact ⟨52 / 100, le_rfl, fun h => absurd h ht, by norm_num, fun _ => rfl⟩
  obtain ⟨k, C, e, hk, h1, h2⟩ := trip_codes r1 r2 ha ha2 hs hm hd hst hmt hmq hdt hmp hdp hc hx hy hn d1 d2
  generalize mid.color.transfer = t at *
  have hK : 0 ≤ tripSlope t := by cases t <;> simp only [tripSlope] <;> norm_num
  have near : tripSlope t * (52 / 100) + tripError t + 4 / 1000 + 521 / 1000 ≤ (tripNear t : ℝ) + 1 := by
    cases t <;> first | exact absurd rfl hmt | exact absurd rfl hmq | (simp only [tripSlope, tripError, tripNear, reduceCtorEq, if_true, if_false]; norm_num)
  have far : tripSlope t * (102 / 100) + tripError t + 4 / 1000 + 102 / 100 ≤ (tripFar t : ℝ) + 1 := by
    cases t <;> first | exact absurd rfl hmt | exact absurd rfl hmq | (simp only [tripSlope, tripError, tripFar, reduceCtorEq, if_true, if_false]; norm_num)
  refine ⟨k, e, codes_le ?_ near, codes_le ?_ far, fun ht1 ht2 => codes_le ?_ near⟩
  · by_cases ht2 : Truncates p2 dst.width x
    · linarith [(hk.2 ht2).1]
    · linarith [(abs_le.mp (hk.1 ht2)).2]
  · have h3 : tripSlope t * d ≤ tripSlope t * (102 / 100) := mul_le_mul_of_nonneg_left d3 hK
    by_cases ht2 : Truncates p2 dst.width x
    · linarith [(hk.2 ht2).2]
    · linarith [(abs_le.mp (hk.1 ht2)).1]
  · rw [d4 ht1] at h1
    linarith [(abs_le.mp (hk.1 ht2)).1]

/-- Codes up to this one are darker than half a code of linear light. (For the gammas a few more are.) -/
def darkCodes : ColorTransfer → Nat
  | .SRGB => 6
  | .SDR => 2
  | .BT2100HLG => 19
  | .Gamma22 | .Gamma28 => 11
  | .Linear | .BT2100PQ => 0

/-- The light of the dark codes. -/
theorem dark_light (x : Nat) {t : ColorTransfer} (hl : t ≠ .Linear) (hq : t ≠ .BT2100PQ) {n : Nat} (h : n ≤ darkCodes t) :
    decodeTransfer (exactAr x) t ((n : ℝ) / 255) * 255 ≤ 475 / 1000 := by
  have n0 : (0 : ℝ) ≤ n := Nat.cast_nonneg n
  have hn : (n : ℝ) ≤ darkCodes t := by exact_mod_cast h
  have pow : ∀ e : ℝ, 2 ≤ e → (n : ℝ) ≤ 11 → ((n : ℝ) / 255) ^ e * 255 ≤ 475 / 1000 := by
    intro e he h11
    rcases n0.eq_or_lt with h0 | h0
    · rw [← h0, zero_div, Real.zero_rpow (by linarith)]; norm_num
    · have h1 := Real.rpow_le_rpow_of_exponent_ge (x := (n : ℝ) / 255) (by positivity) (by rw [div_le_one (by norm_num)]; linarith) he
      rw [Real.rpow_two] at h1
      nlinarith
  cases t with
  | Linear => exact absurd rfl hl
  | BT2100PQ => exact absurd rfl hq
  | SRGB =>
    rw [srgb_low (exactAr_exact x) (h.trans (by decide))]
    norm_num [darkCodes] at hn ⊢
    have : (n : ℝ) ≤ 6 := by exact_mod_cast hn
    linarith
  | SDR =>
    rw [sdr_low (exactAr_exact x) (h.trans (by decide))]
    have : (n : ℝ) ≤ 2 := by exact_mod_cast h
    norm_num
    linarith
  | BT2100HLG =>
    have : (n : ℝ) ≤ 19 := by exact_mod_cast h
    rw [dec_hlg (exactAr_exact x), max_eq_left (by positivity), if_pos (by linarith)]
    nlinarith
  | Gamma22 => rw [dec_gamma22 (exactAr_exact x)]; exact pow _ (by norm_num) (by exact_mod_cast h)
  | Gamma28 => rw [dec_gamma28 (exactAr_exact x)]; exact pow _ (by norm_num) (by exact_mod_cast h)

/-- **C84**, the other way round it is false: linear light of 8 bits has no codes for the dark of the others. The sRGB codes up to 6, the SDR codes
up to 2, the gamma codes up to 11 and the HLG codes up to 19 all become black, on every platform and in every column. -/
theorem C84_dark_lost (r : Run (p.real scalar) src dst sps dps m m') (ha : scalar.Accurate) (hs : isYuv src.format = false)
    (hd : isYuv dst.format = false) (hp : src.color.primaries = dst.color.primaries) (hl : src.color.transfer ≠ .Linear)
    (hq : src.color.transfer ≠ .BT2100PQ) (hdt : dst.color.transfer = .Linear) {c : Chan} (hc : c = .R ∨ c = .G ∨ c = .B) {x y n : Nat}
    (hx : x < dst.width) (hy : y < dst.height) (hn : sample src.format sps m c x y = some n) (h : n ≤ darkCodes src.color.transfer) :
    sample dst.format dps m' c x y = some 0 := by
  obtain ⟨k, a, e, a0, ha1, hk⟩ := channel_code r ha hs hd hp (by rw [hdt]; exact hl) hq hc hx hy hn
  have hL := dark_light x hl hq h
  rw [hdt, show encodeTransfer (exactAr x) .Linear a = a from rfl] at hk
  have h1 : a * 255 ≤ 479 / 1000 := by
    have := (abs_le.mp ha1).2
    norm_num at this ⊢
    linarith
  have h2 : clamp255 (a * 255) ≤ 479 / 1000 := max_le (by norm_num) ((min_le_right _ _).trans h1)
  have h3 : (k : ℝ) < ((1 : Nat) : ℝ) := by
    push_cast
    by_cases ht : Truncates p dst.width x
    · linarith [(hk.2 ht).1]
    · linarith [(abs_le.mp (hk.1 ht)).2]
  have h3 : k < 1 := by exact_mod_cast h3
  obtain rfl : k = 0 := by omega
  exact e

/-- A linear image becomes an sRGB image on AVX2 and comes back on NEON. -/
example (m : Mem) : ∃ (m'' : Mem) (n k : Nat), sample .RGB [⟨⟨0, 96⟩, 48⟩] m .G 9 1 = some n ∧ sample .BGR [⟨⟨400, 96⟩, 48⟩] m'' .G 9 1 = some k ∧
    k ≤ n + 1 ∧ n ≤ k + 3 := by
  obtain ⟨scalar, ha⟩ := libm_exists
  obtain ⟨m', r⟩ := run_exists (c := Platform.avx2.real scalar) (platform_lawful .avx2 _ _)
    (src := .raw .RGB 16 2 [⟨⟨0, 96⟩, 48⟩] (.RGB ⟨.Linear, .BT709⟩)) (dst := .raw .RGBA 16 2 [⟨⟨200, 128⟩, 64⟩] (.RGB ⟨.SRGB, .BT709⟩))
    (sps := [⟨⟨0, 96⟩, 48⟩]) (dps := [⟨⟨200, 128⟩, 64⟩]) rfl rfl
    (planesDisjoint_of (by decide)) (separate_of (by decide)) (uniform_of (by decide)) (by decide) m
  obtain ⟨m'', r'⟩ := run_exists (c := Platform.neon.real scalar) (platform_lawful .neon _ _)
    (src := .raw .RGBA 16 2 [⟨⟨200, 128⟩, 64⟩] (.RGB ⟨.SRGB, .BT709⟩)) (dst := .raw .BGR 16 2 [⟨⟨400, 96⟩, 48⟩] (.RGB ⟨.Linear, .BT709⟩))
    (sps := [⟨⟨200, 128⟩, 64⟩]) (dps := [⟨⟨400, 96⟩, 48⟩]) rfl rfl
    (planesDisjoint_of (by decide)) (separate_of (by decide)) (uniform_of (by decide)) (by decide) m'
  obtain ⟨k, h1, h2, h3, -⟩ := C84_round_trip r r' ha ha rfl rfl rfl rfl nofun nofun rfl rfl rfl (c := .G) (by simp) (x := 9) (y := 1)
    (n := (m 76).toNat) (by decide) (by decide) rfl
  exact ⟨m'', _, k, rfl, h1, h2, h3⟩

/-- The HLG code 17 becomes black on AVX-512. -/
example : ∃ m' : Mem, sample .RGB [⟨⟨200, 96⟩, 48⟩] m' .R 5 1 = some 0 := by
  obtain ⟨scalar, ha⟩ := libm_exists
  obtain ⟨m', r⟩ := run_exists (c := Platform.avx512.real scalar) (platform_lawful .avx512 _ _)
    (src := .raw .RGB 16 2 [⟨⟨0, 96⟩, 48⟩] (.RGB ⟨.BT2100HLG, .BT709⟩)) (dst := .raw .RGB 16 2 [⟨⟨200, 96⟩, 48⟩] (.RGB ⟨.Linear, .BT709⟩))
    (sps := [⟨⟨0, 96⟩, 48⟩]) (dps := [⟨⟨200, 96⟩, 48⟩]) rfl rfl
    (planesDisjoint_of (by decide)) (separate_of (by decide)) (uniform_of (by decide)) (by decide) fun _ => 17
  exact ⟨m', C84_dark_lost r ha rfl rfl rfl nofun nofun rfl (c := .R) (by simp) (x := 5) (y := 1) (n := 17) (by decide) (by decide) rfl (by decide)⟩

end Ezk.Props

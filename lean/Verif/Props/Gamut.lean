import Verif.Proofs.Gamut
import Verif.Proofs.EncodeLip
import Verif.Props.GreyOrder

/-!
# C80: colours of BT.709 and SMPTE 240M fit into BT.2020
-/

namespace Ezk.Props
open Ezk Ezk.F32 Ezk.Spec

attribute [local instance] ratOps

variable {p : Platform} {scalar : Libm} {src dst : Img} {sps dps : List Plane} {m m' : Mem}

/-- **C80**, the gamut: the light of a colour of BT.709 or SMPTE 240M in the primaries of BT.2020 is not negative, and no
component exceeds the brightest of the colour by more than the rounding of the matrices. -/
theorem C80_fits {sc dc : ColorInfo} (hs : sc.primaries = .BT709 ∨ sc.primaries = .ST240) (hd : dc.primaries = .BT2020) {V : Pic Nat}
    (hV : ∀ c x y, V c x y ≤ 255) {c : Chan} (hc : c = .R ∨ c = .G ∨ c = .B) (x y : Nat) :
    0 ≤ lightIn sc dc V c x y ∧ lightIn sc dc V c x y ≤ (1 + 3 / 10 ^ 7) * brightest sc V x y := by
  obtain ⟨scalar, ha⟩ := libm_exists
  have hf := column_floats .scalar ha 0 x
  have pos : ∀ c, 0 ≤ decodeTransfer (exactAr x) sc.transfer ((V c x y : ℝ) / 255) := by
    intro c
    by_cases ht : sc.transfer = .BT2100PQ
    · rw [ht]; exact (light_pq_app (exactAr_exact x) hf (hV c x y)).2.1
    · exact (light_app hf (exactAr_exact x) ht (hV c x y)).2.1
  obtain ⟨h1, h2, h3⟩ := wider_range (exactAr_exact x) (sp := sc.primaries) (dp := dc.primaries) ⟨hs, hd⟩
    (p := (decodeTransfer (exactAr x) sc.transfer ((V .R x y : ℝ) / 255), decodeTransfer (exactAr x) sc.transfer ((V .G x y : ℝ) / 255),
      decodeTransfer (exactAr x) sc.transfer ((V .B x y : ℝ) / 255))) (M := brightest sc V x y)
    ⟨pos .R, le_max_left _ _⟩ ⟨pos .G, le_max_of_le_right (le_max_left _ _)⟩ ⟨pos .B, le_max_of_le_right (le_max_right _ _)⟩
  rcases hc with rfl | rfl | rfl
  · exact h1
  · exact h2
  · exact h3

/-- The code stored by a change of transfer function or primaries. -/
theorem change_code (r : Run (p.real scalar) src dst sps dps m m') (ha : scalar.Accurate) (hs : isYuv src.format = false)
    (hd : isYuv dst.format = false) (hst : src.color.transfer ≠ .BT2100PQ)
    (hne : ¬ (src.color.transfer = dst.color.transfer ∧ src.color.primaries = dst.color.primaries))
    {c : Chan} (hc : c = .R ∨ c = .G ∨ c = .B) {x y : Nat} (hx : x < dst.width) (hy : y < dst.height) :
    ∃ (k : Nat) (a : ℝ), sample dst.format dps m' c x y = some k ∧ 0 ≤ a ∧
      |a - max 0 (lightIn src.color dst.color (shown src.format sps m) c x y)| ≤ 12 / 10 ^ 6 ∧
      CodeOf p dst.width x (1 / 50) k (clamp255 (encodeTransfer (exactAr x) dst.color.transfer a * 255)) := by
  obtain ⟨v, X, hX, hg, X1, X2, -, hw, hL, hv⟩ := change_stored r ha hs hd hne hc hx hy
  have hf := column_floats p ha dst.width x
  have hw := hw hst
  rw [changeTolerance, if_neg hst] at hL
  generalize lightIn src.color dst.color (shown src.format sps m) c x y = L at *
  obtain ⟨a, a0, da, ea⟩ := enc_any (exactAr_exact x) hf dst.color.transfer hX hg X1 X2
  have far : |a - max 0 L| ≤ 12 / 10 ^ 6 := by
    have h1 : |max 0 (X : ℝ) - max 0 L| ≤ |(X : ℝ) - L| := by
      rw [max_comm 0, max_comm 0]; exact abs_max_sub_max_le_abs _ _ 0
    have h2 := abs_sub_le a (max 0 (X : ℝ)) (max 0 L)
    linarith
  refine ⟨_, a, hv, a0, far, codeOf_encodes ea p _ _ _ _ hd fun _ => .inl ?_⟩
  have := (abs_le.mp far).2
  have h8 : max 0 L ≤ 2 := max_le (by norm_num) hw
  norm_num at this
  linarith

/-- The codes of linear light as a mix of codes. -/
noncomputable def mixCodes (x : Nat) (sp dp : ColorPrimaries) (r g b : Nat) : C3 ℝ :=
  rowMul (exactAr x) (rowMul (exactAr x) ((r : ℝ), (g : ℝ), (b : ℝ)) sp.rgbToXyzMat) dp.xyzToRgbMat

/-- Linear light in other primaries. -/
theorem lightIn_linear {sc dc : ColorInfo} (ht : sc.transfer = .Linear) (V : Pic Nat) {c : Chan} (hc : c = .R ∨ c = .G ∨ c = .B) (x y : Nat) :
    lightIn sc dc V c x y * 255 = component (mixCodes x sc.primaries dc.primaries (V .R x y) (V .G x y) (V .B x y)) c := by
  have he := exactAr_exact x
  rw [lightIn, ht, mixCodes]
  rcases hc with rfl | rfl | rfl <;> simp only [component, decodeTransfer, rowMul, dot, he.add, he.mul] <;> ring

/-- The codes of a change of primaries in linear light, with how far they may be below and above the exact ones. -/
theorem linear_code (r : Run (p.real scalar) src dst sps dps m m') (ha : scalar.Accurate) (hs : isYuv src.format = false)
    (hd : isYuv dst.format = false) (hst : src.color.transfer = .Linear) (hdt : dst.color.transfer = .Linear)
    (hne : src.color.primaries ≠ dst.color.primaries) {c : Chan} (hc : c = .R ∨ c = .G ∨ c = .B) {x y : Nat} (hx : x < dst.width)
    (hy : y < dst.height) :
    ∃ k : Nat, sample dst.format dps m' c x y = some k ∧ k ≤ 255 ∧ CodeOf p dst.width x (24 / 1000) k (clamp255 (component (mixCodes x
      src.color.primaries dst.color.primaries (shown src.format sps m .R x y) (shown src.format sps m .G x y)
      (shown src.format sps m .B x y)) c)) := by
  obtain ⟨k, a, hk, a0, da, hcode⟩ := change_code r ha hs hd (by rw [hst]; nofun) (fun h => hne h.2) hc hx hy
  have h255 : k ≤ 255 := by
    have := shown_le (rgb8 hd).1 dps m' c x y
    rw [shown, hk] at this
    exact this
  refine ⟨k, hk, h255, ?_⟩
  rw [← lightIn_linear hst _ hc, ← clamp_max]
  rw [hdt] at hcode
  have e : encodeTransfer (exactAr x) .Linear a = a := rfl
  rw [e] at hcode
  generalize max 0 (lightIn src.color dst.color (shown src.format sps m) c x y) = L at *
  have h2 := clamp_lipschitz (a * 255) (L * 255)
  rw [← sub_mul, abs_mul, abs_of_nonneg (show (0 : ℝ) ≤ 255 by norm_num)] at h2
  have h4 : |clamp255 (a * 255) - clamp255 (L * 255)| ≤ 31 / 10 ^ 4 := by norm_num at da ⊢; linarith
  generalize clamp255 (a * 255) = A at *
  generalize clamp255 (L * 255) = B at *
  obtain ⟨b1, b2⟩ := abs_le.mp h4
  norm_num at b1 b2
  refine ⟨fun ht => ?_, fun ht => ?_⟩
  · obtain ⟨c1, c2⟩ := abs_le.mp (hcode.1 ht)
    norm_num at c1 c2
    rw [abs_le]
    constructor <;> norm_num <;> linarith
  · obtain ⟨c1, c2⟩ := hcode.2 ht
    norm_num at c1 c2
    constructor <;> norm_num <;> linarith

/-- Clamping brings values closer to codes. -/
theorem clamp_near {v n d u : ℝ} (h0 : 0 ≤ n) (h1 : n ≤ 255) (hd : 0 ≤ d) (hu : 0 ≤ u) (hl : -d ≤ v - n) (hh : v - n ≤ u) :
    -d ≤ clamp255 v - n ∧ clamp255 v - n ≤ u := by
  unfold clamp255
  constructor
  · have : n - d ≤ max 0 (min 255 v) := le_max_of_le_right (le_min (by linarith) (by linarith))
    linarith
  · have : max 0 (min 255 v) ≤ n + u := max_le (by linarith) (min_le_of_right_le (by linarith))
    linarith

/-- Codes of values that need no clamping. -/
theorem clamp_id {v : ℝ} (h0 : 0 ≤ v) (h1 : v ≤ 255 * (1 + 3 / 10 ^ 7)) : |clamp255 v - v| ≤ 1 / 1000 := by
  unfold clamp255
  rcases le_total v 255 with h | h
  · rw [min_eq_right h, max_eq_right h0, sub_self, abs_zero]; norm_num
  · rw [min_eq_left h, max_eq_right (by norm_num), abs_le]
    norm_num at h1 ⊢
    constructor <;> linarith

/-- **C80**, the round trip in linear light (with other transfer functions the rounding of the codes in between is magnified near
black). Codes of BT.709 or SMPTE 240M, converted to BT.2020 and back, differ by one at most
where both conversions round, and by two at most elsewhere; the two conversions may be on different platforms. -/
theorem C80_round_trip {mid : Img} {mps : List Plane} {m'' : Mem} {p2 : Platform} {scalar2 : Libm}
    (r1 : Run (p.real scalar) src mid sps mps m m') (r2 : Run (p2.real scalar2) mid dst mps dps m' m'') (ha : scalar.Accurate)
    (ha2 : scalar2.Accurate) (hs : isYuv src.format = false) (hm : isYuv mid.format = false) (hd : isYuv dst.format = false)
    (hst : src.color.transfer = .Linear) (hmt : mid.color.transfer = .Linear) (hdt : dst.color.transfer = .Linear)
    (hsp : src.color.primaries = .BT709 ∨ src.color.primaries = .ST240) (hmp : mid.color.primaries = .BT2020)
    (hdp : dst.color.primaries = src.color.primaries) {c : Chan} (hc : c = .R ∨ c = .G ∨ c = .B) {x y n : Nat} (hx : x < dst.width)
    (hy : y < dst.height) (hn : sample src.format sps m c x y = some n) :
    ∃ k, sample dst.format dps m'' c x y = some k ∧ k ≤ n + 2 ∧ n ≤ k + 2 ∧
      (¬ Truncates p mid.width x → ¬ Truncates p2 dst.width x → k ≤ n + 1 ∧ n ≤ k + 1) := by
  have hx1 : x < mid.width := by rw [r2.returned.width]; exact hx
  have hy1 : y < mid.height := by rw [r2.returned.height]; exact hy
  have hne : src.color.primaries ≠ mid.color.primaries := by rw [hmp]; rcases hsp with h | h <;> rw [h] <;> decide
  have hne2 : mid.color.primaries ≠ dst.color.primaries := by rw [hdp]; exact hne.symm
  have hle := shown_le (rgb8 hs).1 sps m
  have hb : ∀ c, (0 : ℝ) ≤ (shown src.format sps m c x y : ℝ) ∧ (shown src.format sps m c x y : ℝ) ≤ 255 :=
    fun c => ⟨by positivity, by exact_mod_cast hle c x y⟩
  obtain ⟨w1, w2, w3⟩ := wider_range (exactAr_exact x) (sp := src.color.primaries) (dp := mid.color.primaries) ⟨hsp, hmp⟩
    (p := ((shown src.format sps m .R x y : ℝ), (shown src.format sps m .G x y : ℝ), (shown src.format sps m .B x y : ℝ))) (M := 255)
    (hb .R) (hb .G) (hb .B)
  -- the codes in between
  have mids : ∀ {c : Chan}, (c = .R ∨ c = .G ∨ c = .B) → ∀ {d u : ℝ}, (Truncates p mid.width x → 1025 / 1000 ≤ d ∧ 25 / 1000 ≤ u) →
      (¬ Truncates p mid.width x → 525 / 1000 ≤ d ∧ 525 / 1000 ≤ u) →
      -d ≤ (shown mid.format mps m' c x y : ℝ) - component (mixCodes x src.color.primaries mid.color.primaries
        (shown src.format sps m .R x y) (shown src.format sps m .G x y) (shown src.format sps m .B x y)) c ∧
      (shown mid.format mps m' c x y : ℝ) - component (mixCodes x src.color.primaries mid.color.primaries
        (shown src.format sps m .R x y) (shown src.format sps m .G x y) (shown src.format sps m .B x y)) c ≤ u := by
    intro c hc d u ht1 ht2
    obtain ⟨k, hk, -, hcode⟩ := linear_code r1 ha hs hm hst hmt hne hc hx1 hy1
    have e : shown mid.format mps m' c x y = k := by rw [shown, hk]; rfl
    rw [e]
    have range : 0 ≤ component (mixCodes x src.color.primaries mid.color.primaries (shown src.format sps m .R x y)
        (shown src.format sps m .G x y) (shown src.format sps m .B x y)) c ∧ component (mixCodes x src.color.primaries
        mid.color.primaries (shown src.format sps m .R x y) (shown src.format sps m .G x y) (shown src.format sps m .B x y)) c ≤
        (1 + 3 / 10 ^ 7) * 255 := by
      rcases hc with rfl | rfl | rfl
      · exact w1
      · exact w2
      · exact w3
    generalize component (mixCodes x src.color.primaries mid.color.primaries (shown src.format sps m .R x y)
        (shown src.format sps m .G x y) (shown src.format sps m .B x y)) c = v at *
    obtain ⟨v1, v2⟩ := abs_le.mp (clamp_id range.1 (by linarith [range.2]))
    generalize clamp255 v = C at *
    norm_num at v1 v2
    by_cases ht : Truncates p mid.width x
    · obtain ⟨c1, c2⟩ := hcode.2 ht
      obtain ⟨t1, t2⟩ := ht1 ht
      norm_num at c1 c2 t1 t2
      constructor <;> linarith
    · obtain ⟨c1, c2⟩ := abs_le.mp (hcode.1 ht)
      obtain ⟨t1, t2⟩ := ht2 ht
      norm_num at c1 c2 t1 t2
      constructor <;> linarith
  -- the codes at the end
  obtain ⟨k, hk, -, hcode⟩ := linear_code r2 ha2 hm hd hmt hdt hne2 hc hx hy
  obtain rfl : shown src.format sps m c x y = n := by rw [shown, hn]; rfl
  refine ⟨k, hk, ?_⟩
  rw [hdp] at hcode
  have back : ∀ {d u : ℝ}, 0 ≤ d → 0 ≤ u → (Truncates p mid.width x → 1025 / 1000 ≤ d ∧ 25 / 1000 ≤ u) →
      (¬ Truncates p mid.width x → 525 / 1000 ≤ d ∧ 525 / 1000 ≤ u) →
      -(178 / 100 * d + 78 / 100 * u + 2 / 10 ^ 3) ≤ clamp255 (component (mixCodes x mid.color.primaries src.color.primaries
        (shown mid.format mps m' .R x y) (shown mid.format mps m' .G x y) (shown mid.format mps m' .B x y)) c) - shown src.format sps m c x y ∧
      clamp255 (component (mixCodes x mid.color.primaries src.color.primaries
        (shown mid.format mps m' .R x y) (shown mid.format mps m' .G x y) (shown mid.format mps m' .B x y)) c) - shown src.format sps m c x y ≤
        178 / 100 * u + 78 / 100 * d + 2 / 10 ^ 3 := by
    intro d u hd0 hu0 ht1 ht2
    have h := wider_back (exactAr_exact x) (sp := src.color.primaries) (dp := mid.color.primaries) ⟨hsp, hmp⟩ hd0 hu0
      (p := ((shown src.format sps m .R x y : ℝ), (shown src.format sps m .G x y : ℝ), (shown src.format sps m .B x y : ℝ)))
      (q := ((shown mid.format mps m' .R x y : ℝ), (shown mid.format mps m' .G x y : ℝ), (shown mid.format mps m' .B x y : ℝ)))
      (hb .R) (hb .G) (hb .B) (mids (c := .R) (by simp) ht1 ht2) (mids (c := .G) (by simp) ht1 ht2) (mids (c := .B) (by simp) ht1 ht2)
    refine clamp_near (hb c).1 (hb c).2 (by norm_num; linarith) (by norm_num; linarith) ?_ ?_ <;> rcases hc with rfl | rfl | rfl
    · exact h.1.1
    · exact h.2.1.1
    · exact h.2.2.1
    · exact h.1.2
    · exact h.2.1.2
    · exact h.2.2.2
  generalize clamp255 (component (mixCodes x mid.color.primaries src.color.primaries
        (shown mid.format mps m' .R x y) (shown mid.format mps m' .G x y) (shown mid.format mps m' .B x y)) c) = C at *
  generalize shown src.format sps m c x y = n at *
  have fin : ∀ {a b : Nat} (j : Nat), (a : ℝ) < b + (j + 1 : ℝ) → a ≤ b + j := by
    intro a b j h
    have : (a : ℝ) < ((b + (j + 1) : Nat) : ℝ) := by push_cast; exact h
    have : a < b + (j + 1) := by exact_mod_cast this
    omega
  by_cases ht : Truncates p mid.width x
  · obtain ⟨b1, b2⟩ := back (d := 1025 / 1000) (u := 25 / 1000) (by norm_num) (by norm_num) (fun _ => ⟨le_refl _, le_refl _⟩) (fun h => absurd ht h)
    norm_num at b1 b2
    refine ⟨fin 2 ?_, fin 2 ?_, fun h => absurd ht h⟩
    all_goals
      push_cast
      by_cases ht2 : Truncates p2 dst.width x
      · obtain ⟨c1, c2⟩ := hcode.2 ht2
        norm_num at c1 c2
        linarith
      · obtain ⟨c1, c2⟩ := abs_le.mp (hcode.1 ht2)
        norm_num at c1 c2
        linarith
  · obtain ⟨b1, b2⟩ := back (d := 525 / 1000) (u := 525 / 1000) (by norm_num) (by norm_num) (fun h => absurd h ht) (fun _ => ⟨le_refl _, le_refl _⟩)
    norm_num at b1 b2
    refine ⟨fin 2 ?_, fin 2 ?_, fun _ ht2 => ⟨fin 1 ?_, fin 1 ?_⟩⟩
    iterate 2
      push_cast
      by_cases ht2 : Truncates p2 dst.width x
      · obtain ⟨c1, c2⟩ := hcode.2 ht2
        norm_num at c1 c2
        linarith
      · obtain ⟨c1, c2⟩ := abs_le.mp (hcode.1 ht2)
        norm_num at c1 c2
        linarith
    all_goals
      obtain ⟨c1, c2⟩ := abs_le.mp (hcode.1 ht2)
      norm_num at c1 c2
      push_cast
      linarith

/-- The bright greens of BT.2020 in the smaller sets of primaries. -/
theorem green_narrow {rr : Arith ℝ} (he : Exact rr) {dp : ColorPrimaries} (h : dp = .BT709 ∨ dp = .ST240) {g : ℝ} (h0 : 240 ≤ g) (h1 : g ≤ 255) :
    (-200 ≤ (rowMul rr (rowMul rr (0, g, 0) ColorPrimaries.BT2020.rgbToXyzMat) dp.xyzToRgbMat).1 ∧
      (rowMul rr (rowMul rr (0, g, 0) ColorPrimaries.BT2020.rgbToXyzMat) dp.xyzToRgbMat).1 ≤ -10) ∧
    (256 ≤ (rowMul rr (rowMul rr (0, g, 0) ColorPrimaries.BT2020.rgbToXyzMat) dp.xyzToRgbMat).2.1 ∧
      (rowMul rr (rowMul rr (0, g, 0) ColorPrimaries.BT2020.rgbToXyzMat) dp.xyzToRgbMat).2.1 ≤ 400) ∧
    (-200 ≤ (rowMul rr (rowMul rr (0, g, 0) ColorPrimaries.BT2020.rgbToXyzMat) dp.xyzToRgbMat).2.2 ∧
      (rowMul rr (rowMul rr (0, g, 0) ColorPrimaries.BT2020.rgbToXyzMat) dp.xyzToRgbMat).2.2 ≤ -10) := by
  simp only [rowMul, dot, he.add, he.mul]
  rcases h with rfl | rfl <;> simp only [ColorPrimaries.rgbToXyzMat, BT2020_RGB_TO_XYZ,
    ColorPrimaries.xyzToRgbMat, ST240_XYZ_TO_RGB, BT709_XYZ_TO_RGB, lit_real] <;>
    norm_num [Rat.cast_ofScientific] at * <;> refine ⟨⟨?_, ?_⟩, ⟨?_, ?_⟩, ?_, ?_⟩ <;> linarith

/-- **C80**, the other way round it is false: BT.2020 has colours that the others do not have, and they are clipped. In linear
light all greens of 240 and more become the same colour, on every platform and in every column. -/
theorem C80_narrow_clips (r : Run (p.real scalar) src dst sps dps m m') (ha : scalar.Accurate) (hs : isYuv src.format = false)
    (hd : isYuv dst.format = false) (hst : src.color.transfer = .Linear) (hdt : dst.color.transfer = .Linear)
    (hsp : src.color.primaries = .BT2020) (hdp : dst.color.primaries = .BT709 ∨ dst.color.primaries = .ST240) {x y g : Nat}
    (hx : x < dst.width) (hy : y < dst.height) (hR : sample src.format sps m .R x y = some 0)
    (hG : sample src.format sps m .G x y = some g) (hB : sample src.format sps m .B x y = some 0) (hg : 240 ≤ g) :
    sample dst.format dps m' .R x y = some 0 ∧ sample dst.format dps m' .G x y = some 255 ∧ sample dst.format dps m' .B x y = some 0 := by
  have hne : ¬ (src.color.transfer = dst.color.transfer ∧ src.color.primaries = dst.color.primaries) := by
    rintro ⟨-, h⟩; rw [hsp] at h; rcases hdp with h' | h' <;> rw [h'] at h <;> cases h
  have hpq : src.color.transfer ≠ .BT2100PQ := by rw [hst]; nofun
  have g255 : g ≤ 255 := by
    have := shown_le (rgb8 hs).1 sps m .G x y
    rw [shown, hG] at this
    exact this
  have eR : shown src.format sps m .R x y = 0 := by rw [shown, hR]; rfl
  have eG : shown src.format sps m .G x y = g := by rw [shown, hG]; rfl
  have eB : shown src.format sps m .B x y = 0 := by rw [shown, hB]; rfl
  have hmax : Is (maxSample dst.format : F32) 255 := by
    rw [maxSample, (rgb8 hd).2]; exact ⟨false, 255, ofNat_eq (by norm_num), by norm_num, rfl⟩
  have hf := column_floats p ha dst.width x
  have h := green_narrow (exactAr_exact x) hdp (g := g) (by exact_mod_cast hg) (by exact_mod_cast g255)
  -- the value before it is stored
  have key : ∀ {c : Chan}, (c = .R ∨ c = .G ∨ c = .B) → ∃ q : ℚ, |(q : ℝ) - component (mixCodes x .BT2020 dst.color.primaries 0 g 0) c| ≤ 1 / 2 ∧
      ∀ k, (∀ {v : F32}, Is v (rds q) → stored p (p.libm scalar) scalar dst.width x .interleaved8 v = k) → |q| ≤ 10 ^ 9 →
        sample dst.format dps m' c x y = some k := by
    intro c hc
    obtain ⟨v, X, hX, -, -, -, -, -, hL, hv⟩ := change_stored r ha hs hd hne hc hx hy
    have l := lightIn_linear (dc := dst.color) hst (shown src.format sps m) hc x y
    rw [eR, eG, eB, hsp] at l
    rw [changeTolerance, if_neg hpq] at hL
    refine ⟨X * 255, ?_, fun k hk hq => ?_⟩
    · rw [← l]
      push_cast
      rw [← sub_mul, abs_mul, abs_of_nonneg (show (0 : ℝ) ≤ 255 by norm_num)]
      norm_num at hL ⊢
      linarith
    · rw [hv, hdt, hf.mul]
      exact congrArg some (hk (is_mul_rds hX hmax hq))
  have e0 : rds (-1) = -1 := by decide +kernel
  have e1 : rds (-300) = -300 := by decide +kernel
  have e2 : rds 255 = 255 := by decide +kernel
  have e3 : rds 500 = 500 := by decide +kernel
  have low : ∀ {c : Chan}, (c = .R ∨ c = .G ∨ c = .B) → -200 ≤ component (mixCodes x .BT2020 dst.color.primaries 0 g 0) c ∧
      component (mixCodes x .BT2020 dst.color.primaries 0 g 0) c ≤ -10 → sample dst.format dps m' c x y = some 0 := by
    intro c hc hb
    obtain ⟨q, dq, hq⟩ := key hc
    obtain ⟨d1, d2⟩ := abs_le.mp dq
    have q1 : (q : ℝ) ≤ ((-1 : ℚ) : ℝ) := by push_cast; linarith [hb.2]
    have q2 : ((-300 : ℚ) : ℝ) ≤ (q : ℝ) := by push_cast; linarith [hb.1]
    have q1 : q ≤ -1 := by exact_mod_cast q1
    have q2 : -300 ≤ q := by exact_mod_cast q2
    refine hq 0 (fun hv => stored_bottom hv ?_ ?_) (abs_le.mpr ⟨by linarith, by linarith⟩)
    · have := rds_mono q1; rw [e0] at this; linarith
    · have := rds_mono q2; rwa [e1] at this
  refine ⟨low (by simp) ?_, ?_, low (by simp) ?_⟩
  · have := h.1; simpa only [component, mixCodes, Nat.cast_zero] using this
  · obtain ⟨q, dq, hq⟩ := key (c := .G) (by simp)
    have hb : 256 ≤ component (mixCodes x .BT2020 dst.color.primaries 0 g 0) .G ∧
        component (mixCodes x .BT2020 dst.color.primaries 0 g 0) .G ≤ 400 := by
      have := h.2.1; simpa only [component, mixCodes, Nat.cast_zero] using this
    obtain ⟨d1, d2⟩ := abs_le.mp dq
    have q1 : ((255 : ℚ) : ℝ) ≤ (q : ℝ) := by push_cast; linarith [hb.1]
    have q2 : (q : ℝ) ≤ ((500 : ℚ) : ℝ) := by push_cast; linarith [hb.2]
    have q1 : 255 ≤ q := by exact_mod_cast q1
    have q2 : q ≤ 500 := by exact_mod_cast q2
    refine hq 255 (fun hv => stored_top hv ?_ (.inl ?_)) (abs_le.mpr ⟨by linarith, by linarith⟩)
    · have := rds_mono q1; rwa [e2] at this
    · have := rds_mono q2; rw [e3] at this; linarith
  · have := h.2.2; simpa only [component, mixCodes, Nat.cast_zero] using this

/-- A colour image of BT.709 on AVX2, converted to BT.2020 there and back on NEON, whose stores truncate. -/
example : ∃ (scalar : Libm) (mo : Mem) (k : Nat), scalar.Accurate ∧
    sample .BGR [⟨⟨700, 200⟩, 96⟩] mo .G 8 1 = some k ∧ 77 ≤ k ∧ k ≤ 81 := by
  obtain ⟨scalar, ha⟩ := libm_exists
  obtain ⟨m1, r1⟩ := run_exists (c := Platform.avx2.real scalar) (platform_lawful .avx2 _ _)
    (src := .raw .RGB 32 2 [⟨⟨0, 200⟩, 96⟩] (.RGB ⟨.Linear, .BT709⟩)) (dst := .raw .RGBA 32 2 [⟨⟨400, 256⟩, 128⟩] (.RGB ⟨.Linear, .BT2020⟩))
    (sps := [⟨⟨0, 200⟩, 96⟩]) (dps := [⟨⟨400, 256⟩, 128⟩]) rfl rfl
    (planesDisjoint_of (by decide)) (separate_of (by decide)) (uniform_of (by decide)) (by decide) fun a => UInt8.ofNat (a * 7)
  obtain ⟨m2, r2⟩ := run_exists (c := Platform.neon.real scalar) (platform_lawful .neon _ _)
    (src := .raw .RGBA 32 2 [⟨⟨400, 256⟩, 128⟩] (.RGB ⟨.Linear, .BT2020⟩)) (dst := .raw .BGR 32 2 [⟨⟨700, 200⟩, 96⟩] (.RGB ⟨.Linear, .BT709⟩))
    (sps := [⟨⟨400, 256⟩, 128⟩]) (dps := [⟨⟨700, 200⟩, 96⟩]) rfl rfl
    (planesDisjoint_of (by decide)) (separate_of (by decide)) (uniform_of (by decide)) (by decide) m1
  obtain ⟨k, h1, h2, h3, -⟩ := C80_round_trip r1 r2 ha ha rfl rfl rfl rfl rfl rfl (.inl rfl) rfl rfl (c := .G) (by simp)
    (x := 8) (y := 1) (n := 79) (by decide) (by decide) (by decide +kernel)
  exact ⟨scalar, m2, k, ha, h1, by omega, by omega⟩

/-- A saturated green, for which `C80_narrow_clips` speaks. -/
example : ∃ (scalar : Libm) (mo : Mem), scalar.Accurate ∧ sample .RGBA [⟨⟨400, 256⟩, 128⟩] mo .G 8 1 = some 255 := by
  obtain ⟨scalar, ha⟩ := libm_exists
  obtain ⟨mo, r⟩ := run_exists (c := Platform.avx2.real scalar) (platform_lawful .avx2 _ _)
    (src := .raw .RGB 32 2 [⟨⟨0, 200⟩, 96⟩] (.RGB ⟨.Linear, .BT2020⟩)) (dst := .raw .RGBA 32 2 [⟨⟨400, 256⟩, 128⟩] (.RGB ⟨.Linear, .BT709⟩))
    (sps := [⟨⟨0, 200⟩, 96⟩]) (dps := [⟨⟨400, 256⟩, 128⟩]) rfl rfl
    (planesDisjoint_of (by decide)) (separate_of (by decide)) (uniform_of (by decide)) (by decide) fun a => if a % 3 = 1 then 247 else 0
  exact ⟨scalar, mo, ha, (C80_narrow_clips r ha rfl rfl rfl rfl rfl (.inl rfl) (x := 8) (y := 1) (g := 247) (by decide) (by decide)
    (by decide +kernel) (by decide +kernel) (by decide +kernel) (by decide)).2.1⟩

/-- Pure red of BT.709: nothing is clipped. -/
example : 0 ≤ lightIn (.RGB ⟨.SRGB, .BT709⟩) (.RGB ⟨.SRGB, .BT2020⟩) (fun c _ _ => if c = .R then 255 else 0) .B 3 4 :=
  (C80_fits (.inl rfl) rfl (fun c x y => by split <;> norm_num) (by simp) 3 4).1

/-- **C57**, with a change of the transfer function or to a larger set of primaries (partial: PQ sources and destinations other
than `Linear`, `SRGB` and `SDR` are left out; codes may be smaller by one). A pixel with at least as much red, green and blue as
another does not get a smaller code, up to one, in any channel, whatever the platforms and columns. -/
theorem C57_change_partial {p' : Platform} {scalar' : Libm} {src' dst' : Img} {sps' dps' : List Plane} {n n' : Mem}
    (r : Run (p.real scalar) src dst sps dps m m') (r' : Run (p'.real scalar') src' dst' sps' dps' n n') (ha : scalar.Accurate)
    (ha' : scalar'.Accurate) (hs : isYuv src.format = false) (hs' : isYuv src'.format = false) (hd : isYuv dst.format = false)
    (hd' : isYuv dst'.format = false) (hcs : src'.color = src.color) (hcd : dst'.color = dst.color) (hst : src.color.transfer ≠ .BT2100PQ)
    (hdt : dst.color.transfer = .Linear ∨ dst.color.transfer = .SRGB ∨ dst.color.transfer = .SDR)
    (hp : src.color.primaries = dst.color.primaries ∨
      (src.color.primaries = .BT709 ∨ src.color.primaries = .ST240) ∧ dst.color.primaries = .BT2020)
    {c : Chan} (hc : c = .R ∨ c = .G ∨ c = .B) {x y x' y' : Nat} (hx : x < dst.width) (hy : y < dst.height) (hx' : x' < dst'.width)
    (hy' : y' < dst'.height)
    (hle : ∀ c, (c = .R ∨ c = .G ∨ c = .B) → shown src.format sps m c x y ≤ shown src'.format sps' n c x' y') :
    ∃ k k', sample dst.format dps m' c x y = some k ∧ sample dst'.format dps' n' c x' y' = some k' ∧ k ≤ k' + 1 := by
  by_cases hne : src.color.transfer = dst.color.transfer ∧ src.color.primaries = dst.color.primaries
  · obtain ⟨h1, h2⟩ := rgb_locs hs hd hc x y
    obtain ⟨h3, h4⟩ := rgb_locs hs' hd' hc x' y'
    have hV := shown_depicts (w := src.width) (h := src.height) r.returned.vsrc.fits.1 m
    have hV' := shown_depicts (w := src'.width) (h := src'.height) r'.returned.vsrc.fits.1 n
    have e1 : sample src.format sps m c x y = some (shown src.format sps m c x y) :=
      hV c x y _ (by rw [r.returned.width]; exact hx) (by rw [r.returned.height]; exact hy) h1.choose_spec
    have e2 : sample src'.format sps' n c x' y' = some (shown src'.format sps' n c x' y') :=
      hV' c x' y' _ (by rw [r'.returned.width]; exact hx') (by rw [r'.returned.height]; exact hy') h3.choose_spec
    exact ⟨_, _, (C24_same_light r hs hd hne.1 hne.2 hx hy h1 h2).trans e1,
      (C24_same_light r' hs' hd' (by rw [hcs, hcd]; exact hne.1) (by rw [hcs, hcd]; exact hne.2) hx' hy' h3 h4).trans e2,
      (hle c hc).trans (Nat.le_succ _)⟩
  obtain ⟨k, a, hk, a0, da, hcode⟩ := change_code r ha hs hd hst hne hc hx hy
  obtain ⟨k', a', hk', a0', da', hcode'⟩ := change_code r' ha' hs' hd' (by rw [hcs]; exact hst) (by rw [hcs, hcd]; exact hne) hc hx' hy'
  refine ⟨k, k', hk, hk', ?_⟩
  rw [hcs, hcd] at da'
  rw [hcd] at hcode'
  -- the light
  have hL : lightIn src.color dst.color (shown src.format sps m) c x y ≤
      lightIn src.color dst.color (shown src'.format sps' n) c x' y' + 2 / 10 ^ 6 := by
    have hf := column_floats p ha dst.width x
    have lights : ∀ c, (c = .R ∨ c = .G ∨ c = .B) →
        0 ≤ decodeTransfer (exactAr x) src.color.transfer ((shown src.format sps m c x y : ℝ) / 255) ∧
        decodeTransfer (exactAr x) src.color.transfer ((shown src.format sps m c x y : ℝ) / 255) ≤
          decodeTransfer (exactAr x) src.color.transfer ((shown src'.format sps' n c x' y' : ℝ) / 255) ∧
        decodeTransfer (exactAr x) src.color.transfer ((shown src'.format sps' n c x' y' : ℝ) / 255) ≤ 1001 / 1000 := by
      intro c hc
      refine ⟨(light_app hf (exactAr_exact x) hst (shown_le (rgb8 hs).1 sps m c x y)).2.1, ?_,
        (light_app hf (exactAr_exact x) hst (shown_le (rgb8 hs').1 sps' n c x' y')).2.2⟩
      refine dec_mono (exactAr_exact x) hst (by positivity) ?_
      have : (shown src.format sps m c x y : ℝ) ≤ shown src'.format sps' n c x' y' := by exact_mod_cast hle c hc
      gcongr
    obtain ⟨m1, m2, m3⟩ := wider_mono (exactAr_exact x) (sp := src.color.primaries) (dp := dst.color.primaries) hp
      (p := (_, _, _)) (q := (_, _, _)) (lights .R (by simp)) (lights .G (by simp)) (lights .B (by simp))
    rcases hc with rfl | rfl | rfl
    · exact m1
    · exact m2
    · exact m3
  have hmax : max 0 (lightIn src.color dst.color (shown src.format sps m) c x y) ≤
      max 0 (lightIn src.color dst.color (shown src'.format sps' n) c x' y') + 2 / 10 ^ 6 :=
    max_le (by have := le_max_left 0 (lightIn src.color dst.color (shown src'.format sps' n) c x' y'); positivity)
      (hL.trans (by have := le_max_right 0 (lightIn src.color dst.color (shown src'.format sps' n) c x' y'); linarith))
  generalize max 0 (lightIn src.color dst.color (shown src.format sps m) c x y) = L at *
  generalize max 0 (lightIn src.color dst.color (shown src'.format sps' n) c x' y') = L' at *
  have haa : a ≤ a' + 26 / 10 ^ 6 := by
    have h1 := (abs_le.mp da).2
    have h2 := (abs_le.mp da').1
    norm_num at h1 h2 hmax ⊢
    linarith
  have e' : encodeTransfer (exactAr x') dst.color.transfer a' = encodeTransfer (exactAr x) dst.color.transfer a' := rfl
  rw [e'] at hcode'
  -- the signals
  have henc : encodeTransfer (exactAr x) dst.color.transfer a ≤ encodeTransfer (exactAr x) dst.color.transfer a' + 62 / 10 ^ 5 := by
    have hm : encodeTransfer (exactAr x) dst.color.transfer a ≤ encodeTransfer (exactAr x) dst.color.transfer (a' + 26 / 10 ^ 6) + 1e-7 := by
      rcases hdt with h | h | h <;> rw [h]
      · simp only [encodeTransfer]; norm_num at haa ⊢; linarith
      · exact enc_srgb_mono (exactAr_exact x) a0 haa
      · have := enc_sdr_mono (exactAr_exact x) a0 haa; norm_num at this ⊢; linarith
    have hl := (abs_le.mp (enc_lip (exactAr_exact x) (t := dst.color.transfer) hdt (a' + 26 / 10 ^ 6) a')).2
    rw [add_sub_cancel_left] at hl
    have : encodeSlope dst.color.transfer * |(26 / 10 ^ 6 : ℝ)| + encodeJump dst.color.transfer ≤ 61 / 10 ^ 5 := by
      rw [abs_of_nonneg (by norm_num)]
      rcases hdt with h | h | h <;> rw [h] <;> simp only [encodeSlope, encodeJump] <;> norm_num
    norm_num at hm this ⊢
    linarith
  have hC : clamp255 (encodeTransfer (exactAr x) dst.color.transfer a * 255) ≤
      clamp255 (encodeTransfer (exactAr x) dst.color.transfer a' * 255) + 16 / 100 := by
    generalize encodeTransfer (exactAr x) dst.color.transfer a = A at *
    generalize encodeTransfer (exactAr x) dst.color.transfer a' = B at *
    have h1 : clamp255 (A * 255) ≤ clamp255 (B * 255 + 16 / 100) := by
      unfold clamp255
      exact max_le_max_left 0 (min_le_min_left 255 (by norm_num at henc ⊢; linarith))
    have h2 := (abs_le.mp (clamp_lipschitz (B * 255 + 16 / 100) (B * 255))).2
    rw [add_sub_cancel_left, abs_of_nonneg (by norm_num)] at h2
    linarith
  generalize clamp255 (encodeTransfer (exactAr x) dst.color.transfer a * 255) = A at *
  generalize clamp255 (encodeTransfer (exactAr x) dst.color.transfer a' * 255) = B at *
  have up : (k : ℝ) ≤ A + 52 / 100 := by
    by_cases ht : Truncates p dst.width x
    · have := (hcode.2 ht).1; norm_num at this ⊢; linarith
    · have := (abs_le.mp (hcode.1 ht)).2; norm_num at this ⊢; linarith
  have low : B - 102 / 100 ≤ (k' : ℝ) := by
    by_cases ht : Truncates p' dst'.width x'
    · have := (hcode'.2 ht).2; norm_num at this ⊢; linarith
    · have := (abs_le.mp (hcode'.1 ht)).1; norm_num at this ⊢; linarith
  have : (k : ℝ) < ((k' + 2 : Nat) : ℝ) := by push_cast; norm_num at hC up low; linarith
  have : k < k' + 2 := by exact_mod_cast this
  omega

/-- Red and yellow of BT.2020 in the smaller sets of primaries. -/
theorem yellow_narrow {rr : Arith ℝ} (he : Exact rr) {dp : ColorPrimaries} (h : dp = .BT709 ∨ dp = .ST240) :
    160 ≤ (rowMul rr (rowMul rr (100, 0, 0) ColorPrimaries.BT2020.rgbToXyzMat) dp.xyzToRgbMat).1 ∧
    (rowMul rr (rowMul rr (100, 240, 0) ColorPrimaries.BT2020.rgbToXyzMat) dp.xyzToRgbMat).1 ≤ 30 := by
  simp only [rowMul, dot, he.add, he.mul]
  rcases h with rfl | rfl <;> simp only [ColorPrimaries.rgbToXyzMat, BT2020_RGB_TO_XYZ,
    ColorPrimaries.xyzToRgbMat, ST240_XYZ_TO_RGB, BT709_XYZ_TO_RGB, lit_real] <;>
    norm_num [Rat.cast_ofScientific]

/-- Into a smaller set of primaries it is false: with more green there is less red, 31 at most instead of 158 or more. -/
theorem C57_narrow_false (r : Run (p.real scalar) src dst sps dps m m') (ha : scalar.Accurate) (hs : isYuv src.format = false)
    (hd : isYuv dst.format = false) (hst : src.color.transfer = .Linear) (hdt : dst.color.transfer = .Linear)
    (hsp : src.color.primaries = .BT2020) (hdp : dst.color.primaries = .BT709 ∨ dst.color.primaries = .ST240) {x y x' y' : Nat}
    (hx : x < dst.width) (hy : y < dst.height) (hx' : x' < dst.width) (hy' : y' < dst.height)
    (hR : sample src.format sps m .R x y = some 100) (hG : sample src.format sps m .G x y = some 0)
    (hB : sample src.format sps m .B x y = some 0) (hR' : sample src.format sps m .R x' y' = some 100)
    (hG' : sample src.format sps m .G x' y' = some 240) (hB' : sample src.format sps m .B x' y' = some 0) :
    ∃ k k', sample dst.format dps m' .R x y = some k ∧ sample dst.format dps m' .R x' y' = some k' ∧ 158 ≤ k ∧ k' ≤ 31 := by
  have hne : src.color.primaries ≠ dst.color.primaries := by rw [hsp]; rcases hdp with h | h <;> rw [h] <;> decide
  obtain ⟨k, hk, -, hcode⟩ := linear_code r ha hs hd hst hdt hne (c := .R) (by simp) hx hy
  obtain ⟨k', hk', -, hcode'⟩ := linear_code r ha hs hd hst hdt hne (c := .R) (by simp) hx' hy'
  refine ⟨k, k', hk, hk', ?_⟩
  simp only [shown, hR, hG, hB, hR', hG', hB', Option.getD_some] at hcode hcode'
  have h1 := (yellow_narrow (exactAr_exact x) hdp).1
  have h2 := (yellow_narrow (exactAr_exact x') hdp).2
  rw [hsp] at hcode hcode'
  have e1 : 160 ≤ component (mixCodes x .BT2020 dst.color.primaries 100 0 0) .R := by
    simpa only [component, mixCodes, Nat.cast_zero, Nat.cast_ofNat] using h1
  have e2 : component (mixCodes x' .BT2020 dst.color.primaries 100 240 0) .R ≤ 30 := by
    simpa only [component, mixCodes, Nat.cast_zero, Nat.cast_ofNat] using h2
  have c1 : 160 ≤ clamp255 (component (mixCodes x .BT2020 dst.color.primaries 100 0 0) .R) := by
    unfold clamp255; exact le_max_of_le_right (le_min (by norm_num) e1)
  have c2 : clamp255 (component (mixCodes x' .BT2020 dst.color.primaries 100 240 0) .R) ≤ 30 := by
    unfold clamp255; exact max_le (by norm_num) (min_le_of_right_le e2)
  have low : ((158 : Nat) : ℝ) ≤ (k : ℝ) := by
    by_cases ht : Truncates p dst.width x
    · have := (hcode.2 ht).2; push_cast; norm_num at this; linarith
    · have := (abs_le.mp (hcode.1 ht)).1; push_cast; norm_num at this; linarith
  have up : (k' : ℝ) ≤ ((31 : Nat) : ℝ) := by
    by_cases ht : Truncates p dst.width x'
    · have := (hcode'.2 ht).1; push_cast; norm_num at this; linarith
    · have := (abs_le.mp (hcode'.1 ht)).2; push_cast; norm_num at this; linarith
  exact ⟨by exact_mod_cast low, by exact_mod_cast up⟩

/-- A colour image of BT.709 in which `(9, 1)` has more of everything than `(8, 1)`. -/
example : ∃ (scalar : Libm) (mo : Mem) (k k' : Nat), scalar.Accurate ∧ sample .RGBA [⟨⟨400, 256⟩, 128⟩] mo .G 8 1 = some k ∧
    sample .RGBA [⟨⟨400, 256⟩, 128⟩] mo .G 9 1 = some k' ∧ k ≤ k' + 1 := by
  obtain ⟨scalar, ha⟩ := libm_exists
  obtain ⟨mo, r⟩ := run_exists (c := Platform.avx2.real scalar) (platform_lawful .avx2 _ _)
    (src := .raw .RGB 32 2 [⟨⟨0, 200⟩, 96⟩] (.RGB ⟨.BT2100HLG, .BT709⟩)) (dst := .raw .RGBA 32 2 [⟨⟨400, 256⟩, 128⟩] (.RGB ⟨.SRGB, .BT2020⟩))
    (sps := [⟨⟨0, 200⟩, 96⟩]) (dps := [⟨⟨400, 256⟩, 128⟩]) rfl rfl
    (planesDisjoint_of (by decide)) (separate_of (by decide)) (uniform_of (by decide)) (by decide) fun a => UInt8.ofNat (a * 7)
  obtain ⟨k, k', h⟩ := C57_change_partial r r ha ha rfl rfl rfl rfl rfl rfl nofun (.inr (.inl rfl)) (.inr ⟨.inl rfl, rfl⟩) (c := .G) (by simp)
    (x := 8) (y := 1) (x' := 9) (y' := 1) (by decide) (by decide) (by decide) (by decide)
    (by rintro c (rfl | rfl | rfl) <;> decide +kernel)
  exact ⟨scalar, mo, k, k', ha, h⟩

/-- Red and yellow, for which `C57_narrow_false` speaks. -/
example : ∃ (scalar : Libm) (mo : Mem) (k k' : Nat), scalar.Accurate ∧ sample .RGBA [⟨⟨400, 256⟩, 128⟩] mo .R 8 1 = some k ∧
    sample .RGBA [⟨⟨400, 256⟩, 128⟩] mo .R 9 1 = some k' ∧ 158 ≤ k ∧ k' ≤ 31 := by
  obtain ⟨scalar, ha⟩ := libm_exists
  obtain ⟨mo, r⟩ := run_exists (c := Platform.avx2.real scalar) (platform_lawful .avx2 _ _)
    (src := .raw .RGB 32 2 [⟨⟨0, 200⟩, 96⟩] (.RGB ⟨.Linear, .BT2020⟩)) (dst := .raw .RGBA 32 2 [⟨⟨400, 256⟩, 128⟩] (.RGB ⟨.Linear, .BT709⟩))
    (sps := [⟨⟨0, 200⟩, 96⟩]) (dps := [⟨⟨400, 256⟩, 128⟩]) rfl rfl
    (planesDisjoint_of (by decide)) (separate_of (by decide)) (uniform_of (by decide)) (by decide)
    fun a => if a % 3 = 0 then 100 else if a = 124 then 240 else 0
  obtain ⟨k, k', h⟩ := C57_narrow_false r ha rfl rfl rfl rfl rfl (.inl rfl) (x := 8) (y := 1) (x' := 9) (y' := 1) (by decide) (by decide)
    (by decide) (by decide) (by decide +kernel) (by decide +kernel) (by decide +kernel) (by decide +kernel) (by decide +kernel) (by decide +kernel)
  exact ⟨scalar, mo, k, k', ha, h⟩

end Ezk.Props

import Verif.Props.BlackWhite
import Verif.Props.ChangeYuv
import Verif.Props.ChangeToYuv
import Verif.Props.Gamut

/-!
# C83: changes of colour agree on all platforms

Two conversions with a change of transfer function or primaries, on any two platforms; two pixels of the same colour.
-/

namespace Ezk.Props
open FOps Spec F32 PixelFormat

variable {p p2 : Platform} {scalar scalar2 : Libm} {src dst src' dst' : Img} {sps dps sps' dps' : List Plane} {m m' n n' : Mem}

/-- How far the codes of one colour may be apart. Roots magnify the errors of dark light. -/
def spread : ColorTransfer → Nat
  | .Linear => 1
  | .SRGB => 1
  | .SDR => 1
  | .BT2100PQ => 2
  | .BT2100HLG => 4
  | .Gamma22 => 4
  | .Gamma28 => 10

/-- The signals of two lights next to each other, in codes. -/
theorem signal_gap (x : Nat) {t : ColorTransfer} {a L : ℝ} (a0 : 0 ≤ a) (L0 : 0 ≤ L) (L2 : L ≤ 2) (h : |a - L| ≤ 12 / 10 ^ 6) :
    |clamp255 (encodeTransfer (exactAr x) t a * 255) - clamp255 (encodeTransfer (exactAr x) t L * 255)| ≤ codeTolerance t - storeTolerance t := by
  refine (clamp_lipschitz _ _).trans ?_
  rw [← sub_mul, abs_mul, abs_of_nonneg (show (0 : ℝ) ≤ 255 by norm_num)]
  by_cases hdt : t = .BT2100PQ
  · rw [hdt]
    have := enc_pq_gap (exactAr_exact x) a0 L0 (by norm_num at h; linarith [(abs_le.mp h).2]) (by linarith) h
    rw [storeTolerance, if_pos rfl, codeTolerance]
    norm_num at this ⊢
    linarith
  · have := enc_cont (exactAr_exact x) hdt a0 L0 h
    have h7 : 1 + 1 / 1000 + encodeGap t * 255 ≤ codeTolerance t := by
      revert hdt
      cases t <;> intro hdt <;> first | exact absurd rfl hdt | (simp only [encodeGap, codeTolerance]; norm_num)
    rw [storeTolerance, if_neg hdt]
    linarith

/-- Codes of two signals, on two platforms. -/
theorem codes_apart {w x w' x' : Nat} {a b : Nat} {A B d : ℝ} (ha : CodeOf p w x (1 / 50) a A) (hb : CodeOf p2 w' x' (1 / 50) b B)
    (h : |A - B| ≤ d) : (a : ℝ) < b + (1 + 6 / 10 + d) := by
  have a1 : (a : ℝ) ≤ A + (1 / 2 + 1 / 50) := by
    by_cases ht : Truncates p w x
    · linarith [(ha.2 ht).1]
    · linarith [(abs_le.mp (ha.1 ht)).2]
  have b1 : B < b + (1 + 1 / 50) := by
    by_cases ht : Truncates p2 w' x'
    · linarith [(hb.2 ht).2]
    · linarith [(abs_le.mp (hb.1 ht)).1]
  linarith [(abs_le.mp h).2]

/-- **C83** (partial: sources other than PQ). Two pixels of the same colour, at any places of any two RGB images, converted with the same
change of transfer function or primaries on any two platforms: their codes are at most `spread` apart, which is one for Linear, SRGB and
SDR. -/
theorem C83_agree_partial (r : Run (p.real scalar) src dst sps dps m m') (r' : Run (p2.real scalar2) src' dst' sps' dps' n n')
    (ha : scalar.Accurate) (ha' : scalar2.Accurate) (hs : isYuv src.format = false) (hd : isYuv dst.format = false)
    (hs' : isYuv src'.format = false) (hd' : isYuv dst'.format = false) (es : src'.color = src.color) (ed : dst'.color = dst.color)
    (hst : src.color.transfer ≠ .BT2100PQ)
    (hne : ¬ (src.color.transfer = dst.color.transfer ∧ src.color.primaries = dst.color.primaries)) {x y x' y' : Nat} (hx : x < dst.width)
    (hy : y < dst.height) (hx' : x' < dst'.width) (hy' : y' < dst'.height)
    (hV : ∀ c, c = .R ∨ c = .G ∨ c = .B → sample src.format sps m c x y = sample src'.format sps' n c x' y')
    {c : Chan} (hc : c = .R ∨ c = .G ∨ c = .B) :
    ∃ a b, sample dst.format dps m' c x y = some a ∧ sample dst'.format dps' n' c x' y' = some b ∧
      a ≤ b + spread dst.color.transfer ∧ b ≤ a + spread dst.color.transfer := by
  obtain ⟨k, l, e1, l0, l1, h1⟩ := change_code r ha hs hd hst hne hc hx hy
  obtain ⟨k', l', e2, l0', l1', h2⟩ := change_code r' ha' hs' hd' (by rw [es]; exact hst) (by rw [es, ed]; exact hne) hc hx' hy'
  obtain ⟨-, -, -, -, -, -, -, hw, -, -⟩ := change_stored r ha hs hd hne hc hx hy
  have hw := hw hst
  rw [es, ed] at l1'
  rw [ed] at h2
  have hsh : ∀ c, c = .R ∨ c = .G ∨ c = .B → shown src.format sps m c x y = shown src'.format sps' n c x' y' := by
    intro c hc
    rw [shown, shown, hV c hc]
  have el : lightIn src.color dst.color (shown src.format sps m) c x y = lightIn src.color dst.color (shown src'.format sps' n) c x' y' := by
    simp only [lightIn, hsh .R (by simp), hsh .G (by simp), hsh .B (by simp)]
    rfl
  rw [← el] at l1'
  generalize lightIn src.color dst.color (shown src.format sps m) c x y = L at *
  have hm : max 0 L ≤ 2 := max_le (by norm_num) hw
  have g1 := signal_gap x (t := dst.color.transfer) l0 (le_max_left 0 L) hm l1
  have g2 := signal_gap x (t := dst.color.transfer) l0' (le_max_left 0 L) hm l1'
  have ex : (exactAr x' : Arith ℝ) = exactAr x := rfl
  rw [ex] at h2
  generalize clamp255 (encodeTransfer (exactAr x) dst.color.transfer l * 255) = A at *
  generalize clamp255 (encodeTransfer (exactAr x) dst.color.transfer l' * 255) = B at *
  generalize clamp255 (encodeTransfer (exactAr x) dst.color.transfer (max 0 L) * 255) = C at *
  have hAB : |A - B| ≤ 2 * (codeTolerance dst.color.transfer - storeTolerance dst.color.transfer) := by
    rw [abs_le] at *
    constructor <;> linarith [g1.1, g1.2, g2.1, g2.2]
  have u1 := codes_apart h1 h2 hAB
  have u2 := codes_apart h2 h1 ((abs_sub_comm B A).trans_le hAB)
  have hsp : 1 + 6 / 10 + 2 * (codeTolerance dst.color.transfer - storeTolerance dst.color.transfer) ≤ (spread dst.color.transfer : ℝ) + 1 := by
    cases dst.color.transfer <;> simp only [codeTolerance, storeTolerance, spread, reduceCtorEq, if_false, if_true] <;> norm_num
  have u1 : (k : ℝ) < ((k' + spread dst.color.transfer + 1 : Nat) : ℝ) := by push_cast; linarith
  have u2 : (k' : ℝ) < ((k + spread dst.color.transfer + 1 : Nat) : ℝ) := by push_cast; linarith
  have u1 : k < k' + spread dst.color.transfer + 1 := by exact_mod_cast u1
  have u2 : k' < k + spread dst.color.transfer + 1 := by exact_mod_cast u2
  exact ⟨k, k', e1, e2, by omega, by omega⟩

/-- **C83** is false for PQ sources: white becomes black when AVX2 converts it to a `Linear` image, and white (254 or 255) on NEON. -/
theorem C83_pq_false {scalar : Libm} (ha : scalar.Accurate) : ∃ m' n' b,
    Run (Platform.avx2.real scalar) (.raw .RGB 16 2 [⟨⟨0, 96⟩, 48⟩] (.RGB ⟨.BT2100PQ, .BT709⟩))
      (.raw .RGB 16 2 [⟨⟨200, 96⟩, 48⟩] (.RGB ⟨.Linear, .BT709⟩)) [⟨⟨0, 96⟩, 48⟩] [⟨⟨200, 96⟩, 48⟩] (fun _ => 255) m' ∧
    Run (Platform.neon.real scalar) (.raw .RGB 16 2 [⟨⟨0, 96⟩, 48⟩] (.RGB ⟨.BT2100PQ, .BT709⟩))
      (.raw .RGB 16 2 [⟨⟨200, 96⟩, 48⟩] (.RGB ⟨.Linear, .BT709⟩)) [⟨⟨0, 96⟩, 48⟩] [⟨⟨200, 96⟩, 48⟩] (fun _ => 255) n' ∧
    sample .RGB [⟨⟨200, 96⟩, 48⟩] m' .G 3 0 = some 0 ∧ sample .RGB [⟨⟨200, 96⟩, 48⟩] n' .G 3 0 = some b ∧ 254 ≤ b := by
  obtain ⟨m', r⟩ := run_exists (c := Platform.avx2.real scalar) (platform_lawful .avx2 _ _)
    (src := .raw .RGB 16 2 [⟨⟨0, 96⟩, 48⟩] (.RGB ⟨.BT2100PQ, .BT709⟩))
    (dst := .raw .RGB 16 2 [⟨⟨200, 96⟩, 48⟩] (.RGB ⟨.Linear, .BT709⟩)) (sps := [⟨⟨0, 96⟩, 48⟩]) (dps := [⟨⟨200, 96⟩, 48⟩]) rfl rfl
    (planesDisjoint_of (by decide)) (separate_of (by decide)) (uniform_of (by decide)) (by decide) (fun _ => 255)
  obtain ⟨n', r'⟩ := run_exists (c := Platform.neon.real scalar) (platform_lawful .neon _ _)
    (src := .raw .RGB 16 2 [⟨⟨0, 96⟩, 48⟩] (.RGB ⟨.BT2100PQ, .BT709⟩))
    (dst := .raw .RGB 16 2 [⟨⟨200, 96⟩, 48⟩] (.RGB ⟨.Linear, .BT709⟩)) (sps := [⟨⟨0, 96⟩, 48⟩]) (dps := [⟨⟨200, 96⟩, 48⟩]) rfl rfl
    (planesDisjoint_of (by decide)) (separate_of (by decide)) (uniform_of (by decide)) (by decide) (fun _ => 255)
  obtain ⟨b, e2, h254, -⟩ := C74_white_partial r' ha rfl rfl nofun (c := .G) (by simp) (x := 3) (y := 0) (by decide) (by decide)
    (fun _ _ => .inr (.inl rfl)) (by rintro c (rfl | rfl | rfl) <;> decide)
  refine ⟨m', n', b, r, r', C50_linear_black r ha rfl rfl rfl rfl (c := .G) (by simp) (x := 3) (y := 0) (by decide) (by decide) (.inl rfl)
    (by simp [Truncates]; decide) ?_, e2, h254⟩
  have ht : changeTolerance _ _ 3 0 ≤ 15 := (change_stored r ha rfl rfl (by decide) (c := .G) (by simp) (x := 3) (y := 0)
    (by decide) (by decide)).choose_spec.choose_spec.2.2.2.2.1
  have h1 := white_pq 3
  have h2 := (light_pq_app (exactAr_exact 3) (column_floats .scalar ha 1 0) (n := 255) (by norm_num)).2.2
  have hl : 1000 ≤ lightIn (.RGB ⟨.BT2100PQ, .BT709⟩) (.RGB ⟨.Linear, .BT709⟩) (shown .RGB [⟨⟨0, 96⟩, 48⟩] fun _ => 255) .G 3 0 := by
    have e : ∀ c, c = .R ∨ c = .G ∨ c = .B → shown .RGB [⟨⟨0, 96⟩, 48⟩] (fun _ => 255) c 3 0 = 255 := by
      rintro c (rfl | rfl | rfl) <;> decide
    unfold lightIn
    simp only [e .R (by simp), e .G (by simp), e .B (by simp), show (ColorInfo.RGB ⟨.BT2100PQ, .BT709⟩).transfer = .BT2100PQ from rfl,
      show (ColorInfo.RGB ⟨.BT2100PQ, .BT709⟩).primaries = .BT709 from rfl, show (ColorInfo.RGB ⟨.Linear, .BT709⟩).primaries = .BT709 from rfl]
    generalize decodeTransfer (exactAr 3) .BT2100PQ (((255 : Nat) : ℝ) / 255) = L at *
    simp only [component, rowMul, dot, (exactAr_exact 3).add, (exactAr_exact 3).mul, ColorPrimaries.rgbToXyzMat, BT709_RGB_TO_XYZ,
      ColorPrimaries.xyzToRgbMat, BT709_XYZ_TO_RGB, lit_real]
    norm_num [Rat.cast_ofScientific]
    linarith
  refine le_trans (add_le_add_right ht _) (le_trans (by norm_num) hl)

/-- **C83** for YUV sources (partial: matrices BT.601 and BT.709, signals as in C52): the codes are at most two apart. The two images may
have different layouts of the same depth. -/
theorem C83_yuv_partial (r : Run (p.real scalar) src dst sps dps m m') (r' : Run (p2.real scalar2) src' dst' sps' dps' n n')
    (ha : scalar.Accurate) (ha' : scalar2.Accurate) (hs : isYuv src.format = true) (hd : isYuv dst.format = false)
    (hs' : isYuv src'.format = true) (hd' : isYuv dst'.format = false) (hb : sampleBits src'.format = sampleBits src.format)
    {i : YuvColorInfo} (hi : src.color = .YUV i) (es : src'.color = src.color) (ed : dst'.color = dst.color)
    (hne : ¬ (src.color.transfer = dst.color.transfer ∧ src.color.primaries = dst.color.primaries))
    (hcs : i.space = .BT601 ∨ i.space = .BT709) {k : ℝ × ℝ × ℝ} (hk : lumaWeights i.space = some k)
    (ht : dst.color.transfer = .Linear ∨ dst.color.transfer = .SRGB ∨ dst.color.transfer = .SDR) {x y x' y' : Nat} (hx : x < dst.width)
    (hy : y < dst.height) (hx' : x' < dst'.width) (hy' : y' < dst'.height)
    (hV : InDepth src.format src.width src.height (shown src.format sps m))
    (hV' : InDepth src'.format src'.width src'.height (shown src'.format sps' n))
    (hsig : Decodable p dst.width x i.transfer (signalsOf k src.format i.fullRange (shown src.format sps m) x y))
    (hsig' : Decodable p2 dst'.width x' i.transfer (signalsOf k src.format i.fullRange (shown src.format sps m) x y))
    (he : ∀ c, c = .Y ∨ c = .U ∨ c = .V → sample src.format sps m c x y = sample src'.format sps' n c x' y')
    {c : Chan} (hc : c = .R ∨ c = .G ∨ c = .B) :
    ∃ a b, sample dst.format dps m' c x y = some a ∧ sample dst'.format dps' n' c x' y' = some b ∧ a ≤ b + 2 ∧ b ≤ a + 2 := by
  have hsh : ∀ c, c = .Y ∨ c = .U ∨ c = .V → shown src.format sps m c x y = shown src'.format sps' n c x' y' := by
    intro c hc
    rw [shown, shown, he c hc]
  have e : signalsOf k src'.format i.fullRange (shown src'.format sps' n) x' y' =
      signalsOf k src.format i.fullRange (shown src.format sps m) x y := by
    funext c
    simp only [signalsOf, idealRgb, hsh .Y (by simp), hsh .U (by simp), hsh .V (by simp), hb]
  obtain ⟨a, e1, h1⟩ := C52_codes_partial r ha hs hd hi hne hcs hk ht hc hx hy hV hsig
  obtain ⟨b, e2, h2⟩ := C52_codes_partial r' ha' hs' hd' (es.trans hi) (by rw [es, ed]; exact hne) hcs hk (by rw [ed]; exact ht) hc hx' hy' hV'
    (by rw [e]; exact hsig')
  rw [e, es, ed, show (exactAr x' : Arith ℝ) = exactAr x from rfl,
    show lightOf src.color dst.color x' = lightOf src.color dst.color x from rfl] at h2
  generalize clamp255 _ = A at h1 h2
  have h3 : (if dst.color.transfer = .Linear then 1 + 4 / 100 else if dst.color.transfer = .SRGB then 1 + 47 / 100 else 1 + 25 / 100 : ℝ) ≤ 1 + 1 / 2 := by
    split_ifs <;> norm_num
  have h1 := abs_lt.mp (h1.trans_le h3)
  have h2 := abs_lt.mp (h2.trans_le h3)
  have u1 : (a : ℝ) < ((b + 3 : Nat) : ℝ) := by push_cast; linarith [h1.2, h2.1]
  have u2 : (b : ℝ) < ((a + 3 : Nat) : ℝ) := by push_cast; linarith [h1.1, h2.2]
  have u1 : a < b + 3 := by exact_mod_cast u1
  have u2 : b < a + 3 := by exact_mod_cast u2
  exact ⟨a, b, e1, e2, by omega, by omega⟩

/-- **C83** is false for YUV colours outside of the RGB cube: the colour `(128, 128, 0)` of an SDR image becomes red of 48 on NEON and of at most
41 on AVX2. -/
theorem C83_cube_false (ha : scalar.Accurate) : ∃ m m' n' a,
    Run (Platform.neon.real scalar) (.raw .I444 16 2 [⟨⟨0, 32⟩, 16⟩, ⟨⟨100, 32⟩, 16⟩, ⟨⟨200, 32⟩, 16⟩] (.YUV ⟨.SDR, .BT709, .BT709, true⟩))
      (.raw .RGB 16 2 [⟨⟨300, 96⟩, 48⟩] (.RGB ⟨.Linear, .BT2020⟩)) [⟨⟨0, 32⟩, 16⟩, ⟨⟨100, 32⟩, 16⟩, ⟨⟨200, 32⟩, 16⟩] [⟨⟨300, 96⟩, 48⟩] m n' ∧
    Run (Platform.avx2.real scalar) (.raw .I444 16 2 [⟨⟨0, 32⟩, 16⟩, ⟨⟨100, 32⟩, 16⟩, ⟨⟨200, 32⟩, 16⟩] (.YUV ⟨.SDR, .BT709, .BT709, true⟩))
      (.raw .RGB 16 2 [⟨⟨300, 96⟩, 48⟩] (.RGB ⟨.Linear, .BT2020⟩)) [⟨⟨0, 32⟩, 16⟩, ⟨⟨100, 32⟩, 16⟩, ⟨⟨200, 32⟩, 16⟩] [⟨⟨300, 96⟩, 48⟩] m m' ∧
    sample .RGB [⟨⟨300, 96⟩, 48⟩] n' .R 5 1 = some 48 ∧ sample .RGB [⟨⟨300, 96⟩, 48⟩] m' .R 5 1 = some a ∧ a ≤ 41 := by
  obtain ⟨n', r'⟩ := run_exists (c := Platform.neon.real scalar) (platform_lawful .neon _ _)
    (src := .raw .I444 16 2 [⟨⟨0, 32⟩, 16⟩, ⟨⟨100, 32⟩, 16⟩, ⟨⟨200, 32⟩, 16⟩] (.YUV ⟨.SDR, .BT709, .BT709, true⟩))
    (dst := .raw .RGB 16 2 [⟨⟨300, 96⟩, 48⟩] (.RGB ⟨.Linear, .BT2020⟩))
    (sps := [⟨⟨0, 32⟩, 16⟩, ⟨⟨100, 32⟩, 16⟩, ⟨⟨200, 32⟩, 16⟩]) (dps := [⟨⟨300, 96⟩, 48⟩]) rfl rfl
    (planesDisjoint_of (by decide)) (separate_of (by decide)) (uniform_of (by decide)) (by decide)
    (fun a => if a < 200 then 128 else 0)
  obtain ⟨m', r⟩ := run_exists (c := Platform.avx2.real scalar) (platform_lawful .avx2 _ _)
    (src := .raw .I444 16 2 [⟨⟨0, 32⟩, 16⟩, ⟨⟨100, 32⟩, 16⟩, ⟨⟨200, 32⟩, 16⟩] (.YUV ⟨.SDR, .BT709, .BT709, true⟩))
    (dst := .raw .RGB 16 2 [⟨⟨300, 96⟩, 48⟩] (.RGB ⟨.Linear, .BT2020⟩))
    (sps := [⟨⟨0, 32⟩, 16⟩, ⟨⟨100, 32⟩, 16⟩, ⟨⟨200, 32⟩, 16⟩]) (dps := [⟨⟨300, 96⟩, 48⟩]) rfl rfl
    (planesDisjoint_of (by decide)) (separate_of (by decide)) (uniform_of (by decide)) (by decide)
    (fun a => if a < 200 then 128 else 0)
  obtain ⟨e1, h40⟩ := C52_neon_false r' rfl rfl rfl rfl rfl (x := 5) (y := 1) (by decide) (by decide) (by decide) (by decide) (by decide)
  obtain ⟨a, e2, h2⟩ := C52_codes_partial r ha rfl rfl rfl (by decide) (.inr rfl) (k := (0.2126, 0.7152, 0.0722)) rfl (.inl rfl)
    (c := .R) (by simp) (x := 5) (y := 1) (by decide) (by decide) (fun c x y l _ _ _ => shown_le rfl _ _ c x y) (fun h => nomatch h.1)
  refine ⟨_, m', n', a, r', r, e1, e2, ?_⟩
  have h3 := (abs_lt.mp (h2.trans_le (le_of_eq (if_pos rfl)))).2
  have h4 : (a : ℝ) < ((42 : Nat) : ℝ) := by
    push_cast
    exact lt_of_lt_of_le (sub_lt_iff_lt_add.mp h3) (by
      refine le_trans (add_le_add_right h40 _) ?_
      norm_num)
  have h4 : a < 42 := by exact_mod_cast h4
  omega

/-- **C83** for RGB images that become YUV images (partial: 8 bits, matrices BT.601 and BT.709, no PQ sources, destinations Linear, SRGB and SDR,
ideal codes that the format has, no light below 0 on NEON). Images that show the same are converted to images that differ by at most two codes. -/
theorem C83_to_yuv_partial (r : Run (p.real scalar) src dst sps dps m m') (r' : Run (p2.real scalar2) src' dst' sps' dps' n n')
    (ha : scalar.Accurate) (ha' : scalar2.Accurate) (hs : isYuv src.format = false) (hd : isYuv dst.format = true)
    (hs' : isYuv src'.format = false) (hd' : dst'.format = dst.format) (h8 : sampleBits dst.format = 8) {j : YuvColorInfo}
    (hj : dst.color = .YUV j) (es : src'.color = src.color) (ed : dst'.color = dst.color)
    (hne : ¬ (src.color.transfer = dst.color.transfer ∧ src.color.primaries = dst.color.primaries))
    (hst : src.color.transfer ≠ .BT2100PQ) (ht : j.transfer = .Linear ∨ j.transfer = .SRGB ∨ j.transfer = .SDR)
    (hcs : j.space = .BT601 ∨ j.space = .BT709) {k : ℝ × ℝ × ℝ} (hk : lumaWeights j.space = some k)
    {c : Chan} (hc : c = .Y ∨ c = .U ∨ c = .V) {x y : Nat} (hx : x < dst.width) (hy : y < dst.height) (hx' : x < dst'.width)
    (hy' : y < dst'.height) (hV : ∀ c x y, shown src.format sps m c x y = shown src'.format sps' n c x y)
    (hneon : p = .neon ∨ p2 = .neon → j.transfer ≠ .Linear → ∀ x' y', SameCell dst.format x y x' y' →
      ∀ c, c = .R ∨ c = .G ∨ c = .B → -29 / 10 ^ 4 ≤ lightIn src.color dst.color (shown src.format sps m) c x' y')
    (h0 : 0 ≤ idealCodes k dst.format j.fullRange (fun c x y => encodeTransfer (exactAr x) j.transfer
      (lightIn src.color dst.color (shown src.format sps m) c x y)) c x y)
    (h1 : idealCodes k dst.format j.fullRange (fun c x y => encodeTransfer (exactAr x) j.transfer
      (lightIn src.color dst.color (shown src.format sps m) c x y)) c x y ≤ 255) :
    ∃ a b, sample dst.format dps m' c x y = some a ∧ sample dst'.format dps' n' c x y = some b ∧ a ≤ b + 2 ∧ b ≤ a + 2 := by
  have e : shown src'.format sps' n = shown src.format sps m := by
    funext c x y
    exact (hV c x y).symm
  have h255 : ((2 ^ sampleBits dst.format - 1 : Nat) : ℝ) = 255 := by rw [h8]; norm_num
  obtain ⟨a, e1, d1⟩ := C53_rgb_partial r ha hs hd hj hne hst ht hcs hk hc hx hy (fun hp hl x' y' hxy _ => hneon (.inl hp) hl x' y' hxy) h0
    (by rw [h255]; exact h1) (.inl h8)
  obtain ⟨b, e2, d2⟩ := C53_rgb_partial r' ha' hs' (by rw [hd']; exact hd) (ed.trans hj) (by rw [es, ed]; exact hne) (by rw [es]; exact hst) ht
    hcs hk hc hx' hy' (fun hp hl x' y' hxy _ => by rw [e, es, ed]; rw [hd'] at hxy; exact hneon (.inr hp) hl x' y' hxy)
    (by rw [e, es, ed, hd']; exact h0) (by rw [e, es, ed, hd', h255]; exact h1) (.inl (by rw [hd']; exact h8))
  rw [e, es, ed, hd', h255] at d2
  rw [h255] at d1
  generalize idealCodes k dst.format j.fullRange _ c x y = v at d1 d2
  have hT : rgbTolerance j.transfer * 255 ≤ 1 / 10 := by
    rcases ht with h | h | h <;> rw [h] <;> norm_num [rgbTolerance]
  have d1 := abs_lt.mp d1
  have d2 := abs_lt.mp d2
  have u1 : (a : ℝ) < ((b + 3 : Nat) : ℝ) := by push_cast; linarith [d1.2, d2.1]
  have u2 : (b : ℝ) < ((a + 3 : Nat) : ℝ) := by push_cast; linarith [d1.1, d2.2]
  have u1 : a < b + 3 := by exact_mod_cast u1
  have u2 : b < a + 3 := by exact_mod_cast u2
  exact ⟨a, b, e1, e2, by omega, by omega⟩

/-- One colour in the first pixel of an RGB image and in the last one of a BGRA image, on AVX2 and NEON. -/
example (m n : Mem) (h : ∀ c, c = .R ∨ c = .G ∨ c = .B →
      sample .RGB [⟨⟨0, 24⟩, 12⟩] m c 0 0 = sample .BGRA [⟨⟨0, 16⟩, 8⟩] n c 1 1) : ∃ m' n' a b,
    sample .RGB [⟨⟨100, 24⟩, 12⟩] m' .G 0 0 = some a ∧ sample .RGBA [⟨⟨200, 16⟩, 8⟩] n' .G 1 1 = some b ∧ a ≤ b + 1 ∧ b ≤ a + 1 := by
  obtain ⟨scalar, ha⟩ := libm_exists
  obtain ⟨m', r⟩ := run_exists (c := Platform.avx2.real scalar) (platform_lawful .avx2 _ _)
    (src := .raw .RGB 4 2 [⟨⟨0, 24⟩, 12⟩] (.RGB ⟨.SRGB, .BT709⟩))
    (dst := .raw .RGB 4 2 [⟨⟨100, 24⟩, 12⟩] (.RGB ⟨.SDR, .BT2020⟩))
    (sps := [⟨⟨0, 24⟩, 12⟩]) (dps := [⟨⟨100, 24⟩, 12⟩]) rfl rfl
    (planesDisjoint_of (by decide)) (separate_of (by decide)) (uniform_of (by decide)) (by decide) m
  obtain ⟨n', r'⟩ := run_exists (c := Platform.neon.real scalar) (platform_lawful .neon _ _)
    (src := .raw .BGRA 2 2 [⟨⟨0, 16⟩, 8⟩] (.RGB ⟨.SRGB, .BT709⟩))
    (dst := .raw .RGBA 2 2 [⟨⟨200, 16⟩, 8⟩] (.RGB ⟨.SDR, .BT2020⟩))
    (sps := [⟨⟨0, 16⟩, 8⟩]) (dps := [⟨⟨200, 16⟩, 8⟩]) rfl rfl
    (planesDisjoint_of (by decide)) (separate_of (by decide)) (uniform_of (by decide)) (by decide) n
  obtain ⟨a, b, h1⟩ := C83_agree_partial r r' ha ha rfl rfl rfl rfl rfl rfl nofun (by decide) (x := 0) (y := 0) (x' := 1) (y' := 1)
    (by decide) (by decide) (by decide) (by decide) h (c := .G) (by simp)
  exact ⟨m', n', a, b, h1⟩

/-- The same samples in an NV12 image on AVX-512 and in an I444 image on AVX2. -/
example (m n : Mem) (h : ∀ c, c = .Y ∨ c = .U ∨ c = .V →
      sample .NV12 [⟨⟨0, 32⟩, 16⟩, ⟨⟨100, 16⟩, 16⟩] m c 5 1 = sample .I444 [⟨⟨0, 8⟩, 4⟩, ⟨⟨100, 8⟩, 4⟩, ⟨⟨200, 8⟩, 4⟩] n c 3 0) :
    ∃ m' n' a b, sample .RGB [⟨⟨300, 96⟩, 48⟩] m' .B 5 1 = some a ∧ sample .RGBA [⟨⟨300, 32⟩, 16⟩] n' .B 3 0 = some b ∧
      a ≤ b + 2 ∧ b ≤ a + 2 := by
  obtain ⟨scalar, ha⟩ := libm_exists
  obtain ⟨m', r⟩ := run_exists (c := Platform.avx512.real scalar) (platform_lawful .avx512 _ _)
    (src := .raw .NV12 16 2 [⟨⟨0, 32⟩, 16⟩, ⟨⟨100, 16⟩, 16⟩] (.YUV ⟨.SDR, .BT709, .BT709, false⟩))
    (dst := .raw .RGB 16 2 [⟨⟨300, 96⟩, 48⟩] (.RGB ⟨.SRGB, .BT2020⟩))
    (sps := [⟨⟨0, 32⟩, 16⟩, ⟨⟨100, 16⟩, 16⟩]) (dps := [⟨⟨300, 96⟩, 48⟩]) rfl rfl
    (planesDisjoint_of (by decide)) (separate_of (by decide)) (uniform_of (by decide)) (by decide) m
  obtain ⟨n', r'⟩ := run_exists (c := Platform.avx2.real scalar) (platform_lawful .avx2 _ _)
    (src := .raw .I444 4 2 [⟨⟨0, 8⟩, 4⟩, ⟨⟨100, 8⟩, 4⟩, ⟨⟨200, 8⟩, 4⟩] (.YUV ⟨.SDR, .BT709, .BT709, false⟩))
    (dst := .raw .RGBA 4 2 [⟨⟨300, 32⟩, 16⟩] (.RGB ⟨.SRGB, .BT2020⟩))
    (sps := [⟨⟨0, 8⟩, 4⟩, ⟨⟨100, 8⟩, 4⟩, ⟨⟨200, 8⟩, 4⟩]) (dps := [⟨⟨300, 32⟩, 16⟩]) rfl rfl
    (planesDisjoint_of (by decide)) (separate_of (by decide)) (uniform_of (by decide)) (by decide) n
  obtain ⟨a, b, h1⟩ := C83_yuv_partial r r' ha ha rfl rfl rfl rfl rfl rfl rfl rfl (by decide) (.inr rfl) (k := (0.2126, 0.7152, 0.0722)) rfl
    (.inr (.inl rfl)) (x := 5) (y := 1) (x' := 3) (y' := 0) (by decide) (by decide) (by decide) (by decide)
    (fun c x y l _ _ _ => shown_le rfl _ _ c x y) (fun c x y l _ _ _ => shown_le rfl _ _ c x y) (fun h => nomatch h.1) (fun h => nomatch h.1)
    h (c := .B) (by simp)
  exact ⟨m', n', a, b, h1⟩

/-- A linear RGB image becomes an sRGB NV12 image on AVX-512 and on NEON, where the lights are not below 0 (C80). -/
example (m : Mem) (h0 : 0 ≤ idealCodes (0.2126, 0.7152, 0.0722) .NV12 false (fun c x y => encodeTransfer (exactAr x) .SRGB
      (lightIn (.RGB ⟨.Linear, .BT709⟩) (.YUV ⟨.SRGB, .BT2020, .BT709, false⟩) (shown .RGB [⟨⟨0, 96⟩, 48⟩] m) c x y)) .V 5 1)
    (h1 : idealCodes (0.2126, 0.7152, 0.0722) .NV12 false (fun c x y => encodeTransfer (exactAr x) .SRGB
      (lightIn (.RGB ⟨.Linear, .BT709⟩) (.YUV ⟨.SRGB, .BT2020, .BT709, false⟩) (shown .RGB [⟨⟨0, 96⟩, 48⟩] m) c x y)) .V 5 1 ≤ 255) :
    ∃ m' n' a b, sample .NV12 [⟨⟨100, 32⟩, 16⟩, ⟨⟨200, 16⟩, 16⟩] m' .V 5 1 = some a ∧
      sample .NV12 [⟨⟨100, 32⟩, 16⟩, ⟨⟨200, 16⟩, 16⟩] n' .V 5 1 = some b ∧ a ≤ b + 2 ∧ b ≤ a + 2 := by
  obtain ⟨scalar, ha⟩ := libm_exists
  obtain ⟨m', r⟩ := run_exists (c := Platform.avx512.real scalar) (platform_lawful .avx512 _ _)
    (src := .raw .RGB 16 2 [⟨⟨0, 96⟩, 48⟩] (.RGB ⟨.Linear, .BT709⟩))
    (dst := .raw .NV12 16 2 [⟨⟨100, 32⟩, 16⟩, ⟨⟨200, 16⟩, 16⟩] (.YUV ⟨.SRGB, .BT2020, .BT709, false⟩))
    (sps := [⟨⟨0, 96⟩, 48⟩]) (dps := [⟨⟨100, 32⟩, 16⟩, ⟨⟨200, 16⟩, 16⟩]) rfl rfl
    (planesDisjoint_of (by decide)) (separate_of (by decide)) (uniform_of (by decide)) (by decide) m
  obtain ⟨n', r'⟩ := run_exists (c := Platform.neon.real scalar) (platform_lawful .neon _ _)
    (src := .raw .RGB 16 2 [⟨⟨0, 96⟩, 48⟩] (.RGB ⟨.Linear, .BT709⟩))
    (dst := .raw .NV12 16 2 [⟨⟨100, 32⟩, 16⟩, ⟨⟨200, 16⟩, 16⟩] (.YUV ⟨.SRGB, .BT2020, .BT709, false⟩))
    (sps := [⟨⟨0, 96⟩, 48⟩]) (dps := [⟨⟨100, 32⟩, 16⟩, ⟨⟨200, 16⟩, 16⟩]) rfl rfl
    (planesDisjoint_of (by decide)) (separate_of (by decide)) (uniform_of (by decide)) (by decide) m
  obtain ⟨a, b, h⟩ := C83_to_yuv_partial r r' ha ha rfl rfl rfl rfl rfl rfl rfl rfl (by decide) nofun (.inr (.inl rfl)) (.inr rfl)
    (k := (0.2126, 0.7152, 0.0722)) rfl (c := .V) (by simp) (x := 5) (y := 1) (by decide) (by decide) (by decide) (by decide) (fun _ _ _ => rfl)
    (fun _ _ x' y' _ c hc => le_trans (by norm_num) (C80_fits (.inl rfl) rfl (fun c x y => shown_le rfl _ _ c x y) hc x' y').1) h0 h1
  exact ⟨m', n', a, b, h⟩

end Ezk.Props

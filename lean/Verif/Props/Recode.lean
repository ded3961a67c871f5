import Verif.Proofs.YuvYuv
import Verif.Props.Accuracy
import Verif.Model.SimdMath

/-!
# C51: conversions between YUV formats

Binary32 arithmetic on every platform; both images have the same transfer function and primaries.
-/

namespace Ezk.Props
open FOps Spec F32

variable {p : Platform} {simd scalar : Libm} {src dst : Img} {sps dps : List Plane} {m m' : Mem}

/-- The exact RGB colours of a YUV picture. -/
noncomputable def rgbOfYuv (i : YuvColorInfo) (f : PixelFormat) (V : Pic Nat) : Pic ℝ :=
  decode exactAr i (fun c x y => (V c x y : ℝ) / (2 ^ sampleBits f - 1 : Nat))

theorem recode_ideal {i j : YuvColorInfo} {k k' : ℝ × ℝ × ℝ} (hk : IsStandard i.space k) (hk' : IsStandard j.space k')
    (f f' : PixelFormat) (V : Pic Nat) {c : Chan} (hc : c = .Y ∨ c = .U ∨ c = .V) (x y : Nat) :
    encode exactAr f' j (rgbOfYuv i f V) c x y * (2 ^ sampleBits f' - 1 : Nat) =
      idealRecode k k' f f' i.fullRange j.fullRange V c x y := by
  have hq : ∀ x y, standardYuv k' (rgbOfYuv i f V .R x y) (rgbOfYuv i f V .G x y) (rgbOfYuv i f V .B x y) =
      recoded k k' f i.fullRange V x y := by
    intro x y
    have hR := decode_ideal hk f V (c := .R) (by simp) x y
    have hG := decode_ideal hk f V (c := .G) (by simp) x y
    have hB := decode_ideal hk f V (c := .B) (by simp) x y
    simp only [idealRgb] at hR hG hB
    rw [mul_comm] at hR hG hB
    simp only [recoded, rgbOfYuv]
    rw [mul_left_cancel₀ (by norm_num) hR, mul_left_cancel₀ (by norm_num) hG, mul_left_cancel₀ (by norm_num) hB]
  have hch := chromaOf_ideal exactAr_exact hk' f' (rgbOfYuv i f V) x y
  simp only [hq] at hch
  have cc : ∀ u, compressChroma (exactAr x) j.fullRange u * (2 ^ sampleBits f' - 1 : Nat) =
      chromaCode j.fullRange (2 ^ sampleBits f' - 1) u := by
    intro u
    cases j.fullRange
    · rw [compressChroma_real (exactAr_exact x), chromaCode, if_neg (by simp)]; ring
    · rw [compressChroma_full (exactAr_exact x), chromaCode, if_pos rfl]; ring
  rcases hc with rfl | rfl | rfl
  · simp only [encode, yuvAt, rgbToYuv_matrix _ hk'.isMatrix, forward_standard (exactAr_exact x) hk', hq, idealRecode]
    generalize (recoded _ _ _ _ _ _ _).1 = v
    cases j.fullRange
    · rw [compressLuma_real (exactAr_exact x), lumaCode, if_neg (by simp)]; ring
    · rw [compressLuma, if_pos rfl, lumaCode, if_pos rfl]; ring
  · simp only [encode, hch, cc]; rfl
  · simp only [encode, hch, cc]; rfl

/-- The float that is stored. -/
theorem yuv_to_yuv_value (r : Run (p.ieee simd scalar) src dst sps dps m m') (hs : isYuv src.format = true)
    (hd : isYuv dst.format = true) {i j : YuvColorInfo} (hi : src.color = .YUV i) (hj : dst.color = .YUV j)
    (hn : ¬ (src.format = dst.format ∧ src.color = dst.color)) (ht : i.transfer = j.transfer)
    (hp : i.primaries = j.primaries) {k k' : ℝ × ℝ × ℝ} (hk : IsStandard i.space k) (hk' : IsStandard j.space k')
    {c : Chan} (hc : c = .Y ∨ c = .U ∨ c = .V) {x y : Nat} (hx : x < dst.width) (hy : y < dst.height)
    (hV : InDepth src.format src.width src.height (shown src.format sps m))
    (h0 : 0 ≤ idealRecode k k' src.format dst.format i.fullRange j.fullRange (shown src.format sps m) c x y)
    (h1 : idealRecode k k' src.format dst.format i.fullRange j.fullRange (shown src.format sps m) c x y ≤
      (2 ^ sampleBits dst.format - 1 : Nat)) :
    ∃ v, sample dst.format dps m' c x y = some (stored p simd scalar dst.width x (yuvStore dst.format) v) ∧
      App v (idealRecode k k' src.format dst.format i.fullRange j.fullRange (shown src.format sps m) c x y)
        (6 / 10 ^ 5 * (2 ^ sampleBits dst.format - 1 : Nat)) := by
  have hcol := column_ieee p simd scalar dst.width
  have hret := r.returned
  have hV' := shown_depicts (w := src.width) (h := src.height) hret.vsrc.fits.1 m
  obtain ⟨l, hl⟩ : ∃ l, sampleLoc dst.format c x y = some l := by
    revert hd; rcases hc with rfl | rfl | rfl <;> cases dst.format <;> simp [isYuv, sampleLoc]
  have hb : ¬ BadChroma src.format src.color dst.format dst.color := by
    rintro ⟨_, _, i', e1, e2⟩
    rw [hj] at e1; cases e1
    rw [hk'.isMatrix] at e2; cases e2
  rw [r.depicts hb hV' c x y l hx hy hl]
  have hsamp : ∀ x < dst.width, ∀ y < dst.height, ∀ c, (c = .Y ∨ c = .U ∨ c = .V) →
      App (Spec.normalize (columnArith (p.ieee simd scalar) dst.width) src.format (shown src.format sps m) c x y)
        ((shown src.format sps m c x y : ℝ) / (2 ^ sampleBits src.format - 1 : Nat)) (1 / 10 ^ 7) ∧
      |(shown src.format sps m c x y : ℝ) / (2 ^ sampleBits src.format - 1 : Nat)| ≤ 1 := by
    intro x hx y hy c hc
    obtain ⟨l, hl⟩ : ∃ l, sampleLoc src.format c x y = some l := by
      revert hs; rcases hc with rfl | rfl | rfl <;> cases src.format <;> simp [isYuv, sampleLoc]
    have hm := max_lt src.format
    exact sample_app (hcol x) hm.1 (by omega) (hV c x y l (hret.width ▸ hx) (hret.height ▸ hy) hl)
  have e1 : convertedF (columnArith (p.ieee simd scalar) dst.width) src.format src.color dst.format dst.color
      (shown src.format sps m) = encode (columnArith (p.ieee simd scalar) dst.width) dst.format j
        (decode (columnArith (p.ieee simd scalar) dst.width) i
        (Spec.normalize (columnArith (p.ieee simd scalar) dst.width) src.format (shown src.format sps m))) := by
    rw [convertedF, if_neg hn, adaptPic, hi, hj, if_pos ⟨ht, hp⟩]
    simp only [readPic, hs, if_true, writePic, hd]
  have hcell : CellApp dst.format (decode (columnArith (p.ieee simd scalar) dst.width) i
      (Spec.normalize (columnArith (p.ieee simd scalar) dst.width) src.format (shown src.format sps m)))
      (rgbOfYuv i src.format (shown src.format sps m)) x y := by
    intro c hc x' y' ex ey
    have hw : x' < dst.width := by
      have := hret.evenW
      have hh : hsub dst.format = 1 ∨ hsub dst.format = 2 := by cases dst.format <;> simp [hsub]
      rcases hh with h | h <;> rw [h] at ex <;> omega
    have hh : y' < dst.height := by
      have := hret.evenH
      have hh : vsub dst.format = 1 ∨ vsub dst.format = 2 := by cases dst.format <;> simp [vsub]
      rcases hh with h | h <;> rw [h] at ey <;> omega
    obtain ⟨h1, h2⟩ := decode_app hcol exactAr_exact (q := fun c x y =>
      (shown src.format sps m c x y : ℝ) / (2 ^ sampleBits src.format - 1 : Nat)) hk.isMatrix (hsamp x' hw y' hh) hc
    exact ⟨h1, h2.trans (by norm_num)⟩
  obtain ⟨a1, a2⟩ := encode_wide hcol exactAr_exact dst.format hk'.isMatrix hcell hc
  rw [converted, e1]
  rw [← recode_ideal hk hk' _ _ _ hc] at h0 h1 ⊢
  have hM : (0 : ℝ) < (2 ^ sampleBits dst.format - 1 : Nat) := by
    have : 0 < 2 ^ sampleBits dst.format - 1 := (max_lt dst.format).1
    exact_mod_cast this
  have b0 : 0 ≤ encode exactAr dst.format j (rgbOfYuv i src.format (shown src.format sps m)) c x y :=
    nonneg_of_mul_nonneg_left h0 hM
  have b1 : encode exactAr dst.format j (rgbOfYuv i src.format (shown src.format sps m)) c x y ≤ 1 := by
    by_contra h
    exact absurd h1 (not_le.mpr (by nlinarith))
  have hs := scale_app (hcol x) dst.format a1 (by rw [abs_of_nonneg b0]; linarith) (by norm_num)
  refine ⟨_, ?_, hs.mono (mul_le_mul_of_nonneg_right (by norm_num) hM.le)⟩
  simp only [quantize, hd, yuvStore]
  rw [if_neg (by simp)]
  split <;> rfl

/-! ## Repacking -/

/-- The chroma samples of format `f` are shared at least by the pixels sharing one in format `f'`. -/
def Coarser (f f' : PixelFormat) : Prop := hsub f' ≤ hsub f ∧ vsub f' ≤ vsub f

theorem standard_inverse {cs : ColorSpace} {k : ℝ × ℝ × ℝ} (hk : IsStandard cs k) (y u v : ℝ) :
    standardYuv k (standardRgb k y u v).1 (standardRgb k y u v).2.1 (standardRgb k y u v).2.2 = (y, u, v) := by
  obtain ⟨hc, hk⟩ := hk
  rcases hc with rfl | rfl <;> cases hk <;>
  · simp only [standardYuv, standardRgb, Prod.mk.injEq]
    norm_num only
    refine ⟨?_, ?_, ?_⟩ <;> ring

theorem shown_cell {f f' : PixelFormat} (hf : isYuv f = true) (hc : Coarser f f') (ps : List Plane) (m : Mem) {c : Chan}
    (h : c = .U ∨ c = .V) {x y a b : Nat} (ha : a < hsub f') (hb : b < vsub f') :
    shown f ps m c (x / hsub f' * hsub f' + a) (y / vsub f' * vsub f' + b) = shown f ps m c x y := by
  have key : ∀ s s' x a : Nat, (s = 1 ∨ s = 2) → (s' = 1 ∨ s' = 2) → s' ≤ s → a < s' → (x / s' * s' + a) / s = x / s := by
    rintro s s' x a (rfl | rfl) (rfl | rfl) h1 h2 <;> omega
  have ex : (x / hsub f' * hsub f' + a) / hsub f = x / hsub f :=
    key _ _ _ _ (by cases f <;> simp [hsub]) (by cases f' <;> simp [hsub]) hc.1 ha
  have ey : (y / vsub f' * vsub f' + b) / vsub f = y / vsub f :=
    key _ _ _ _ (by cases f <;> simp [vsub]) (by cases f' <;> simp [vsub]) hc.2 hb
  have el : sampleLoc f c (x / hsub f' * hsub f' + a) (y / vsub f' * vsub f' + b) = sampleLoc f c x y := by
    generalize x / hsub f' * hsub f' + a = x1 at *
    generalize y / vsub f' * vsub f' + b = y1 at *
    revert hf ex ey
    rcases h with rfl | rfl <;> cases f <;>
      simp +contextual [isYuv, hsub, vsub, sampleLoc]
  rw [shown, shown, sample, sample, el]

/-- Without a change of colour and depth, and without sub-sampling, the ideal code is the source's. -/
theorem recode_same {cs : ColorSpace} {k : ℝ × ℝ × ℝ} (hk : IsStandard cs k) {f f' : PixelFormat} (hf : isYuv f = true)
    (hb : sampleBits f = sampleBits f') (hc : Coarser f f') (full : Bool) (ps : List Plane) (m : Mem) {c : Chan}
    (h : c = .Y ∨ c = .U ∨ c = .V) (x y : Nat) :
    idealRecode k k f f' full full (shown f ps m) c x y = shown f ps m c x y := by
  have hM : ((2 ^ sampleBits f' - 1 : Nat) : ℝ) ≠ 0 := by
    have : 0 < 2 ^ sampleBits f' - 1 := (max_lt f').1
    exact_mod_cast this.ne'
  have hr : ∀ x y, recoded k k f full (shown f ps m) x y = _ := fun x y => standard_inverse hk _ _ _
  have hcell : ∀ (g : ℝ → ℝ) (c : Chan), (c = .U ∨ c = .V) →
      cellMean f' (fun x y => g (shown f ps m c x y)) x y = g (shown f ps m c x y) := by
    intro g c hc'
    have hs : (0 : ℝ) < hsub f' * vsub f' := by cases f' <;> norm_num [hsub, vsub]
    rw [cellMean, div_eq_iff hs.ne', Finset.sum_congr rfl fun a ha => Finset.sum_congr rfl fun b hb => by
      rw [shown_cell hf hc ps m hc' (Finset.mem_range.mp ha) (Finset.mem_range.mp hb)], Finset.sum_const,
      Finset.sum_const, Finset.card_range, Finset.card_range, nsmul_eq_mul, nsmul_eq_mul]
    ring
  have hl : ∀ v : ℝ, lumaCode full (2 ^ sampleBits f' - 1) (lumaOf full (2 ^ sampleBits f' - 1) v) = v := by
    intro v
    cases full
    · simp only [lumaCode, lumaOf, Bool.false_eq_true, if_false]; field_simp; ring
    · simp only [lumaCode, lumaOf, if_true]; field_simp
  have hu : ∀ v : ℝ, chromaCode full (2 ^ sampleBits f' - 1) (chromaOfCode full (2 ^ sampleBits f' - 1) v) = v := by
    intro v
    cases full
    · simp only [chromaCode, chromaOfCode, Bool.false_eq_true, if_false]; field_simp; ring
    · simp only [chromaCode, chromaOfCode, if_true]; field_simp; ring
  rcases h with rfl | rfl | rfl
  · simp only [idealRecode, hr, hb, hl]
  · simp only [idealRecode, hr, hb]
    rw [hcell (chromaOfCode full (2 ^ sampleBits f' - 1)) .U (by simp), hu]
  · simp only [idealRecode, hr, hb]
    rw [hcell (chromaOfCode full (2 ^ sampleBits f' - 1)) .V (by simp), hu]

/-- **C51** (partial: BT.601 and BT.709; for BT.2020 it is false, see `C51_bt2020_false`; not if the ideal code is none of the
destination's). A YUV image converted to another YUV format, range, depth or matrix of the same transfer function and primaries
has, wherever the ideal code is one of the destination's, a code that differs from it by less than one (and 60 millionths of
the range). -/
theorem C51_yuv_to_yuv_partial (r : Run (p.ieee simd scalar) src dst sps dps m m') (hs : isYuv src.format = true)
    (hd : isYuv dst.format = true) {i j : YuvColorInfo} (hi : src.color = .YUV i) (hj : dst.color = .YUV j)
    (ht : i.transfer = j.transfer)
    (hp : i.primaries = j.primaries) (hcs : i.space = .BT601 ∨ i.space = .BT709) (hcs' : j.space = .BT601 ∨ j.space = .BT709)
    {k k' : ℝ × ℝ × ℝ} (hk : lumaWeights i.space = some k) (hk' : lumaWeights j.space = some k')
    {c : Chan} (hc : c = .Y ∨ c = .U ∨ c = .V) {x y : Nat} (hx : x < dst.width) (hy : y < dst.height)
    (hV : InDepth src.format src.width src.height (shown src.format sps m))
    (h0 : 0 ≤ idealRecode k k' src.format dst.format i.fullRange j.fullRange (shown src.format sps m) c x y)
    (h1 : idealRecode k k' src.format dst.format i.fullRange j.fullRange (shown src.format sps m) c x y ≤
      (2 ^ sampleBits dst.format - 1 : Nat)) :
    ∃ n, sample dst.format dps m' c x y = some n ∧
      |(n : ℝ) - idealRecode k k' src.format dst.format i.fullRange j.fullRange (shown src.format sps m) c x y| <
        1 + 6 / 10 ^ 5 * (2 ^ sampleBits dst.format - 1 : Nat) := by
  have hcol := column_ieee p simd scalar dst.width
  by_cases hn : src.format = dst.format ∧ src.color = dst.color
  · have hret := r.returned
    obtain ⟨l, hl⟩ : ∃ l, sampleLoc src.format c x y = some l := by
      revert hs; rcases hc with rfl | rfl | rfl <;> cases src.format <;> simp [isYuv, sampleLoc]
    have hdep := shown_depicts (w := src.width) (h := src.height) hret.vsrc.fits.1 m
    obtain rfl : i = j := by
      have := hi.symm.trans (hn.2.trans hj)
      injection this
    obtain rfl : k = k' := Option.some.inj (hk.symm.trans hk')
    refine ⟨_, C23_lossless_partial r hn.1 hn.2 hdep hV c x y l hx hy (hn.1 ▸ hl), ?_⟩
    rw [recode_same ⟨hcs, hk⟩ hs (hn.1 ▸ rfl) (hn.1 ▸ ⟨le_refl _, le_refl _⟩) i.fullRange sps m hc, sub_self, abs_zero]
    positivity
  obtain ⟨v, e, happ⟩ := yuv_to_yuv_value r hs hd hi hj hn ht hp ⟨hcs, hk⟩ ⟨hcs', hk'⟩ hc hx hy hV h0 h1
  refine ⟨_, e, ?_⟩
  have hM : 255 ≤ 2 ^ sampleBits dst.format - 1 ∧ 2 ^ sampleBits dst.format - 1 ≤ 4095 := by
    cases dst.format <;> simp [sampleBits]
  have hT8 : sampleBytes dst.format = 1 → 2 ^ sampleBits dst.format - 1 ≤ 255 := by
    cases dst.format <;> simp [sampleBytes, sampleBits]
  generalize idealRecode _ _ _ _ _ _ _ _ _ _ = v at *
  generalize 2 ^ sampleBits dst.format - 1 = M at *
  have hM2 : (M : ℝ) ≤ 4095 := by exact_mod_cast hM.2
  have e1 : (6 / 10 ^ 5 : ℝ) * M < 1 / 2 := by norm_num; linarith
  unfold yuvStore
  split
  · rename_i h8
    exact ((hcol x).q8.app (hT8 h8) happ e1 h0 h1).1
  · exact ((hcol x).q16.app (by omega) happ e1 h0 h1).1

/-- **C51** for repacking: with the same colour information and depth, and no sub-sampling of chroma, every sample is kept up
to one code; and exactly by the stores that round. -/
theorem C51_repack (r : Run (p.ieee simd scalar) src dst sps dps m m') (hs : isYuv src.format = true)
    (hd : isYuv dst.format = true) {i : YuvColorInfo} (hi : src.color = .YUV i) (hj : dst.color = .YUV i)
    (hcs : i.space = .BT601 ∨ i.space = .BT709) (hb : sampleBits src.format = sampleBits dst.format)
    (hco : Coarser src.format dst.format) {c : Chan} (hc : c = .Y ∨ c = .U ∨ c = .V) {x y : Nat} (hx : x < dst.width)
    (hy : y < dst.height) (hV : InDepth src.format src.width src.height (shown src.format sps m)) :
    ∃ n n', sample src.format sps m c x y = some n ∧ sample dst.format dps m' c x y = some n' ∧ |(n' : Int) - n| ≤ 1 ∧
      (¬ Truncates p dst.width x → n' = n) := by
  have hret := r.returned
  obtain ⟨l, hl⟩ : ∃ l, sampleLoc src.format c x y = some l := by
    revert hs; rcases hc with rfl | rfl | rfl <;> cases src.format <;> simp [isYuv, sampleLoc]
  have hdep := shown_depicts (w := src.width) (h := src.height) hret.vsrc.fits.1 m
  have hsrc := hdep c x y l (hret.width ▸ hx) (hret.height ▸ hy) hl
  by_cases hn : src.format = dst.format ∧ src.color = dst.color
  · refine ⟨_, _, hsrc, C23_lossless_partial r hn.1 hn.2 hdep hV c x y l hx hy (hn.1 ▸ hl), by simp, fun _ => rfl⟩
  obtain ⟨k, hk⟩ : ∃ k, lumaWeights i.space = some k := by rcases hcs with h | h <;> rw [h] <;> exact ⟨_, rfl⟩
  have hst : IsStandard i.space k := ⟨hcs, hk⟩
  have e := recode_same hst hs hb hco i.fullRange sps m hc x y
  have hle : shown src.format sps m c x y ≤ 2 ^ sampleBits dst.format - 1 :=
    hb ▸ hV c x y l (hret.width ▸ hx) (hret.height ▸ hy) hl
  obtain ⟨v, hv, happ⟩ := yuv_to_yuv_value r hs hd hi hj hn rfl rfl hst hst hc hx hy hV (by rw [e]; positivity)
    (by rw [e]; exact_mod_cast hle)
  rw [e] at happ
  refine ⟨_, _, hsrc, hv, ?_⟩
  have hM : 2 ^ sampleBits dst.format - 1 ≤ 4095 := by cases dst.format <;> simp [sampleBits]
  have hT : 2 ^ sampleBits dst.format - 1 ≤ (yuvStore dst.format).top := by
    cases dst.format <;> simp [sampleBits, yuvStore, sampleBytes, Store.top]
  generalize shown src.format sps m c x y = n at *
  generalize 2 ^ sampleBits dst.format - 1 = M at *
  have hM2 : (M : ℝ) ≤ 4095 := by exact_mod_cast hM
  obtain ⟨s, q, rfl, _, ha⟩ := happ
  rw [abs_le] at ha
  have e1 : (6 / 10 ^ 5 : ℝ) * M < 1 / 4 := by norm_num; linarith
  have hn0 : (0 : ℝ) ≤ n := by positivity
  have hnT : (n : ℝ) ≤ (yuvStore dst.format).top := by exact_mod_cast hle.trans hT
  have q1 : ((n - 1 / 4 : ℚ) : ℝ) < (signed s q : ℝ) := by push_cast; linarith [ha.1]
  have q2 : (signed s q : ℝ) < ((n + 1 / 4 : ℚ) : ℝ) := by push_cast; linarith [ha.2]
  have q1 : (n - 1 / 4 : ℚ) < signed s q := by exact_mod_cast q1
  have q2 : signed s q < (n + 1 / 4 : ℚ) := by exact_mod_cast q2
  have hn0 : (0 : ℚ) ≤ n := by positivity
  have hnT : (n : ℚ) ≤ (yuvStore dst.format).top := by exact_mod_cast hle.trans hT
  constructor
  · have h := abs_lt.mp (C34_accurate p simd scalar dst.width x (yuvStore dst.format) (v := .fin s q) rfl (by linarith)
      (by linarith))
    generalize stored p simd scalar dst.width x (yuvStore dst.format) (.fin s q) = n' at *
    have u1 : (n' : ℚ) < n + 2 := by linarith [h.2]
    have u2 : (n : ℚ) < n' + 2 := by linarith [h.1]
    have u1 : n' < n + 2 := by exact_mod_cast u1
    have u2 : n < n' + 2 := by exact_mod_cast u2
    rw [abs_le]; omega
  · intro ht
    have h := abs_le.mp (C34_rounding_nearest ht simd scalar (yuvStore dst.format) (v := .fin s q) rfl (by linarith)
      (by linarith))
    generalize stored p simd scalar dst.width x (yuvStore dst.format) (.fin s q) = n' at *
    have u1 : (n' : ℚ) < n + 1 := by linarith [h.2]
    have u2 : (n : ℚ) < n' + 1 := by linarith [h.1]
    have u1 : n' < n + 1 := by exact_mod_cast u1
    have u2 : n < n' + 1 := by exact_mod_cast u2
    omega

/-- A 2×2 image in the three planes I420, and the same in the two planes of NV12. -/
def i420Tiny : Img := .raw .I420 2 2 [⟨⟨0, 4⟩, 2⟩, ⟨⟨4, 1⟩, 1⟩, ⟨⟨5, 1⟩, 1⟩] (.YUV ⟨.SDR, .BT709, .BT709, false⟩)
def nv12Tiny (a : Nat) : Img := .raw .NV12 2 2 [⟨⟨a, 4⟩, 2⟩, ⟨⟨a + 4, 2⟩, 2⟩] (.YUV ⟨.SDR, .BT709, .BT709, false⟩)

/-- All luma samples 16, `U = 40`, `V = 240`. -/
def tinyMem : Mem := fun a => if a < 4 then 16 else if a = 4 then 40 else 240

theorem i420Tiny_run (p : Platform) (simd scalar : Libm) (m : Mem) : ∃ m', Run (p.ieee simd scalar) i420Tiny (nv12Tiny 10)
    [⟨⟨0, 4⟩, 2⟩, ⟨⟨4, 1⟩, 1⟩, ⟨⟨5, 1⟩, 1⟩] [⟨⟨10, 4⟩, 2⟩, ⟨⟨14, 2⟩, 2⟩] m m' :=
  run_exists (platform_lawful p _ _) rfl rfl (planesDisjoint_of (by decide)) (separate_of (by decide))
    (uniform_of (by decide)) (by decide) m

theorem nv12Tiny_run (p : Platform) (simd scalar : Libm) (m : Mem) : ∃ m', Run (p.ieee simd scalar) (nv12Tiny 0) (nv12Tiny 10)
    [⟨⟨0, 4⟩, 2⟩, ⟨⟨4, 2⟩, 2⟩] [⟨⟨10, 4⟩, 2⟩, ⟨⟨14, 2⟩, 2⟩] m m' :=
  run_exists (platform_lawful p _ _) rfl rfl (planesDisjoint_of (by decide)) (separate_of (by decide))
    (uniform_of (by decide)) (by decide) m

/-- **C51** for repacking is not exact for the stores that truncate: copying I420 to NV12, the scalar code turns a luma of 16
into 15. -/
theorem C51_repack_inexact : ∃ m', Run (Platform.scalar.ieee x86Libm x86Libm) i420Tiny (nv12Tiny 10)
      [⟨⟨0, 4⟩, 2⟩, ⟨⟨4, 1⟩, 1⟩, ⟨⟨5, 1⟩, 1⟩] [⟨⟨10, 4⟩, 2⟩, ⟨⟨14, 2⟩, 2⟩] tinyMem m' ∧
    sample .I420 [⟨⟨0, 4⟩, 2⟩, ⟨⟨4, 1⟩, 1⟩, ⟨⟨5, 1⟩, 1⟩] tinyMem .Y 1 1 = some 16 ∧
    sample .NV12 [⟨⟨10, 4⟩, 2⟩, ⟨⟨14, 2⟩, 2⟩] m' .Y 1 1 = some 15 := by
  obtain ⟨m', r⟩ := i420Tiny_run .scalar x86Libm x86Libm tinyMem
  refine ⟨m', r, by decide, ?_⟩
  refine (r.depicts (by rintro ⟨_, _, i, e1, e2⟩; cases e1; cases e2)
    (shown_depicts (w := 2) (h := 2) (by decide) tinyMem) .Y 1 1 ⟨0, 1, 1⟩ (by decide) (by decide) rfl).trans ?_
  decide +kernel

/-- **C51** is false for BT.2020: a luma of 200 is turned into 128. -/
theorem C51_bt2020_false : ∃ m', Run (Platform.scalar.ieee x86Libm x86Libm)
      (.raw .I420 2 2 [⟨⟨0, 4⟩, 2⟩, ⟨⟨4, 1⟩, 1⟩, ⟨⟨5, 1⟩, 1⟩] (.YUV ⟨.SDR, .BT2020, .BT2020, true⟩))
      (.raw .NV12 2 2 [⟨⟨10, 4⟩, 2⟩, ⟨⟨14, 2⟩, 2⟩] (.YUV ⟨.SDR, .BT2020, .BT2020, true⟩))
      [⟨⟨0, 4⟩, 2⟩, ⟨⟨4, 1⟩, 1⟩, ⟨⟨5, 1⟩, 1⟩] [⟨⟨10, 4⟩, 2⟩, ⟨⟨14, 2⟩, 2⟩] (fun a => if a < 4 then 200 else 128) m' ∧
    sample .I420 [⟨⟨0, 4⟩, 2⟩, ⟨⟨4, 1⟩, 1⟩, ⟨⟨5, 1⟩, 1⟩] (fun a => if a < 4 then 200 else 128) .Y 1 1 = some 200 ∧
    sample .NV12 [⟨⟨10, 4⟩, 2⟩, ⟨⟨14, 2⟩, 2⟩] m' .Y 1 1 = some 128 := by
  obtain ⟨m', r⟩ := run_exists (c := Platform.scalar.ieee x86Libm x86Libm)
    (src := .raw .I420 2 2 [⟨⟨0, 4⟩, 2⟩, ⟨⟨4, 1⟩, 1⟩, ⟨⟨5, 1⟩, 1⟩] (.YUV ⟨.SDR, .BT2020, .BT2020, true⟩))
    (dst := .raw .NV12 2 2 [⟨⟨10, 4⟩, 2⟩, ⟨⟨14, 2⟩, 2⟩] (.YUV ⟨.SDR, .BT2020, .BT2020, true⟩))
    (platform_lawful .scalar _ _) rfl rfl (planesDisjoint_of (by decide)) (separate_of (by decide))
    (uniform_of (by decide)) (by decide) (fun a => if a < 4 then 200 else 128)
  refine ⟨m', r, by decide, ?_⟩
  refine (r.depicts (by rintro ⟨_, _, i, e1, e2⟩; cases e1; cases e2)
    (shown_depicts (w := 2) (h := 2) (by decide) _) .Y 1 1 ⟨0, 1, 1⟩ (by decide) (by decide) rfl).trans ?_
  decide +kernel

/-- **C40** is false if one of the sources has the destination's format and colour: the sources show the same picture, but
only the one that need not pass through RGB arrives unchanged. -/
theorem C40_direct_false : ∃ m1 m2, Run (Platform.scalar.ieee x86Libm x86Libm) i420Tiny (nv12Tiny 10)
      [⟨⟨0, 4⟩, 2⟩, ⟨⟨4, 1⟩, 1⟩, ⟨⟨5, 1⟩, 1⟩] [⟨⟨10, 4⟩, 2⟩, ⟨⟨14, 2⟩, 2⟩] tinyMem m1 ∧
    Run (Platform.scalar.ieee x86Libm x86Libm) (nv12Tiny 0) (nv12Tiny 10)
      [⟨⟨0, 4⟩, 2⟩, ⟨⟨4, 2⟩, 2⟩] [⟨⟨10, 4⟩, 2⟩, ⟨⟨14, 2⟩, 2⟩] tinyMem m2 ∧
    (∀ c x y, shown .I420 [⟨⟨0, 4⟩, 2⟩, ⟨⟨4, 1⟩, 1⟩, ⟨⟨5, 1⟩, 1⟩] tinyMem c (x % 2) (y % 2) =
      shown .NV12 [⟨⟨0, 4⟩, 2⟩, ⟨⟨4, 2⟩, 2⟩] tinyMem c (x % 2) (y % 2)) ∧
    sample .NV12 [⟨⟨10, 4⟩, 2⟩, ⟨⟨14, 2⟩, 2⟩] m1 .Y 1 1 = some 15 ∧
    sample .NV12 [⟨⟨10, 4⟩, 2⟩, ⟨⟨14, 2⟩, 2⟩] m2 .Y 1 1 = some 16 := by
  obtain ⟨m1, r1, _, h1⟩ := C51_repack_inexact
  obtain ⟨m2, r2⟩ := nv12Tiny_run .scalar x86Libm x86Libm tinyMem
  refine ⟨m1, m2, r1, r2, ?_, h1, ?_⟩
  · intro c x y
    have hx : x % 2 = 0 ∨ x % 2 = 1 := by omega
    have hy : y % 2 = 0 ∨ y % 2 = 1 := by omega
    rcases hx with hx | hx <;> rcases hy with hy | hy <;> rw [hx, hy] <;> cases c <;> rfl
  · exact (C23_bytes_partial r2 rfl rfl rfl (c := .Y) (x := 1) (y := 1) (by decide) (by decide)).trans (by decide)

/-- Repacking on AVX2, 16 pixels wide: I420 arrives in NV12 unchanged. -/
example (simd scalar : Libm) (m : Mem) : ∃ m' n,
    sample .I420 [⟨⟨0, 32⟩, 16⟩, ⟨⟨32, 8⟩, 8⟩, ⟨⟨40, 8⟩, 8⟩] m .V 13 1 = some n ∧
    sample .NV12 [⟨⟨100, 32⟩, 16⟩, ⟨⟨132, 16⟩, 16⟩] m' .V 13 1 = some n := by
  obtain ⟨m', r⟩ := run_exists (c := Platform.avx2.ieee simd scalar)
    (src := .raw .I420 16 2 [⟨⟨0, 32⟩, 16⟩, ⟨⟨32, 8⟩, 8⟩, ⟨⟨40, 8⟩, 8⟩] (.YUV ⟨.SDR, .BT709, .BT601, false⟩))
    (dst := .raw .NV12 16 2 [⟨⟨100, 32⟩, 16⟩, ⟨⟨132, 16⟩, 16⟩] (.YUV ⟨.SDR, .BT709, .BT601, false⟩))
    (platform_lawful .avx2 _ _) rfl rfl (planesDisjoint_of (by decide)) (separate_of (by decide))
    (uniform_of (by decide)) (by decide) m
  obtain ⟨n, n', h1, h2, _, h3⟩ := C51_repack r rfl rfl rfl rfl (Or.inl rfl) rfl ⟨le_refl _, le_refl _⟩ (c := .V) (by simp) (x := 13)
    (y := 1) (by decide) (by decide) (fun c x y l _ _ _ => shown_le rfl _ _ c x y)
  exact ⟨m', n, h1, h3 (by simp [Truncates, lanes, Img.width]) ▸ h2⟩

/-- Full-range BT.601 4:4:4 to limited-range BT.709 4:2:0, a picture of one colour. -/
example (simd scalar : Libm) : ∃ m' n, Run (Platform.neon.ieee simd scalar)
      (.raw .I444 2 2 [⟨⟨0, 4⟩, 2⟩, ⟨⟨4, 4⟩, 2⟩, ⟨⟨8, 4⟩, 2⟩] (.YUV ⟨.SDR, .BT709, .BT601, true⟩)) (nv12Tiny 20)
      [⟨⟨0, 4⟩, 2⟩, ⟨⟨4, 4⟩, 2⟩, ⟨⟨8, 4⟩, 2⟩] [⟨⟨20, 4⟩, 2⟩, ⟨⟨24, 2⟩, 2⟩] (fun _ => 128) m' ∧
    sample .NV12 [⟨⟨20, 4⟩, 2⟩, ⟨⟨24, 2⟩, 2⟩] m' .Y 1 0 = some n ∧ 124 ≤ n ∧ n ≤ 128 := by
  obtain ⟨m', r⟩ := run_exists (c := Platform.neon.ieee simd scalar)
    (src := .raw .I444 2 2 [⟨⟨0, 4⟩, 2⟩, ⟨⟨4, 4⟩, 2⟩, ⟨⟨8, 4⟩, 2⟩] (.YUV ⟨.SDR, .BT709, .BT601, true⟩))
    (dst := nv12Tiny 20)
    (platform_lawful .neon _ _) rfl rfl (planesDisjoint_of (by decide)) (separate_of (by decide))
    (uniform_of (by decide)) (by decide) (fun _ => 128)
  have sY : shown .I444 [⟨⟨0, 4⟩, 2⟩, ⟨⟨4, 4⟩, 2⟩, ⟨⟨8, 4⟩, 2⟩] (fun _ => 128) .Y 1 0 = 128 := rfl
  have sU : shown .I444 [⟨⟨0, 4⟩, 2⟩, ⟨⟨4, 4⟩, 2⟩, ⟨⟨8, 4⟩, 2⟩] (fun _ => 128) .U 1 0 = 128 := rfl
  have sV : shown .I444 [⟨⟨0, 4⟩, 2⟩, ⟨⟨4, 4⟩, 2⟩, ⟨⟨8, 4⟩, 2⟩] (fun _ => 128) .V 1 0 = 128 := rfl
  have e : 125 < idealRecode (0.299, 0.587, 0.114) (0.2126, 0.7152, 0.0722) .I444 .NV12 true false
      (shown .I444 [⟨⟨0, 4⟩, 2⟩, ⟨⟨4, 4⟩, 2⟩, ⟨⟨8, 4⟩, 2⟩] (fun _ => 128)) .Y 1 0 ∧
      idealRecode (0.299, 0.587, 0.114) (0.2126, 0.7152, 0.0722) .I444 .NV12 true false
      (shown .I444 [⟨⟨0, 4⟩, 2⟩, ⟨⟨4, 4⟩, 2⟩, ⟨⟨8, 4⟩, 2⟩] (fun _ => 128)) .Y 1 0 < 127 := by
    simp only [idealRecode, recoded, sY, sU, sV, lumaCode, lumaOf, chromaOfCode, sampleBits, standardRgb, standardYuv]
    norm_num
  obtain ⟨n, h1, h2⟩ := C51_yuv_to_yuv_partial r rfl rfl rfl rfl rfl rfl (Or.inl rfl) (Or.inr rfl)
    rfl rfl (c := .Y) (by simp) (x := 1) (y := 0) (by decide) (by decide) (fun c x y l _ _ _ => shown_le rfl _ _ c x y)
    (le_trans (by norm_num) e.1.le) (e.2.le.trans (by norm_num [nv12Tiny, Img.format, sampleBits]))
  refine ⟨m', n, r, h1, ?_⟩
  norm_num [nv12Tiny, Img.format, sampleBits] at h2
  have h2 := abs_lt.mp h2
  have l : (123 : ℝ) < n := by linarith [e.1, h2.1]
  have u : (n : ℝ) < 129 := by linarith [e.2, h2.2]
  have l : 123 < n := by exact_mod_cast l
  have u : n < 129 := by exact_mod_cast u
  omega

end Ezk.Props

import Verif.Proofs.Generations
import Verif.Props.Nearest
import Verif.Props.Recode

/-!
# C63, C64, C65: there and back again

Two conversions in a row, each on a platform of its own, whose stores round to nearest in the column considered (the vector code
of AVX2 and AVX-512; see `Truncates`).
-/

namespace Ezk.Props
open FOps Spec F32 PixelFormat

variable {p p2 : Platform} {simd scalar simd2 scalar2 : Libm} {src mid dst : Img} {sps mps dps : List Plane} {m m' m'' : Mem}

/-- The pixels sharing a chroma sample are handled by the same code. -/
theorem truncates_cell {w x x' : Nat} (h : x' / 2 = x / 2) : Truncates p w x' ↔ Truncates p w x := by
  have e : (w - w % (lanes p * 2)) = lanes p * 2 * (w / (lanes p * 2)) := by
    have := Nat.div_add_mod w (lanes p * 2)
    omega
  have e2 : lanes p * 2 * (w / (lanes p * 2)) = 2 * (lanes p * (w / (lanes p * 2))) := by ring
  simp only [Truncates, e, e2]
  generalize lanes p * (w / (lanes p * 2)) = n
  have : x' < 2 * n ↔ x < 2 * n := by omega
  rw [this]

theorem half_of_cell {f : PixelFormat} {x x' : Nat} (h : x' / hsub f = x / hsub f) : x' / 2 = x / 2 := by
  have hh : hsub f = 1 ∨ hsub f = 2 := by cases f <;> simp [hsub]
  rcases hh with e | e <;> rw [e] at h <;> omega

theorem cell_in {f : PixelFormat} {w h x y x' y' : Nat} (hw : w % 2 = 0) (hh : h % 2 = 0) (hx : x < w) (hy : y < h)
    (ex : x' / hsub f = x / hsub f) (ey : y' / vsub f = y / vsub f) : x' < w ∧ y' < h := by
  have h1 : hsub f = 1 ∨ hsub f = 2 := by cases f <;> simp [hsub]
  have h2 : vsub f = 1 ∨ vsub f = 2 := by cases f <;> simp [vsub]
  rcases h1 with e | e <;> rw [e] at ex <;> rcases h2 with e' | e' <;> rw [e'] at ey <;> omega

theorem nat_of_near {a b : Nat} (h : |(a : ℝ) - b| < 1) : a = b := by
  have : |((a : Int) - b : Int)| < 1 := by exact_mod_cast h
  rw [abs_lt] at this
  omega

/-! ## C63: deep YUV images carry RGB images -/

/-- **C63** (partial: columns whose stores round, BT.601 and BT.709; see `C63_truncating_false`). RGB to 10- or 12-bit YUV and back:
where the pixels that share a chroma sample have the same colour (always, for 4:4:4), every colour component comes back exactly. -/
theorem C63_deep_lossless_partial (r1 : Run (p.ieee simd scalar) src mid sps mps m m')
    (r2 : Run (p2.ieee simd2 scalar2) mid dst mps dps m' m'')
    (hs : isYuv src.format = false) (hm : isYuv mid.format = true) (hd : isYuv dst.format = false) {i : YuvColorInfo}
    (hi : mid.color = .YUV i) (ht : src.color.transfer = i.transfer) (hp : src.color.primaries = i.primaries)
    (ht' : i.transfer = dst.color.transfer) (hp' : i.primaries = dst.color.primaries)
    (hcs : i.space = .BT601 ∨ i.space = .BT709) (hbits : 10 ≤ sampleBits mid.format) {c : Chan} (hc : c = .R ∨ c = .G ∨ c = .B)
    {x y : Nat} (hx : x < dst.width) (hy : y < dst.height) (hflat : FlatCell mid.format (shown src.format sps m) x y)
    (hT1 : ¬ Truncates p mid.width x) (hT2 : ¬ Truncates p2 dst.width x) :
    ∃ n, sample src.format sps m c x y = some n ∧ sample dst.format dps m'' c x y = some n := by
  obtain ⟨k, hk⟩ : ∃ k, lumaWeights i.space = some k := by rcases hcs with h | h <;> rw [h] <;> exact ⟨_, rfl⟩
  have hst : IsStandard i.space k := ⟨hcs, hk⟩
  have ret1 := r1.returned
  have ret2 := r2.returned
  have hxm : x < mid.width := ret2.width ▸ hx
  have hym : y < mid.height := ret2.height ▸ hy
  have hmid : ∀ c, (c = .Y ∨ c = .U ∨ c = .V) →
      |(shown mid.format mps m' c x y : ℝ) - idealYuv k mid.format i.fullRange (shown src.format sps m) c x y| ≤
        1 / 2 + 5 / 10 ^ 6 * (2 ^ sampleBits mid.format - 1 : Nat) := by
    intro c hc
    obtain ⟨n, h1, h2⟩ := C61_encode_nearest_partial r1 hs hm hi ht hp hcs hk hc hxm hym hT1
    have e : shown mid.format mps m' c x y = n := by rw [shown, h1]; rfl
    rw [e]
    exact h2
  have hdepth : InDepth mid.format mid.width mid.height (shown mid.format mps m') := by
    intro c x y l hx hy hl
    obtain ⟨n, h1, h2, -⟩ := rgb_to_yuv r1 hs hm hi ht hp hst.isMatrix (c := c)
      (by revert hl hm; cases mid.format <;> cases c <;> simp [isYuv, sampleLoc]) hx hy
    have e : shown mid.format mps m' c x y = n := by rw [shown, h1]; rfl
    rw [e]
    exact h2
  obtain ⟨n', hn', hclose⟩ := C61_decode_nearest_partial r2 hm hd hi ht' hp' hcs hk hdepth hc hx hy hT2
  have hsrc : sample src.format sps m c x y = some (shown src.format sps m c x y) := by
    obtain ⟨l, hl⟩ : ∃ l, sampleLoc src.format c x y = some l := by
      revert hs; rcases hc with rfl | rfl | rfl <;> cases src.format <;> simp [isYuv, sampleLoc]
    exact shown_depicts (w := src.width) (h := src.height) ret1.vsrc.fits.1 m c x y l (ret1.width ▸ hxm) (ret1.height ▸ hym) hl
  have hle : shown src.format sps m c x y ≤ 255 := shown_le (rgb8 hs).1 sps m c x y
  have hM : 1023 ≤ 2 ^ sampleBits mid.format - 1 := by revert hbits; cases mid.format <;> simp [sampleBits]
  have hY := hmid .Y (by simp)
  have hU := hmid .U (by simp)
  have hV := hmid .V (by simp)
  simp only [idealYuv, cellMean_flat hflat k (·.2.1), cellMean_flat hflat k (·.2.2)] at hY hU hV
  have core := deep_core hst i.fullRange hM hY hU hV
  have key : |idealRgb k mid.format i.fullRange (shown mid.format mps m') c x y - (shown src.format sps m c x y : ℝ)| < 42 / 100 := by
    rcases hc with rfl | rfl | rfl
    · have := core.1
      simp only [mul_div_cancel₀ _ (show (255 : ℝ) ≠ 0 by norm_num)] at this
      exact this
    · have := core.2.1
      simp only [mul_div_cancel₀ _ (show (255 : ℝ) ≠ 0 by norm_num)] at this
      exact this
    · have := core.2.2
      simp only [mul_div_cancel₀ _ (show (255 : ℝ) ≠ 0 by norm_num)] at this
      exact this
  have hclamp := clamp_lipschitz (idealRgb k mid.format i.fullRange (shown mid.format mps m') c x y) (shown src.format sps m c x y)
  have hid : clamp255 (shown src.format sps m c x y) = shown src.format sps m c x y := by
    have : (shown src.format sps m c x y : ℝ) ≤ 255 := by exact_mod_cast hle
    rw [clamp255, min_eq_right this, max_eq_right (by positivity)]
  rw [hid] at hclamp
  have tot := abs_sub_le (n' : ℝ) (clamp255 (idealRgb k mid.format i.fullRange (shown mid.format mps m') c x y))
    (shown src.format sps m c x y)
  have : n' = shown src.format sps m c x y := nat_of_near (by linarith)
  exact ⟨_, hsrc, this ▸ hn'⟩

/-! ## C64: more bits and fewer bits again -/

/-- The ideal codes of another YUV format with the same colour information. -/
theorem recode_mean {cs : ColorSpace} {k : ℝ × ℝ × ℝ} (hk : IsStandard cs k) (f f' : PixelFormat) (full : Bool) (V : Pic Nat) {c : Chan}
    (h : c = .U ∨ c = .V) (x y : Nat) : idealRecode k k f f' full full V c x y =
      cellMean f' (fun x y => V c x y * ((2 ^ sampleBits f' - 1 : Nat) / (2 ^ sampleBits f - 1 : Nat) : ℝ)) x y := by
  have hM : 2 ^ sampleBits f - 1 ≠ 0 := (max_lt f).1.ne'
  have hr : ∀ x y, recoded k k f full V x y = _ := fun x y => standard_inverse hk _ _ _
  rcases h with rfl | rfl <;> simp only [idealRecode, hr, chromaCode_mean, chroma_rescale full hM]

theorem recode_luma {cs : ColorSpace} {k : ℝ × ℝ × ℝ} (hk : IsStandard cs k) (f f' : PixelFormat) (full : Bool) (V : Pic Nat)
    (x y : Nat) : idealRecode k k f f' full full V .Y x y =
      V .Y x y * ((2 ^ sampleBits f' - 1 : Nat) / (2 ^ sampleBits f - 1 : Nat) : ℝ) := by
  have hM : 2 ^ sampleBits f - 1 ≠ 0 := (max_lt f).1.ne'
  have hr : ∀ x y, recoded k k f full V x y = _ := fun x y => standard_inverse hk _ _ _
  simp only [idealRecode, hr, luma_rescale full hM]

/-- Where the samples lie within `d` of `v`, the ideal codes do as well, up to scale. -/
theorem recode_close {cs : ColorSpace} {k : ℝ × ℝ × ℝ} (hk : IsStandard cs k) (f f' : PixelFormat) (full : Bool) (V : Pic Nat) {c : Chan}
    (hc : c = .Y ∨ c = .U ∨ c = .V) {x y : Nat} {v d : ℝ}
    (h : ∀ x' y', x' / hsub f' = x / hsub f' → y' / vsub f' = y / vsub f' → (c = .Y → x' = x ∧ y' = y) → |V c x' y' - v| ≤ d) :
    |idealRecode k k f f' full full V c x y - v * ((2 ^ sampleBits f' - 1 : Nat) / (2 ^ sampleBits f - 1 : Nat) : ℝ)| ≤
      d * ((2 ^ sampleBits f' - 1 : Nat) / (2 ^ sampleBits f - 1 : Nat) : ℝ) := by
  have h0 : (0 : ℝ) ≤ ((2 ^ sampleBits f' - 1 : Nat) / (2 ^ sampleBits f - 1 : Nat) : ℝ) := by positivity
  generalize hq : ((2 ^ sampleBits f' - 1 : Nat) / (2 ^ sampleBits f - 1 : Nat) : ℝ) = q at *
  rcases hc with rfl | hc
  · rw [recode_luma hk, hq, ← sub_mul, abs_mul, abs_of_nonneg h0]
    exact mul_le_mul_of_nonneg_right (h x y rfl rfl fun _ => ⟨rfl, rfl⟩) h0
  · rw [recode_mean hk _ _ _ _ hc, hq]
    refine cellMean_close f' fun x' y' ex ey => ?_
    rw [← sub_mul, abs_mul, abs_of_nonneg h0]
    refine mul_le_mul_of_nonneg_right (h x' y' ex ey fun e => ?_) h0
    rcases hc with rfl | rfl <;> cases e

/-- Chroma is the same for all pixels sharing a sample. -/
theorem shown_same {f f' : PixelFormat} (hf : isYuv f = true) (hco : Coarser f f') (ps : List Plane) (m : Mem) {c : Chan}
    (hc : c = .Y ∨ c = .U ∨ c = .V) {x y x' y' : Nat} (ex : x' / hsub f' = x / hsub f') (ey : y' / vsub f' = y / vsub f')
    (hY : c = .Y → x' = x ∧ y' = y) : shown f ps m c x' y' = shown f ps m c x y := by
  rcases hc with rfl | hc
  · obtain ⟨rfl, rfl⟩ := hY rfl; rfl
  · have hh : 0 < hsub f' := by cases f' <;> simp [hsub]
    have hv : 0 < vsub f' := by cases f' <;> simp [vsub]
    have := shown_cell hf hco ps m hc (x := x) (y := y) (Nat.mod_lt x' hh) (Nat.mod_lt y' hv)
    rw [← ex, ← ey, Nat.div_add_mod', Nat.div_add_mod'] at this
    exact this

/-- With more bits, and without sub-sampling, the ideal codes are the scaled ones. -/
theorem recode_scaled {cs : ColorSpace} {k : ℝ × ℝ × ℝ} (hk : IsStandard cs k) {f f' : PixelFormat} (hf : isYuv f = true)
    (hco : Coarser f f') (full : Bool) (ps : List Plane) (m : Mem) {c : Chan} (hc : c = .Y ∨ c = .U ∨ c = .V) (x y : Nat) :
    idealRecode k k f f' full full (shown f ps m) c x y =
      shown f ps m c x y * ((2 ^ sampleBits f' - 1 : Nat) / (2 ^ sampleBits f - 1 : Nat) : ℝ) := by
  have := recode_close hk f f' full (shown f ps m) hc (x := x) (y := y) (v := shown f ps m c x y) (d := 0)
    (fun x' y' ex ey hY => by rw [shown_same hf hco ps m hc ex ey hY, sub_self, abs_zero])
  rw [zero_mul, abs_nonpos_iff, sub_eq_zero] at this
  exact this

/-- **C64** (partial: columns whose stores round, BT.601 and BT.709; see `C64_truncating_false`). A YUV image converted to one with
more bits (and chroma samples for at least as many pixels) and the same colour information, and then back to the old number of bits,
has the samples it started with. -/
theorem C64_more_bits_lossless_partial (r1 : Run (p.ieee simd scalar) src mid sps mps m m')
    (r2 : Run (p2.ieee simd2 scalar2) mid dst mps dps m' m'') (hs : isYuv src.format = true) (hm : isYuv mid.format = true)
    (hd : isYuv dst.format = true) {i : YuvColorInfo} (hi : src.color = .YUV i) (hi' : mid.color = .YUV i) (hi'' : dst.color = .YUV i)
    (hcs : i.space = .BT601 ∨ i.space = .BT709) (hbits : sampleBits src.format < sampleBits mid.format)
    (hsame : sampleBits src.format = sampleBits dst.format) (hco : Coarser src.format mid.format)
    (hco' : Coarser src.format dst.format) (hV : InDepth src.format src.width src.height (shown src.format sps m))
    {c : Chan} (hc : c = .Y ∨ c = .U ∨ c = .V) {x y : Nat} (hx : x < dst.width) (hy : y < dst.height)
    (hT1 : ¬ Truncates p mid.width x) (hT2 : ¬ Truncates p2 dst.width x) :
    ∃ n, sample src.format sps m c x y = some n ∧ sample dst.format dps m'' c x y = some n := by
  obtain ⟨k, hk⟩ : ∃ k, lumaWeights i.space = some k := by rcases hcs with h | h <;> rw [h] <;> exact ⟨_, rfl⟩
  have hst : IsStandard i.space k := ⟨hcs, hk⟩
  have ret1 := r1.returned
  have ret2 := r2.returned
  have hw1 := ret1.width
  have hh1 := ret1.height
  have hw2 := ret2.width
  have hh2 := ret2.height
  have loc : ∀ {f : PixelFormat} {c : Chan} (x y : Nat), isYuv f = true → (c = .Y ∨ c = .U ∨ c = .V) → ∃ l, sampleLoc f c x y = some l := by
    intro f c x y hf hc
    revert hf; rcases hc with rfl | rfl | rfl <;> cases f <;> simp [isYuv, sampleLoc]
  have hM : 255 ≤ 2 ^ sampleBits src.format - 1 ∧ 2 ^ sampleBits src.format - 1 ≤ 1023 ∧ 2 ^ sampleBits mid.format - 1 ≤ 4095 ∧
      4 * (2 ^ sampleBits src.format - 1) ≤ 2 ^ sampleBits mid.format - 1 := by
    revert hbits; cases src.format <;> cases mid.format <;> simp [sampleBits]
  have hTop : ∀ f : PixelFormat, 2 ^ sampleBits f - 1 ≤ (yuvStore f).top := by
    intro f; cases f <;> simp [sampleBits, yuvStore, sampleBytes, Store.top]
  have hVle : ∀ c, (c = .Y ∨ c = .U ∨ c = .V) → ∀ x < dst.width, ∀ y < dst.height,
      shown src.format sps m c x y ≤ 2 ^ sampleBits src.format - 1 := by
    intro c hc x hx y hy
    obtain ⟨l, hl⟩ := loc x y hs hc
    exact hV c x y l (by omega) (by omega) hl
  obtain ⟨hM1, hM2, hM3, hM4⟩ := hM
  have hT' := hTop mid.format
  have hT'' := hTop dst.format
  rw [← hsame] at hT''
  have n1 : ¬ (src.format = mid.format ∧ src.color = mid.color) := by rintro ⟨e, _⟩; rw [e] at hbits; omega
  have n2 : ¬ (mid.format = dst.format ∧ mid.color = dst.color) := by rintro ⟨e, _⟩; rw [hsame, e] at hbits; omega
  have val1 := fun {c : Chan} (hc : c = .Y ∨ c = .U ∨ c = .V) {x y : Nat} (hx : x < dst.width) (hy : y < dst.height) =>
    yuv_to_yuv_value r1 hs hm hi hi' n1 rfl rfl hst hst hc (x := x) (y := y) (by omega) (by omega) hV
  have key1 : ∀ c, (c = .Y ∨ c = .U ∨ c = .V) → ∀ x < dst.width, ∀ y < dst.height,
      (shown mid.format mps m' c x y ≤ 2 ^ sampleBits mid.format - 1) ∧
      (¬ Truncates p mid.width x → |(shown mid.format mps m' c x y : ℝ) -
        shown src.format sps m c x y * ((2 ^ sampleBits mid.format - 1 : Nat) / (2 ^ sampleBits src.format - 1 : Nat) : ℝ)| ≤
          1 / 2 + 6 / 10 ^ 5 * (2 ^ sampleBits mid.format - 1 : Nat)) := by
    intro c hc x hx y hy
    have hv := hVle c hc x hx y hy
    have hv1 := val1 hc hx hy
    rw [recode_scaled hst hs hco i.fullRange sps m hc] at hv1
    generalize shown src.format sps m c x y = n at *
    generalize 2 ^ sampleBits src.format - 1 = M at *
    generalize 2 ^ sampleBits mid.format - 1 = M' at *
    have q0 : (0 : ℝ) < M := by have : 0 < M := by omega
                                exact_mod_cast this
    have q1 : (0 : ℝ) ≤ M' := Nat.cast_nonneg _
    have q2 : (n : ℝ) ≤ M := by exact_mod_cast hv
    have q3 : (n : ℝ) * (M' / M) ≤ M' := by
      rw [mul_div_assoc', div_le_iff₀ q0, mul_comm]
      exact mul_le_mul_of_nonneg_left q2 q1
    have q4 : (M' : ℝ) ≤ (yuvStore mid.format).top := by exact_mod_cast hT'
    have q5 : (M' : ℝ) ≤ 4095 := by exact_mod_cast hM3
    obtain ⟨v, e1, a1⟩ := hv1 (by positivity) q3
    have e : shown mid.format mps m' c x y = stored p simd scalar mid.width x (yuvStore mid.format) v := by rw [shown, e1]; rfl
    rw [e]
    constructor
    · by_cases hT : Truncates p mid.width x
      · have := (stored_floor (simd := simd) (scalar := scalar) hT (yuvStore mid.format) a1 (by positivity) (q3.trans q4) (by linarith)).1
        have : ((stored p simd scalar mid.width x (yuvStore mid.format) v : Nat) : ℝ) < ((M' + 1 : Nat) : ℝ) := by
          push_cast; linarith
        have := Nat.cast_lt.mp this
        omega
      · have := (abs_le.mp (stored_near (simd := simd) (scalar := scalar) hT (yuvStore mid.format) a1 (by positivity) (q3.trans q4)
          (by linarith))).2
        have : ((stored p simd scalar mid.width x (yuvStore mid.format) v : Nat) : ℝ) < ((M' + 1 : Nat) : ℝ) := by
          push_cast; linarith
        have := Nat.cast_lt.mp this
        omega
    · intro hT
      exact stored_near hT _ a1 (by positivity) (q3.trans q4) (by linarith)
  have hdepth : InDepth mid.format mid.width mid.height (shown mid.format mps m') := by
    intro c x y l hx hy hl
    refine (key1 c ?_ x (by omega) y (by omega)).1
    revert hl hm
    cases mid.format <;> cases c <;> simp [isYuv, sampleLoc]
  have even : ∀ x' y', x' / hsub dst.format = x / hsub dst.format → y' / vsub dst.format = y / vsub dst.format →
      x' < dst.width ∧ y' < dst.height := fun x' y' ex ey => cell_in ret2.evenW ret2.evenH hx hy ex ey
  have hid := recode_close hst mid.format dst.format i.fullRange (shown mid.format mps m') hc (x := x) (y := y)
    (v := shown src.format sps m c x y * ((2 ^ sampleBits mid.format - 1 : Nat) / (2 ^ sampleBits src.format - 1 : Nat) : ℝ))
    (d := 1 / 2 + 6 / 10 ^ 5 * (2 ^ sampleBits mid.format - 1 : Nat)) (by
      intro x' y' ex ey hY
      obtain ⟨h1, h2⟩ := even x' y' ex ey
      have := (key1 c hc x' h1 y' h2).2 (by rw [truncates_cell (half_of_cell ex)]; exact hT1)
      rwa [shown_same hs hco' sps m hc ex ey hY] at this)
  have hbd := recode_close hst mid.format dst.format i.fullRange (shown mid.format mps m') hc (x := x) (y := y)
    (v := (2 ^ sampleBits mid.format - 1 : Nat) / 2) (d := (2 ^ sampleBits mid.format - 1 : Nat) / 2) (by
      intro x' y' ex ey hY
      obtain ⟨h1, h2⟩ := even x' y' ex ey
      have := (key1 c hc x' h1 y' h2).1
      have : (shown mid.format mps m' c x' y' : ℝ) ≤ (2 ^ sampleBits mid.format - 1 : Nat) := by exact_mod_cast this
      have h0 : (0 : ℝ) ≤ shown mid.format mps m' c x' y' := Nat.cast_nonneg _
      rw [abs_le]; constructor <;> linarith)
  have hval := yuv_to_yuv_value r2 hm hd hi' hi'' n2 rfl rfl hst hst hc hx hy hdepth
  have hv := hVle c hc x hx y hy
  obtain ⟨l, hl⟩ := loc x y hs hc
  have hsrc := shown_depicts (w := src.width) (h := src.height) ret1.vsrc.fits.1 m c x y l (by omega) (by omega) hl
  rw [← hsame] at hid hbd hval
  generalize idealRecode k k mid.format dst.format i.fullRange i.fullRange (shown mid.format mps m') c x y = J at *
  generalize shown src.format sps m c x y = n at *
  generalize 2 ^ sampleBits src.format - 1 = M at *
  generalize 2 ^ sampleBits mid.format - 1 = M' at *
  have q0 : (255 : ℝ) ≤ M := by exact_mod_cast hM1
  have q0' : (M : ℝ) ≤ 1023 := by exact_mod_cast hM2
  have q1 : (4 : ℝ) * M ≤ M' := by exact_mod_cast hM4
  have q2 : (n : ℝ) ≤ M := by exact_mod_cast hv
  have q3 : (0 : ℝ) < M := by linarith
  have q4 : (0 : ℝ) < M' := by linarith
  have q5 : (n : ℝ) * (M' / M) * (M / M') = n := by field_simp
  have q6 : (1 / 2 + 6 / 10 ^ 5 * M' : ℝ) * (M / M') ≤ 1 / 8 + 6 / 10 ^ 5 * M := by
    have : (1 / 2 + 6 / 10 ^ 5 * M' : ℝ) * (M / M') = 1 / 2 * (M / M') + 6 / 10 ^ 5 * M := by field_simp
    rw [this]
    have : (M : ℝ) / M' ≤ 1 / 4 := by rw [div_le_iff₀ q4]; linarith
    linarith
  have q7 : (M' : ℝ) / 2 * (M / M') = M / 2 := by field_simp
  rw [q5] at hid
  rw [q7] at hbd
  obtain ⟨b0, b1⟩ := abs_le.mp hbd
  obtain ⟨v, e1, a1⟩ := hval (by linarith) (by linarith)
  have q8 : (M : ℝ) ≤ (yuvStore dst.format).top := by exact_mod_cast hT''
  have hnear := stored_near (simd := simd2) (scalar := scalar2) hT2 (yuvStore dst.format) a1 (by linarith) (by linarith)
    (by linarith)
  have tot := abs_sub_le ((stored p2 simd2 scalar2 dst.width x (yuvStore dst.format) v : Nat) : ℝ) J n
  have : stored p2 simd2 scalar2 dst.width x (yuvStore dst.format) v = n := nat_of_near (by linarith)
  exact ⟨n, hsrc, this ▸ e1⟩

/-! ## C65: through RGB and back -/

/-- The pixels sharing the chroma sample of `(x, y)` in format `f'` have colours that RGB images can hold. -/
def InGamut (k : ℝ × ℝ × ℝ) (f : PixelFormat) (full : Bool) (V : Pic Nat) (f' : PixelFormat) (x y : Nat) : Prop :=
  ∀ x' y', x' / hsub f' = x / hsub f' → y' / vsub f' = y / vsub f' → ∀ c, (c = .R ∨ c = .G ∨ c = .B) →
    0 ≤ idealRgb k f full V c x' y' ∧ idealRgb k f full V c x' y' ≤ 255

/-- Where RGB codes are within `E` of the ideal ones, the ideal YUV codes are close to the YUV codes the RGB codes were made from. -/
theorem yuv_back {cs : ColorSpace} {k : ℝ × ℝ × ℝ} (hk : IsStandard cs k) {f f' : PixelFormat} (hf : isYuv f = true)
    (hb : sampleBits f = sampleBits f') (hco : Coarser f f') (full : Bool) (ps : List Plane) (m : Mem) (W : Pic Nat) {x y : Nat} {E : ℝ}
    (h : ∀ x' y', x' / hsub f' = x / hsub f' → y' / vsub f' = y / vsub f' → ∀ c, (c = .R ∨ c = .G ∨ c = .B) →
      |(W c x' y' : ℝ) - idealRgb k f full (shown f ps m) c x' y'| ≤ E)
    {c : Chan} (hc : c = .Y ∨ c = .U ∨ c = .V) :
    |idealYuv k f' full W c x y - shown f ps m c x y| ≤ (2 ^ sampleBits f' - 1 : Nat) * rangeScale full * (E / 255) := by
  have hM : 2 ^ sampleBits f' - 1 ≠ 0 := (max_lt f').1.ne'
  have hM' : ((2 ^ sampleBits f' - 1 : Nat) : ℝ) ≠ 0 := by exact_mod_cast hM
  have hpix : ∀ x' y', x' / hsub f' = x / hsub f' → y' / vsub f' = y / vsub f' →
      |(pixelYuv k W x' y').1 - lumaOf full (2 ^ sampleBits f - 1) (shown f ps m .Y x' y')| ≤ E / 255 ∧
      |(pixelYuv k W x' y').2.1 - chromaOfCode full (2 ^ sampleBits f - 1) (shown f ps m .U x' y')| ≤ E / 255 ∧
      |(pixelYuv k W x' y').2.2 - chromaOfCode full (2 ^ sampleBits f - 1) (shown f ps m .V x' y')| ≤ E / 255 := by
    intro x' y' ex ey
    have hR := h x' y' ex ey .R (by simp)
    have hG := h x' y' ex ey .G (by simp)
    have hB := h x' y' ex ey .B (by simp)
    have sc : ∀ {w t : ℝ}, |w - 255 * t| ≤ E → |w / 255 - t| ≤ E / 255 := by
      intro w t ht
      rw [show w / 255 - t = (w - 255 * t) / 255 by ring, abs_div, abs_of_pos (by norm_num : (0 : ℝ) < 255)]
      exact div_le_div_of_nonneg_right ht (by norm_num)
    have := standardYuv_lip hk (sc hR) (sc hG) (sc hB)
    rw [standard_inverse hk] at this
    exact this
  have one : ∀ n : ℝ, n * ((2 ^ sampleBits f' - 1 : Nat) / (2 ^ sampleBits f' - 1 : Nat) : ℝ) = n := by
    intro n; rw [div_self hM', mul_one]
  rw [hb] at hpix
  rcases hc with rfl | rfl | rfl
  · have := lumaCode_lip full (2 ^ sampleBits f' - 1) (hpix x y rfl rfl).1
    rwa [luma_rescale full hM, one] at this
  · simp only [idealYuv, chromaCode_mean]
    refine cellMean_close f' fun x' y' ex ey => ?_
    have := chromaCode_lip full (2 ^ sampleBits f' - 1) (hpix x' y' ex ey).2.1
    rwa [chroma_rescale full hM, one, shown_same hf hco ps m (by simp) ex ey (by simp)] at this
  · simp only [idealYuv, chromaCode_mean]
    refine cellMean_close f' fun x' y' ex ey => ?_
    have := chromaCode_lip full (2 ^ sampleBits f' - 1) (hpix x' y' ex ey).2.2
    rwa [chroma_rescale full hM, one, shown_same hf hco ps m (by simp) ex ey (by simp)] at this

/-- How far stored codes lie from the values they stand for. -/
def storeError (p : Platform) (w x : Nat) (e : ℝ) : Prop := (Truncates p w x ∧ e = 1) ∨ (¬ Truncates p w x ∧ e = 1 / 2)

/-- The YUV codes after a detour through RGB. -/
theorem through_rgb (r1 : Run (p.ieee simd scalar) src mid sps mps m m') (r2 : Run (p2.ieee simd2 scalar2) mid dst mps dps m' m'')
    (hs : isYuv src.format = true) (hm : isYuv mid.format = false) (hd : isYuv dst.format = true) {i : YuvColorInfo}
    (hi : src.color = .YUV i) (hi' : dst.color = .YUV i) (ht : i.transfer = mid.color.transfer)
    (hp : i.primaries = mid.color.primaries) (hcs : i.space = .BT601 ∨ i.space = .BT709) {k : ℝ × ℝ × ℝ}
    (hk : lumaWeights i.space = some k) (hsame : sampleBits src.format = sampleBits dst.format)
    (hco : Coarser src.format dst.format) (hV : InDepth src.format src.width src.height (shown src.format sps m))
    {c : Chan} (hc : c = .Y ∨ c = .U ∨ c = .V) {x y : Nat} (hx : x < dst.width) (hy : y < dst.height)
    (hgam : InGamut k src.format i.fullRange (shown src.format sps m) dst.format x y) {e1 e2 : ℝ}
    (he1 : storeError p mid.width x e1) (he2 : storeError p2 dst.width x e2) :
    ∃ n n', sample src.format sps m c x y = some n ∧ sample dst.format dps m'' c x y = some n' ∧
      |(n' : ℝ) - n| ≤ (e1 + 1 / 400) * rangeScale i.fullRange * ((2 ^ sampleBits dst.format - 1 : Nat) / 255) + e2 +
        5 / 10 ^ 6 * (2 ^ sampleBits dst.format - 1 : Nat) := by
  have ret1 := r1.returned
  have ret2 := r2.returned
  have hw1 := ret1.width
  have hh1 := ret1.height
  have hw2 := ret2.width
  have hh2 := ret2.height
  have hrgb : ∀ x' y', x' / hsub dst.format = x / hsub dst.format → y' / vsub dst.format = y / vsub dst.format →
      ∀ c, (c = .R ∨ c = .G ∨ c = .B) →
      |(shown mid.format mps m' c x' y' : ℝ) - idealRgb k src.format i.fullRange (shown src.format sps m) c x' y'| ≤ e1 + 1 / 400 := by
    intro x' y' ex ey c hc
    obtain ⟨hx', hy'⟩ := cell_in ret2.evenW ret2.evenH hx hy ex ey
    have hg := hgam x' y' ex ey c hc
    have hid : clamp255 (idealRgb k src.format i.fullRange (shown src.format sps m) c x' y') =
        idealRgb k src.format i.fullRange (shown src.format sps m) c x' y' := by
      rw [clamp255, min_eq_right hg.2, max_eq_right hg.1]
    rcases he1 with ⟨hT, rfl⟩ | ⟨hT, rfl⟩
    · obtain ⟨n, h1, h2⟩ := C44_yuv_to_rgb_partial r1 hs hm hi ht hp hcs hk hc (x := x') (y := y') (by omega) (by omega) hV
      have e : shown mid.format mps m' c x' y' = n := by rw [shown, h1]; rfl
      rw [e, ← hid]
      exact h2.le
    · obtain ⟨n, h1, h2⟩ := C61_decode_nearest_partial r1 hs hm hi ht hp hcs hk hV hc (x := x') (y := y') (by omega) (by omega)
        (by rw [truncates_cell (half_of_cell ex)]; exact hT)
      have e : shown mid.format mps m' c x' y' = n := by rw [shown, h1]; rfl
      rw [e, ← hid]
      exact h2
  have hback := yuv_back ⟨hcs, hk⟩ hs hsame hco i.fullRange sps m (shown mid.format mps m') hrgb hc
  obtain ⟨l, hl⟩ : ∃ l, sampleLoc src.format c x y = some l := by
    revert hs; rcases hc with rfl | rfl | rfl <;> cases src.format <;> simp [isYuv, sampleLoc]
  have hsrc := shown_depicts (w := src.width) (h := src.height) ret1.vsrc.fits.1 m c x y l (by omega) (by omega) hl
  obtain ⟨n', h1, h2⟩ : ∃ n', sample dst.format dps m'' c x y = some n' ∧
      |(n' : ℝ) - idealYuv k dst.format i.fullRange (shown mid.format mps m') c x y| ≤
        e2 + 5 / 10 ^ 6 * (2 ^ sampleBits dst.format - 1 : Nat) := by
    rcases he2 with ⟨hT, rfl⟩ | ⟨hT, rfl⟩
    · obtain ⟨n, h1, h2⟩ := C43_rgb_to_yuv_partial r2 hm hd hi' ht.symm hp.symm hcs hk hc hx hy
      exact ⟨n, h1, h2.le⟩
    · exact C61_encode_nearest_partial r2 hm hd hi' ht.symm hp.symm hcs hk hc hx hy hT
  refine ⟨_, n', hsrc, h1, ?_⟩
  have tot := abs_sub_le (n' : ℝ) (idealYuv k dst.format i.fullRange (shown mid.format mps m') c x y) (shown src.format sps m c x y)
  have : (2 ^ sampleBits dst.format - 1 : Nat) * rangeScale i.fullRange * ((e1 + 1 / 400) / 255) =
    (e1 + 1 / 400) * rangeScale i.fullRange * ((2 ^ sampleBits dst.format - 1 : Nat) / 255) := by ring
  linarith

/-- **C65** (partial: columns whose stores round, BT.601 and BT.709; see `C65_truncating_false`). An 8-bit limited-range YUV image
converted to RGB and back has the samples it started with, luma and chroma, wherever the colours (of all pixels that share the
chroma sample) are ones that RGB images can hold. -/
theorem C65_lossless_partial (r1 : Run (p.ieee simd scalar) src mid sps mps m m')
    (r2 : Run (p2.ieee simd2 scalar2) mid dst mps dps m' m'')
    (hs : isYuv src.format = true) (hm : isYuv mid.format = false) (hd : isYuv dst.format = true) {i : YuvColorInfo}
    (hi : src.color = .YUV i) (hi' : dst.color = .YUV i) (ht : i.transfer = mid.color.transfer)
    (hp : i.primaries = mid.color.primaries) (hcs : i.space = .BT601 ∨ i.space = .BT709) {k : ℝ × ℝ × ℝ}
    (hk : lumaWeights i.space = some k) (hfull : i.fullRange = false) (h8 : sampleBits src.format = 8) (h8' : sampleBits dst.format = 8)
    (hco : Coarser src.format dst.format) {c : Chan} (hc : c = .Y ∨ c = .U ∨ c = .V) {x y : Nat} (hx : x < dst.width)
    (hy : y < dst.height) (hgam : InGamut k src.format i.fullRange (shown src.format sps m) dst.format x y)
    (hT1 : ¬ Truncates p mid.width x) (hT2 : ¬ Truncates p2 dst.width x) :
    ∃ n, sample src.format sps m c x y = some n ∧ sample dst.format dps m'' c x y = some n := by
  have hV : InDepth src.format src.width src.height (shown src.format sps m) := by
    intro c x y l _ _ _
    rw [h8]
    exact shown_le (by revert h8; cases src.format <;> simp [sampleBits, sampleBytes]) ..
  obtain ⟨n, n', h1, h2, h3⟩ := through_rgb r1 r2 hs hm hd hi hi' ht hp hcs hk (h8.trans h8'.symm) hco hV hc hx hy hgam
    (.inr ⟨hT1, rfl⟩) (.inr ⟨hT2, rfl⟩)
  rw [h8', hfull] at h3
  norm_num [rangeScale] at h3
  have : n' = n := nat_of_near (by linarith)
  exact ⟨n, h1, this ▸ h2⟩

/-- **C65** for all ranges, depths and columns (partial: BT.601 and BT.709): the samples come back up to a few codes. With stores that
round in both conversions these are 0 for 8-bit limited range (see above), 1 for 8-bit full range, 2 for 10 and 8 for 12 bits; with
stores that truncate, 1, 2, 5 and 17. -/
theorem C65_through_rgb_partial (r1 : Run (p.ieee simd scalar) src mid sps mps m m')
    (r2 : Run (p2.ieee simd2 scalar2) mid dst mps dps m' m'')
    (hs : isYuv src.format = true) (hm : isYuv mid.format = false) (hd : isYuv dst.format = true) {i : YuvColorInfo}
    (hi : src.color = .YUV i) (hi' : dst.color = .YUV i) (ht : i.transfer = mid.color.transfer)
    (hp : i.primaries = mid.color.primaries) (hcs : i.space = .BT601 ∨ i.space = .BT709) {k : ℝ × ℝ × ℝ}
    (hk : lumaWeights i.space = some k) (hsame : sampleBits src.format = sampleBits dst.format)
    (hco : Coarser src.format dst.format) (hV : InDepth src.format src.width src.height (shown src.format sps m))
    {c : Chan} (hc : c = .Y ∨ c = .U ∨ c = .V) {x y : Nat} (hx : x < dst.width) (hy : y < dst.height)
    (hgam : InGamut k src.format i.fullRange (shown src.format sps m) dst.format x y) :
    ∃ n n', sample src.format sps m c x y = some n ∧ sample dst.format dps m'' c x y = some n' ∧
      |(n' : Int) - n| ≤ (if sampleBits dst.format = 8 then (if i.fullRange then 2 else 1)
        else if sampleBits dst.format = 10 then 5 else 17) ∧
      (¬ Truncates p mid.width x → ¬ Truncates p2 dst.width x → |(n' : Int) - n| ≤
        (if sampleBits dst.format = 8 then (if i.fullRange then 1 else 0) else if sampleBits dst.format = 10 then 2 else 8)) := by
  have hbits : sampleBits dst.format = 8 ∨ sampleBits dst.format = 10 ∨ sampleBits dst.format = 12 := by
    cases dst.format <;> simp [sampleBits]
  have ex : ∀ (p : Platform) (w x : Nat), ∃ e, storeError p w x e ∧ e ≤ 1 ∧ (¬ Truncates p w x → e = 1 / 2) := by
    intro p w x
    by_cases h : Truncates p w x
    · exact ⟨1, .inl ⟨h, rfl⟩, le_refl _, fun h' => absurd h h'⟩
    · exact ⟨1 / 2, .inr ⟨h, rfl⟩, by norm_num, fun _ => rfl⟩
  obtain ⟨e1, he1, le1, t1⟩ := ex p mid.width x
  obtain ⟨e2, he2, le2, t2⟩ := ex p2 dst.width x
  obtain ⟨n, n', h1, h2, h3⟩ := through_rgb r1 r2 hs hm hd hi hi' ht hp hcs hk hsame hco hV hc hx hy hgam he1 he2
  refine ⟨n, n', h1, h2, ?_, ?_⟩
  · have conv : ∀ {N : Nat}, |(n' : ℝ) - n| < ((N + 1 : Nat) : ℝ) → |(n' : Int) - n| ≤ N := by
      intro N h
      have : |((n' : Int) - n : Int)| < ((N + 1 : Nat) : Int) := by exact_mod_cast h
      push_cast at this ⊢
      omega
    rcases hbits with h | h | h <;> rw [h] at h3 ⊢ <;> cases hf : i.fullRange <;> rw [hf] at h3 <;> norm_num [rangeScale] at h3 ⊢
    · exact conv (N := 1) (by push_cast; linarith)
    · exact conv (N := 2) (by push_cast; linarith)
    · exact conv (N := 5) (by push_cast; linarith)
    · exact conv (N := 5) (by push_cast; linarith)
    · exact conv (N := 17) (by push_cast; linarith)
    · exact conv (N := 17) (by push_cast; linarith)
  · intro hT1 hT2
    rw [t1 hT1, t2 hT2] at h3
    have conv : ∀ {N : Nat}, |(n' : ℝ) - n| < ((N + 1 : Nat) : ℝ) → |(n' : Int) - n| ≤ N := by
      intro N h
      have : |((n' : Int) - n : Int)| < ((N + 1 : Nat) : Int) := by exact_mod_cast h
      push_cast at this ⊢
      omega
    rcases hbits with h | h | h <;> rw [h] at h3 ⊢ <;> cases hf : i.fullRange <;> rw [hf] at h3 <;> norm_num [rangeScale] at h3 ⊢
    · have := nat_of_near (a := n') (b := n) (by linarith)
      omega
    · exact conv (N := 1) (by push_cast; linarith)
    · exact conv (N := 2) (by push_cast; linarith)
    · exact conv (N := 2) (by push_cast; linarith)
    · exact conv (N := 8) (by push_cast; linarith)
    · exact conv (N := 8) (by push_cast; linarith)

/-! ## Columns whose stores truncate -/

/-- 2×2 images of all formats needed, the planes one after the other from address `a` on. -/
def rgbTiny (a : Nat) : Img := .raw .RGB 2 2 [⟨⟨a, 12⟩, 6⟩] (.RGB ⟨.SDR, .BT709⟩)
def i444Tiny (a : Nat) : Img := .raw .I444 2 2 [⟨⟨a, 4⟩, 2⟩, ⟨⟨a + 4, 4⟩, 2⟩, ⟨⟨a + 8, 4⟩, 2⟩] (.YUV ⟨.SDR, .BT709, .BT709, false⟩)
def i410Tiny (a : Nat) : Img := .raw .I410 2 2 [⟨⟨a, 8⟩, 4⟩, ⟨⟨a + 8, 8⟩, 4⟩, ⟨⟨a + 16, 8⟩, 4⟩] (.YUV ⟨.SDR, .BT709, .BT709, false⟩)

/-- **C63** is false in columns whose stores truncate: the scalar code makes 128 of a picture of the grey 129, by way of 10 bits. -/
theorem C63_truncating_false : ∃ m' m'',
    Run (Platform.scalar.ieee x86Libm x86Libm) (rgbTiny 0) (i410Tiny 100) [⟨⟨0, 12⟩, 6⟩]
      [⟨⟨100, 8⟩, 4⟩, ⟨⟨108, 8⟩, 4⟩, ⟨⟨116, 8⟩, 4⟩] (fun _ => 129) m' ∧
    Run (Platform.scalar.ieee x86Libm x86Libm) (i410Tiny 100) (rgbTiny 200)
      [⟨⟨100, 8⟩, 4⟩, ⟨⟨108, 8⟩, 4⟩, ⟨⟨116, 8⟩, 4⟩] [⟨⟨200, 12⟩, 6⟩] m' m'' ∧
    sample .RGB [⟨⟨0, 12⟩, 6⟩] (fun _ => 129) .G 0 0 = some 129 ∧ sample .RGB [⟨⟨200, 12⟩, 6⟩] m'' .G 0 0 = some 128 := by
  obtain ⟨m', r1⟩ := run_exists (c := Platform.scalar.ieee x86Libm x86Libm) (src := rgbTiny 0) (dst := i410Tiny 100)
    (platform_lawful .scalar _ _) rfl rfl (planesDisjoint_of (by decide)) (separate_of (by decide)) (uniform_of (by decide)) (by decide)
    (fun _ => 129)
  obtain ⟨m'', r2⟩ := run_exists (c := Platform.scalar.ieee x86Libm x86Libm) (src := i410Tiny 100) (dst := rgbTiny 200)
    (platform_lawful .scalar _ _) rfl rfl (planesDisjoint_of (by decide)) (separate_of (by decide)) (uniform_of (by decide)) (by decide)
    m'
  refine ⟨m', m'', r1, r2, by decide, ?_⟩
  have d1 := r1.depicts (by rintro ⟨_, h, _⟩; cases h) (shown_depicts (w := 2) (h := 2) (by decide) (fun _ => 129))
  refine (r2.depicts (by rintro ⟨_, h, _⟩; cases h) d1 .G 0 0 ⟨0, 0, 1⟩ (by decide) (by decide) rfl).trans ?_
  decide +kernel

/-- **C64** is false in columns whose stores truncate: by way of 10 bits, the scalar code makes a luma of 127 of one of 128. -/
theorem C64_truncating_false : ∃ m' m'',
    Run (Platform.scalar.ieee x86Libm x86Libm) (i444Tiny 0) (i410Tiny 100) [⟨⟨0, 4⟩, 2⟩, ⟨⟨4, 4⟩, 2⟩, ⟨⟨8, 4⟩, 2⟩]
      [⟨⟨100, 8⟩, 4⟩, ⟨⟨108, 8⟩, 4⟩, ⟨⟨116, 8⟩, 4⟩] (fun _ => 128) m' ∧
    Run (Platform.scalar.ieee x86Libm x86Libm) (i410Tiny 100) (i444Tiny 200)
      [⟨⟨100, 8⟩, 4⟩, ⟨⟨108, 8⟩, 4⟩, ⟨⟨116, 8⟩, 4⟩] [⟨⟨200, 4⟩, 2⟩, ⟨⟨204, 4⟩, 2⟩, ⟨⟨208, 4⟩, 2⟩] m' m'' ∧
    sample .I444 [⟨⟨0, 4⟩, 2⟩, ⟨⟨4, 4⟩, 2⟩, ⟨⟨8, 4⟩, 2⟩] (fun _ => 128) .Y 0 0 = some 128 ∧
    sample .I444 [⟨⟨200, 4⟩, 2⟩, ⟨⟨204, 4⟩, 2⟩, ⟨⟨208, 4⟩, 2⟩] m'' .Y 0 0 = some 127 := by
  obtain ⟨m', r1⟩ := run_exists (c := Platform.scalar.ieee x86Libm x86Libm) (src := i444Tiny 0) (dst := i410Tiny 100)
    (platform_lawful .scalar _ _) rfl rfl (planesDisjoint_of (by decide)) (separate_of (by decide)) (uniform_of (by decide)) (by decide)
    (fun _ => 128)
  obtain ⟨m'', r2⟩ := run_exists (c := Platform.scalar.ieee x86Libm x86Libm) (src := i410Tiny 100) (dst := i444Tiny 200)
    (platform_lawful .scalar _ _) rfl rfl (planesDisjoint_of (by decide)) (separate_of (by decide)) (uniform_of (by decide)) (by decide)
    m'
  refine ⟨m', m'', r1, r2, by decide, ?_⟩
  have d1 := r1.depicts (by rintro ⟨_, h, _⟩; cases h) (shown_depicts (w := 2) (h := 2) (by decide) (fun _ => 128))
  refine (r2.depicts (by rintro ⟨_, h, _⟩; cases h) d1 .Y 0 0 ⟨0, 0, 0⟩ (by decide) (by decide) rfl).trans ?_
  decide +kernel

/-- **C65** is not lossless in columns whose stores truncate: by way of RGB, the scalar code makes a luma of 127 of one of 128. -/
theorem C65_truncating_false : ∃ m' m'',
    Run (Platform.scalar.ieee x86Libm x86Libm) (i444Tiny 0) (rgbTiny 100) [⟨⟨0, 4⟩, 2⟩, ⟨⟨4, 4⟩, 2⟩, ⟨⟨8, 4⟩, 2⟩]
      [⟨⟨100, 12⟩, 6⟩] (fun _ => 128) m' ∧
    Run (Platform.scalar.ieee x86Libm x86Libm) (rgbTiny 100) (i444Tiny 200)
      [⟨⟨100, 12⟩, 6⟩] [⟨⟨200, 4⟩, 2⟩, ⟨⟨204, 4⟩, 2⟩, ⟨⟨208, 4⟩, 2⟩] m' m'' ∧
    sample .I444 [⟨⟨0, 4⟩, 2⟩, ⟨⟨4, 4⟩, 2⟩, ⟨⟨8, 4⟩, 2⟩] (fun _ => 128) .Y 0 0 = some 128 ∧
    sample .I444 [⟨⟨200, 4⟩, 2⟩, ⟨⟨204, 4⟩, 2⟩, ⟨⟨208, 4⟩, 2⟩] m'' .Y 0 0 = some 127 := by
  obtain ⟨m', r1⟩ := run_exists (c := Platform.scalar.ieee x86Libm x86Libm) (src := i444Tiny 0) (dst := rgbTiny 100)
    (platform_lawful .scalar _ _) rfl rfl (planesDisjoint_of (by decide)) (separate_of (by decide)) (uniform_of (by decide)) (by decide)
    (fun _ => 128)
  obtain ⟨m'', r2⟩ := run_exists (c := Platform.scalar.ieee x86Libm x86Libm) (src := rgbTiny 100) (dst := i444Tiny 200)
    (platform_lawful .scalar _ _) rfl rfl (planesDisjoint_of (by decide)) (separate_of (by decide)) (uniform_of (by decide)) (by decide)
    m'
  refine ⟨m', m'', r1, r2, by decide, ?_⟩
  have d1 := r1.depicts (by rintro ⟨_, h, _⟩; cases h) (shown_depicts (w := 2) (h := 2) (by decide) (fun _ => 128))
  refine (r2.depicts (by rintro ⟨_, h, _⟩; cases h) d1 .Y 0 0 ⟨0, 0, 0⟩ (by decide) (by decide) rfl).trans ?_
  decide +kernel

/-! ## Examples -/

/-- Any RGB image of 32×2 pixels survives AVX2, I412 and AVX-512. -/
example (simd scalar simd2 scalar2 : Libm) (m : Mem) : ∃ m'' n,
    sample .RGB [⟨⟨0, 192⟩, 96⟩] m .G 13 1 = some n ∧ sample .BGRA [⟨⟨1000, 256⟩, 128⟩] m'' .G 13 1 = some n := by
  obtain ⟨m', r1⟩ := run_exists (c := Platform.avx2.ieee simd scalar) (platform_lawful .avx2 _ _)
    (src := .raw .RGB 32 2 [⟨⟨0, 192⟩, 96⟩] (.RGB ⟨.SDR, .BT709⟩))
    (dst := .raw .I412 32 2 [⟨⟨200, 128⟩, 64⟩, ⟨⟨328, 128⟩, 64⟩, ⟨⟨456, 128⟩, 64⟩] (.YUV ⟨.SDR, .BT709, .BT601, false⟩))
    (sps := [⟨⟨0, 192⟩, 96⟩]) (dps := [⟨⟨200, 128⟩, 64⟩, ⟨⟨328, 128⟩, 64⟩, ⟨⟨456, 128⟩, 64⟩]) rfl rfl
    (planesDisjoint_of (by decide)) (separate_of (by decide)) (uniform_of (by decide)) (by decide) m
  obtain ⟨m'', r2⟩ := run_exists (c := Platform.avx512.ieee simd2 scalar2) (platform_lawful .avx512 _ _)
    (src := .raw .I412 32 2 [⟨⟨200, 128⟩, 64⟩, ⟨⟨328, 128⟩, 64⟩, ⟨⟨456, 128⟩, 64⟩] (.YUV ⟨.SDR, .BT709, .BT601, false⟩))
    (dst := .raw .BGRA 32 2 [⟨⟨1000, 256⟩, 128⟩] (.RGB ⟨.SDR, .BT709⟩))
    (sps := [⟨⟨200, 128⟩, 64⟩, ⟨⟨328, 128⟩, 64⟩, ⟨⟨456, 128⟩, 64⟩]) (dps := [⟨⟨1000, 256⟩, 128⟩]) rfl rfl
    (planesDisjoint_of (by decide)) (separate_of (by decide)) (uniform_of (by decide)) (by decide) m'
  obtain ⟨n, h1, h2⟩ := C63_deep_lossless_partial r1 r2 rfl rfl rfl rfl rfl rfl rfl rfl (.inl rfl) (by decide) (c := .G) (by simp)
    (x := 13) (y := 1) (by decide) (by decide) (by
      intro a ha b hb c _
      simp only [hsub, vsub, Img.format, Nat.lt_one_iff] at ha hb ⊢
      subst ha hb
      rfl) (by simp [Truncates, lanes, Img.width]) (by simp [Truncates, lanes, Img.width])
  exact ⟨m'', n, h1, h2⟩

/-- Any NV12 image survives I012. -/
example (simd scalar : Libm) (m : Mem) : ∃ m'' n,
    sample .NV12 [⟨⟨0, 64⟩, 32⟩, ⟨⟨64, 32⟩, 32⟩] m .V 9 1 = some n ∧
    sample .I420 [⟨⟨1000, 64⟩, 32⟩, ⟨⟨1064, 16⟩, 16⟩, ⟨⟨1080, 16⟩, 16⟩] m'' .V 9 1 = some n := by
  obtain ⟨m', r1⟩ := run_exists (c := Platform.avx2.ieee simd scalar) (platform_lawful .avx2 _ _)
    (src := .raw .NV12 32 2 [⟨⟨0, 64⟩, 32⟩, ⟨⟨64, 32⟩, 32⟩] (.YUV ⟨.SDR, .BT709, .BT709, false⟩))
    (dst := .raw .I012 32 2 [⟨⟨200, 128⟩, 64⟩, ⟨⟨328, 32⟩, 32⟩, ⟨⟨456, 32⟩, 32⟩] (.YUV ⟨.SDR, .BT709, .BT709, false⟩))
    (sps := [⟨⟨0, 64⟩, 32⟩, ⟨⟨64, 32⟩, 32⟩]) (dps := [⟨⟨200, 128⟩, 64⟩, ⟨⟨328, 32⟩, 32⟩, ⟨⟨456, 32⟩, 32⟩]) rfl rfl
    (planesDisjoint_of (by decide)) (separate_of (by decide)) (uniform_of (by decide)) (by decide) m
  obtain ⟨m'', r2⟩ := run_exists (c := Platform.avx2.ieee simd scalar) (platform_lawful .avx2 _ _)
    (src := .raw .I012 32 2 [⟨⟨200, 128⟩, 64⟩, ⟨⟨328, 32⟩, 32⟩, ⟨⟨456, 32⟩, 32⟩] (.YUV ⟨.SDR, .BT709, .BT709, false⟩))
    (dst := .raw .I420 32 2 [⟨⟨1000, 64⟩, 32⟩, ⟨⟨1064, 16⟩, 16⟩, ⟨⟨1080, 16⟩, 16⟩] (.YUV ⟨.SDR, .BT709, .BT709, false⟩))
    (sps := [⟨⟨200, 128⟩, 64⟩, ⟨⟨328, 32⟩, 32⟩, ⟨⟨456, 32⟩, 32⟩]) (dps := [⟨⟨1000, 64⟩, 32⟩, ⟨⟨1064, 16⟩, 16⟩, ⟨⟨1080, 16⟩, 16⟩]) rfl rfl
    (planesDisjoint_of (by decide)) (separate_of (by decide)) (uniform_of (by decide)) (by decide) m'
  obtain ⟨n, h1, h2⟩ := C64_more_bits_lossless_partial r1 r2 rfl rfl rfl rfl rfl rfl (.inr rfl) (by decide) rfl ⟨le_refl _, le_refl _⟩
    ⟨le_refl _, le_refl _⟩ (fun c x y l _ _ _ => shown_le rfl ..) (c := .V) (by simp) (x := 9) (y := 1) (by decide) (by decide)
    (by simp [Truncates, lanes, Img.width]) (by simp [Truncates, lanes, Img.width])
  exact ⟨m'', n, h1, h2⟩

/-- The colours of a uniformly grey image are in gamut. -/
theorem grey_inGamut {f f' : PixelFormat} {V : Pic Nat} (hb : sampleBits f = 8) {x y : Nat}
    (h : ∀ c x y, (c = .Y ∨ c = .U ∨ c = .V) → V c x y = 128) : InGamut (0.2126, 0.7152, 0.0722) f false V f' x y := by
  intro x' y' _ _ c hc
  rcases hc with rfl | rfl | rfl <;>
    simp only [idealRgb, h _ x' y' (.inl rfl), h _ x' y' (.inr (.inl rfl)), h _ x' y' (.inr (.inr rfl)), hb] <;>
    norm_num [standardRgb, lumaOf, chromaOfCode]

/-- A grey NV12 image survives BGRA. -/
example (simd scalar : Libm) : ∃ m'',
    sample .I420 [⟨⟨1000, 64⟩, 32⟩, ⟨⟨1064, 16⟩, 16⟩, ⟨⟨1080, 16⟩, 16⟩] m'' .Y 9 1 = some 128 := by
  let mem : Mem := fun _ => 128
  obtain ⟨m', r1⟩ := run_exists (c := Platform.avx2.ieee simd scalar) (platform_lawful .avx2 _ _)
    (src := .raw .NV12 32 2 [⟨⟨0, 64⟩, 32⟩, ⟨⟨64, 32⟩, 32⟩] (.YUV ⟨.SDR, .BT709, .BT709, false⟩))
    (dst := .raw .BGRA 32 2 [⟨⟨200, 256⟩, 128⟩] (.RGB ⟨.SDR, .BT709⟩))
    (sps := [⟨⟨0, 64⟩, 32⟩, ⟨⟨64, 32⟩, 32⟩]) (dps := [⟨⟨200, 256⟩, 128⟩]) rfl rfl
    (planesDisjoint_of (by decide)) (separate_of (by decide)) (uniform_of (by decide)) (by decide) mem
  obtain ⟨m'', r2⟩ := run_exists (c := Platform.avx2.ieee simd scalar) (platform_lawful .avx2 _ _)
    (src := .raw .BGRA 32 2 [⟨⟨200, 256⟩, 128⟩] (.RGB ⟨.SDR, .BT709⟩))
    (dst := .raw .I420 32 2 [⟨⟨1000, 64⟩, 32⟩, ⟨⟨1064, 16⟩, 16⟩, ⟨⟨1080, 16⟩, 16⟩] (.YUV ⟨.SDR, .BT709, .BT709, false⟩))
    (sps := [⟨⟨200, 256⟩, 128⟩]) (dps := [⟨⟨1000, 64⟩, 32⟩, ⟨⟨1064, 16⟩, 16⟩, ⟨⟨1080, 16⟩, 16⟩]) rfl rfl
    (planesDisjoint_of (by decide)) (separate_of (by decide)) (uniform_of (by decide)) (by decide) m'
  obtain ⟨n, h1, h2⟩ := C65_lossless_partial r1 r2 rfl rfl rfl rfl rfl rfl rfl (.inr rfl) rfl rfl rfl rfl ⟨le_refl _, le_refl _⟩
    (c := .Y) (by simp) (x := 9) (y := 1) (by decide) (by decide)
    (grey_inGamut rfl (by rintro c x y (rfl | rfl | rfl) <;> rfl))
    (by simp [Truncates, lanes, Img.width]) (by simp [Truncates, lanes, Img.width])
  have e : sample .NV12 [⟨⟨0, 64⟩, 32⟩, ⟨⟨64, 32⟩, 32⟩] mem .Y 9 1 = some 128 := by decide
  exact ⟨m'', h2.trans (h1.symm.trans e)⟩

/-- NEON loses at most one code. -/
example (simd scalar : Libm) : ∃ m'' n,
    sample .I420 [⟨⟨1000, 64⟩, 32⟩, ⟨⟨1064, 16⟩, 16⟩, ⟨⟨1080, 16⟩, 16⟩] m'' .U 9 1 = some n ∧ |(n : Int) - 128| ≤ 1 := by
  let mem : Mem := fun _ => 128
  obtain ⟨m', r1⟩ := run_exists (c := Platform.neon.ieee simd scalar) (platform_lawful .neon _ _)
    (src := .raw .NV12 32 2 [⟨⟨0, 64⟩, 32⟩, ⟨⟨64, 32⟩, 32⟩] (.YUV ⟨.SDR, .BT709, .BT709, false⟩))
    (dst := .raw .BGRA 32 2 [⟨⟨200, 256⟩, 128⟩] (.RGB ⟨.SDR, .BT709⟩))
    (sps := [⟨⟨0, 64⟩, 32⟩, ⟨⟨64, 32⟩, 32⟩]) (dps := [⟨⟨200, 256⟩, 128⟩]) rfl rfl
    (planesDisjoint_of (by decide)) (separate_of (by decide)) (uniform_of (by decide)) (by decide) mem
  obtain ⟨m'', r2⟩ := run_exists (c := Platform.neon.ieee simd scalar) (platform_lawful .neon _ _)
    (src := .raw .BGRA 32 2 [⟨⟨200, 256⟩, 128⟩] (.RGB ⟨.SDR, .BT709⟩))
    (dst := .raw .I420 32 2 [⟨⟨1000, 64⟩, 32⟩, ⟨⟨1064, 16⟩, 16⟩, ⟨⟨1080, 16⟩, 16⟩] (.YUV ⟨.SDR, .BT709, .BT709, false⟩))
    (sps := [⟨⟨200, 256⟩, 128⟩]) (dps := [⟨⟨1000, 64⟩, 32⟩, ⟨⟨1064, 16⟩, 16⟩, ⟨⟨1080, 16⟩, 16⟩]) rfl rfl
    (planesDisjoint_of (by decide)) (separate_of (by decide)) (uniform_of (by decide)) (by decide) m'
  obtain ⟨n, n', h1, h2, h3, _⟩ := C65_through_rgb_partial r1 r2 rfl rfl rfl rfl rfl rfl rfl (.inr rfl) rfl rfl ⟨le_refl _, le_refl _⟩
    (fun c x y l _ _ _ => shown_le rfl ..) (c := .U) (by simp) (x := 9) (y := 1) (by decide) (by decide)
    (grey_inGamut rfl (by rintro c x y (rfl | rfl | rfl) <;> rfl))
  have e : sample .NV12 [⟨⟨0, 64⟩, 32⟩, ⟨⟨64, 32⟩, 32⟩] mem .U 9 1 = some 128 := by decide
  have hn : n = 128 := Option.some.inj (h1.symm.trans e)
  subst hn
  exact ⟨m'', n', h2, h3⟩

end Ezk.Props

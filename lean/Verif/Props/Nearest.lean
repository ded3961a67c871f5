import Verif.Props.Monotone
import Verif.Props.ChangeYuv

/-!
# C61: codes are rounded to nearest

The vector code of AVX2 and AVX-512 rounds to nearest when it stores; all other code truncates.
-/

namespace Ezk.Props
open FOps Spec F32 PixelFormat

variable {p : Platform} {simd scalar : Libm} {src dst : Img} {sps dps : List Plane} {m mo : Mem}

/-! ## Stores -/

/-- Stores that round, of values in the range of the samples. -/
theorem stored_near {w x : Nat} (h : ¬ Truncates p w x) (s : Store) {v : F32} {r e : ℝ} (hv : App v r e) (h0 : 0 ≤ r) (h1 : r ≤ s.top)
    (he : e < 1 / 2) : |(stored p simd scalar w x s v : ℝ) - r| ≤ 1 / 2 + e := by
  obtain ⟨q, hq, hd⟩ := hv.is
  rw [abs_le] at hd
  have q0 : -1 / 2 ≤ q := by
    have : ((-1 / 2 : ℚ) : ℝ) ≤ q := by push_cast; linarith [hd.1]
    exact_mod_cast this
  have q1 : q < s.top + 1 / 2 := by
    have : (q : ℝ) < ((s.top + 1 / 2 : ℚ) : ℝ) := by push_cast; linarith [hd.2]
    exact_mod_cast this
  rw [stored_rounds h simd scalar s hq (Or.inl ⟨q0, q1⟩)]
  have hb := rne_bounds q0 q1
  have e1 : min (rne q).toNat s.top = (rne q).toNat := by omega
  have e2 : (((rne q).toNat : Nat) : ℝ) = ((rne q : ℚ) : ℝ) := by
    have : (((rne q).toNat : Int) : ℝ) = ((rne q : Int) : ℝ) := by rw [Int.toNat_of_nonneg hb.1]
    push_cast at this ⊢
    exact this
  rw [e1, e2]
  have hn : |((rne q : ℚ) : ℝ) - q| ≤ 1 / 2 := by
    have : ((|(rne q : ℚ) - q| : ℚ) : ℝ) ≤ ((1 / 2 : ℚ) : ℝ) := by exact_mod_cast rne_near q
    push_cast at this ⊢
    exact this
  rw [abs_le] at hn ⊢
  constructor <;> linarith [hn.1, hn.2, hd.1, hd.2]

/-- Stores that truncate, of values in the range of the samples. -/
theorem stored_floor {w x : Nat} (h : Truncates p w x) (s : Store) {v : F32} {r e : ℝ} (hv : App v r e) (h0 : 0 ≤ r) (h1 : r ≤ s.top)
    (he : e < 1) : (stored p simd scalar w x s v : ℝ) ≤ r + e ∧ r - e < stored p simd scalar w x s v + 1 := by
  obtain ⟨q, hq, hd⟩ := hv.is
  rw [abs_le] at hd
  have e0 : stored p simd scalar w x s v = min (trunc q).toNat s.top := by
    rw [stored_truncates h]
    obtain ⟨_, _, rfl, _, rfl⟩ := hq
    rfl
  rw [e0]
  by_cases hn : 0 ≤ q
  · rw [trunc_eq_floor hn]
    have f0 : 0 ≤ ⌊q⌋ := Int.floor_nonneg.mpr hn
    have f1 : ((⌊q⌋ : ℚ) : ℝ) ≤ q := by exact_mod_cast Int.floor_le q
    have f2 : (q : ℝ) < ((⌊q⌋ : ℚ) : ℝ) + 1 := by exact_mod_cast Int.lt_floor_add_one q
    have e2 : ((⌊q⌋.toNat : Nat) : ℝ) = ((⌊q⌋ : ℚ) : ℝ) := by
      have : ((⌊q⌋.toNat : Int) : ℝ) = ((⌊q⌋ : Int) : ℝ) := by rw [Int.toNat_of_nonneg f0]
      push_cast at this ⊢
      exact this
    rcases le_total ⌊q⌋.toNat s.top with ht | ht
    · rw [min_eq_left ht, e2]; constructor <;> linarith [hd.1, hd.2]
    · rw [min_eq_right ht]
      have : (s.top : ℝ) ≤ ((⌊q⌋.toNat : Nat) : ℝ) := by exact_mod_cast ht
      rw [e2] at this
      constructor <;> linarith [hd.1, hd.2]
  · have : trunc q ≤ 0 := by
      rw [trunc_neg (not_le.mp hn)]; exact Int.ceil_le.mpr (by push_cast; linarith)
    have e1 : min (trunc q).toNat s.top = 0 := by omega
    have q1 : (q : ℝ) < 0 := by exact_mod_cast not_le.mp hn
    rw [e1]
    push_cast
    constructor <;> linarith [hd.1, hd.2]

/-- Interleaved stores that round: out of range values saturate. -/
theorem stored_near_clamp {w x : Nat} (h : ¬ Truncates p w x) {v : F32} {r e : ℝ} (hv : App v r e) (h0 : -32767 < r - e)
    (h1 : r + e < 32767) : |(stored p simd scalar w x .interleaved8 v : ℝ) - clamp255 r| ≤ 1 / 2 + e := by
  obtain ⟨q, hq, hd⟩ := hv.is
  rw [abs_le] at hd
  have q0 : -2 ^ 31 ≤ q := by
    have : ((-2 ^ 31 : ℚ) : ℝ) ≤ q := by push_cast; linarith [hd.1]
    exact_mod_cast this
  have q1 : q < 32767 := by
    have : (q : ℝ) < ((32767 : ℚ) : ℝ) := by push_cast; linarith [hd.2]
    exact_mod_cast this
  rw [stored_rounds h simd scalar _ hq (Or.inr ⟨rfl, q0, q1⟩)]
  have e1 : ((min (rne q).toNat Store.interleaved8.top : Nat) : ℝ) = clamp255 ((rne q : ℚ) : ℝ) := by
    simp only [Store.top, clamp255]
    have hc : ((max 0 (min 255 (rne q)) : Int) : ℝ) = max 0 (min 255 ((rne q : Int) : ℝ)) := by push_cast; rfl
    have : ((min (rne q).toNat 255 : Nat) : Int) = max 0 (min 255 (rne q)) := by omega
    have h3 : ((min (rne q).toNat 255 : Nat) : ℝ) = ((max 0 (min 255 (rne q)) : Int) : ℝ) := by rw [← this]; push_cast; rfl
    rw [h3, hc]
    push_cast
    rfl
  rw [e1]
  refine (clamp_lipschitz _ _).trans ?_
  have hn : |((rne q : ℚ) : ℝ) - q| ≤ 1 / 2 := by
    have : ((|(rne q : ℚ) - q| : ℚ) : ℝ) ≤ ((1 / 2 : ℚ) : ℝ) := by exact_mod_cast rne_near q
    push_cast at this ⊢
    exact this
  rw [abs_le] at hn ⊢
  constructor <;> linarith [hn.1, hn.2, hd.1, hd.2]

/-- Interleaved stores that truncate. -/
theorem stored_floor_clamp {w x : Nat} (h : Truncates p w x) {v : F32} {r e : ℝ} (hv : App v r e) (he : 0 ≤ e) :
    (stored p simd scalar w x .interleaved8 v : ℝ) ≤ clamp255 r + e ∧ clamp255 r - e < stored p simd scalar w x .interleaved8 v + 1 := by
  obtain ⟨q, hq, hd⟩ := hv.is
  have hl := (clamp_lipschitz (q : ℝ) r).trans hd
  rw [abs_le] at hl
  have e0 : stored p simd scalar w x .interleaved8 v = min (trunc q).toNat 255 := by
    rw [stored_truncates h]
    obtain ⟨_, _, rfl, _, rfl⟩ := hq
    rfl
  suffices hs : ((min (trunc q).toNat 255 : Nat) : ℝ) ≤ clamp255 q ∧ clamp255 (q : ℝ) < ((min (trunc q).toNat 255 : Nat) : ℝ) + 1 by
    rw [e0]
    constructor <;> linarith [hs.1, hs.2, hl.1, hl.2]
  by_cases hn : 0 ≤ q
  · rw [trunc_eq_floor hn]
    have f0 : 0 ≤ ⌊q⌋ := Int.floor_nonneg.mpr hn
    have f1 : ((⌊q⌋ : ℚ) : ℝ) ≤ q := by exact_mod_cast Int.floor_le q
    have f2 : (q : ℝ) < ((⌊q⌋ : ℚ) : ℝ) + 1 := by exact_mod_cast Int.lt_floor_add_one q
    have e2 : ((⌊q⌋.toNat : Nat) : ℝ) = ((⌊q⌋ : ℚ) : ℝ) := by
      have : ((⌊q⌋.toNat : Int) : ℝ) = ((⌊q⌋ : Int) : ℝ) := by rw [Int.toNat_of_nonneg f0]
      push_cast at this ⊢
      exact this
    have q0 : (0 : ℝ) ≤ q := by exact_mod_cast hn
    rw [clamp255]
    rcases le_total ⌊q⌋.toNat 255 with ht | ht
    · rw [min_eq_left ht, e2]
      constructor
      · refine le_max_of_le_right (le_min ?_ f1)
        have : ((⌊q⌋.toNat : Nat) : ℝ) ≤ 255 := by exact_mod_cast ht
        rwa [e2] at this
      · refine _root_.max_lt ?_ ((min_le_right _ _).trans_lt f2)
        have : (0 : ℝ) ≤ ((⌊q⌋ : ℚ) : ℝ) := by exact_mod_cast f0
        linarith
    · rw [min_eq_right ht]
      have h255 : (255 : ℝ) ≤ ((⌊q⌋.toNat : Nat) : ℝ) := by exact_mod_cast ht
      rw [e2] at h255
      have : (255 : ℝ) ≤ q := h255.trans f1
      rw [min_eq_left this, max_eq_right (by norm_num)]
      norm_num
  · have : trunc q ≤ 0 := by
      rw [trunc_neg (not_le.mp hn)]; exact Int.ceil_le.mpr (by push_cast; linarith)
    have e1 : min (trunc q).toNat 255 = 0 := by omega
    have q1 : (q : ℝ) < 0 := by exact_mod_cast not_le.mp hn
    rw [e1, clamp255, max_eq_left ((min_le_right _ _).trans q1.le)]
    norm_num

/-! ## Conversions -/

/-- **C61**, RGB to YUV (partial: BT.601 and BT.709, columns whose stores round). Every luma and chroma code is the nearest one to the
ideal value, up to 5 millionths of the range. -/
theorem C61_encode_nearest_partial (r : Run (p.ieee simd scalar) src dst sps dps m mo) (hs : isYuv src.format = false)
    (hd : isYuv dst.format = true) {i : YuvColorInfo} (hi : dst.color = .YUV i) (ht : src.color.transfer = i.transfer)
    (hp : src.color.primaries = i.primaries) (hcs : i.space = .BT601 ∨ i.space = .BT709) {k : ℝ × ℝ × ℝ}
    (hk : lumaWeights i.space = some k) {c : Chan} (hc : c = .Y ∨ c = .U ∨ c = .V) {x y : Nat} (hx : x < dst.width)
    (hy : y < dst.height) (hT : ¬ Truncates p dst.width x) :
    ∃ n, sample dst.format dps mo c x y = some n ∧
      |(n : ℝ) - idealYuv k dst.format i.fullRange (shown src.format sps m) c x y| ≤
        1 / 2 + 5 / 10 ^ 6 * (2 ^ sampleBits dst.format - 1 : Nat) := by
  have hst : IsStandard i.space k := ⟨hcs, hk⟩
  obtain ⟨v, e1, _, a1, b0, b1⟩ := rgb_to_yuv_value r hs hd hi ht hp hst.isMatrix hc hx hy
  have M2 : ((2 ^ sampleBits dst.format - 1 : Nat) : ℝ) ≤ 4095 := by
    have : 2 ^ sampleBits dst.format - 1 ≤ 4095 := by cases dst.format <;> decide
    exact_mod_cast this
  have M0 : (0 : ℝ) ≤ ((2 ^ sampleBits dst.format - 1 : Nat) : ℝ) := Nat.cast_nonneg _
  have M3 : ((2 ^ sampleBits dst.format - 1 : Nat) : ℝ) ≤ ((yuvStore dst.format).top : ℝ) := by
    have : 2 ^ sampleBits dst.format - 1 ≤ (yuvStore dst.format).top := by cases dst.format <;> decide
    exact_mod_cast this
  refine ⟨_, e1, ?_⟩
  rw [← encode_ideal hst _ _ hc]
  exact stored_near hT _ a1 (by positivity) ((mul_le_of_le_one_left M0 b1).trans M3) (by linarith)

/-- **C61** is false in all other columns, where the ideal values are cut off: the code is the largest one that is not above the ideal
value (up to 5 millionths of the range). -/
theorem C61_encode_floor_partial (r : Run (p.ieee simd scalar) src dst sps dps m mo) (hs : isYuv src.format = false)
    (hd : isYuv dst.format = true) {i : YuvColorInfo} (hi : dst.color = .YUV i) (ht : src.color.transfer = i.transfer)
    (hp : src.color.primaries = i.primaries) (hcs : i.space = .BT601 ∨ i.space = .BT709) {k : ℝ × ℝ × ℝ}
    (hk : lumaWeights i.space = some k) {c : Chan} (hc : c = .Y ∨ c = .U ∨ c = .V) {x y : Nat} (hx : x < dst.width)
    (hy : y < dst.height) (hT : Truncates p dst.width x) :
    ∃ n, sample dst.format dps mo c x y = some n ∧
      (n : ℝ) ≤ idealYuv k dst.format i.fullRange (shown src.format sps m) c x y + 5 / 10 ^ 6 * (2 ^ sampleBits dst.format - 1 : Nat) ∧
      idealYuv k dst.format i.fullRange (shown src.format sps m) c x y - 5 / 10 ^ 6 * (2 ^ sampleBits dst.format - 1 : Nat) < n + 1 := by
  have hst : IsStandard i.space k := ⟨hcs, hk⟩
  obtain ⟨v, e1, _, a1, b0, b1⟩ := rgb_to_yuv_value r hs hd hi ht hp hst.isMatrix hc hx hy
  have M2 : ((2 ^ sampleBits dst.format - 1 : Nat) : ℝ) ≤ 4095 := by
    have : 2 ^ sampleBits dst.format - 1 ≤ 4095 := by cases dst.format <;> decide
    exact_mod_cast this
  have M0 : (0 : ℝ) ≤ ((2 ^ sampleBits dst.format - 1 : Nat) : ℝ) := Nat.cast_nonneg _
  have M3 : ((2 ^ sampleBits dst.format - 1 : Nat) : ℝ) ≤ ((yuvStore dst.format).top : ℝ) := by
    have : 2 ^ sampleBits dst.format - 1 ≤ (yuvStore dst.format).top := by cases dst.format <;> decide
    exact_mod_cast this
  refine ⟨_, e1, ?_⟩
  rw [← encode_ideal hst _ _ hc]
  exact stored_floor hT _ a1 (by positivity) ((mul_le_of_le_one_left M0 b1).trans M3) (by linarith)

/-- The value stored as a colour code is of moderate size. -/
theorem decode_moderate (r : Run (p.ieee simd scalar) src dst sps dps m mo) (hs : isYuv src.format = true) {i : YuvColorInfo}
    (hmat : isMatrix i.space = true) {c : Chan} (hc : c = .R ∨ c = .G ∨ c = .B) {x y : Nat} (hx : x < dst.width) (hy : y < dst.height)
    (hV : InDepth src.format src.width src.height (shown src.format sps m)) :
    |decode exactAr i (fun c x y => (shown src.format sps m c x y : ℝ) / (2 ^ sampleBits src.format - 1 : Nat)) c x y| ≤ 9 := by
  have w3 := r.returned.width
  have w4 := r.returned.height
  refine (decode_app (column_ieee p simd scalar dst.width) exactAr_exact hmat
    (p := Spec.normalize (columnArith (p.ieee simd scalar) dst.width) src.format (shown src.format sps m)) (fun c hc => ?_) hc).2
  obtain ⟨a, b, d⟩ := yuv_samples (column_ieee p simd scalar dst.width) hs hV (x := x) (y := y) (by omega) (by omega) hc
  exact ⟨a, abs_le.mpr ⟨by linarith, d⟩⟩

/-- **C61**, YUV to RGB (partial: BT.601 and BT.709, columns whose stores round). Every colour code is the nearest one to the ideal value,
up to 1/400. -/
theorem C61_decode_nearest_partial (r : Run (p.ieee simd scalar) src dst sps dps m mo) (hs : isYuv src.format = true)
    (hd : isYuv dst.format = false) {i : YuvColorInfo} (hi : src.color = .YUV i) (ht : i.transfer = dst.color.transfer)
    (hp : i.primaries = dst.color.primaries) (hcs : i.space = .BT601 ∨ i.space = .BT709) {k : ℝ × ℝ × ℝ}
    (hk : lumaWeights i.space = some k) (hV : InDepth src.format src.width src.height (shown src.format sps m)) {c : Chan}
    (hc : c = .R ∨ c = .G ∨ c = .B) {x y : Nat} (hx : x < dst.width) (hy : y < dst.height) (hT : ¬ Truncates p dst.width x) :
    ∃ n, sample dst.format dps mo c x y = some n ∧
      |(n : ℝ) - clamp255 (idealRgb k src.format i.fullRange (shown src.format sps m) c x y)| ≤ 1 / 2 + 1 / 400 := by
  have hst : IsStandard i.space k := ⟨hcs, hk⟩
  obtain ⟨v, e1, _, a1, b1⟩ := yuv_to_rgb_value r hs hd hi ht hp hst.isMatrix hc hx hy hV
  have hm := abs_le.mp (decode_moderate r hs hst.isMatrix hc hx hy hV)
  refine ⟨_, e1, ?_⟩
  rw [← decode_ideal hst _ _ hc]
  exact stored_near_clamp hT a1 (by linarith [hm.1]) (by linarith [hm.2])

/-- **C61** is false in all other columns: there the code is the largest one that is not above the ideal value, up to 1/400. -/
theorem C61_decode_floor_partial (r : Run (p.ieee simd scalar) src dst sps dps m mo) (hs : isYuv src.format = true)
    (hd : isYuv dst.format = false) {i : YuvColorInfo} (hi : src.color = .YUV i) (ht : i.transfer = dst.color.transfer)
    (hp : i.primaries = dst.color.primaries) (hcs : i.space = .BT601 ∨ i.space = .BT709) {k : ℝ × ℝ × ℝ}
    (hk : lumaWeights i.space = some k) (hV : InDepth src.format src.width src.height (shown src.format sps m)) {c : Chan}
    (hc : c = .R ∨ c = .G ∨ c = .B) {x y : Nat} (hx : x < dst.width) (hy : y < dst.height) (hT : Truncates p dst.width x) :
    ∃ n, sample dst.format dps mo c x y = some n ∧
      (n : ℝ) ≤ clamp255 (idealRgb k src.format i.fullRange (shown src.format sps m) c x y) + 1 / 400 ∧
      clamp255 (idealRgb k src.format i.fullRange (shown src.format sps m) c x y) - 1 / 400 < n + 1 := by
  have hst : IsStandard i.space k := ⟨hcs, hk⟩
  obtain ⟨v, e1, _, a1, b1⟩ := yuv_to_rgb_value r hs hd hi ht hp hst.isMatrix hc hx hy hV
  refine ⟨_, e1, ?_⟩
  rw [← decode_ideal hst _ _ hc]
  exact stored_floor_clamp hT a1 (by norm_num)

/-! ## Greys -/

/-- `A` is the integer nearest to `N / D`: `2·|A·D - N| ≤ D`. -/
def IsNearest (A : Nat) (N D : Int) : Prop := 2 * |A * D - N| ≤ D

/-- An integer close to a fraction of odd denominator is the one next to it. -/
theorem nearest_of_near {n : Nat} {N D : Int} (hD : 0 < D) (hodd : D % 2 = 1) {e : ℝ} (he : 2 * D * e < 1)
    (h : |(n : ℝ) - N / D| ≤ 1 / 2 + e) : IsNearest n N D := by
  have hD' : (0 : ℝ) < D := by exact_mod_cast hD
  have h2 : |(n : ℝ) * D - N| ≤ (1 / 2 + e) * D := by
    have : (n : ℝ) * D - N = (n - N / D) * D := by field_simp
    rw [this, abs_mul, abs_of_pos hD']
    exact mul_le_mul_of_nonneg_right h hD'.le
  have h3 : (2 * |(n : ℝ) * D - N|) < D + 1 := by nlinarith
  have h4 : 2 * |(n : Int) * D - N| < D + 1 := by
    have : ((2 * |(n : Int) * D - N| : Int) : ℝ) < ((D + 1 : Int) : ℝ) := by push_cast; exact h3
    exact_mod_cast this
  simp only [IsNearest]; omega

theorem weights_sum {s : ColorSpace} {k : ℝ × ℝ × ℝ} (h : IsStandard s k) :
    k.1 + k.2.1 + k.2.2 = 1 ∧ k.1 < 1 ∧ k.2.2 < 1 ∧ 0 < k.2.1 := by
  obtain ⟨hs | hs, hk⟩ := h <;> subst hs <;> simp only [lumaWeights, Option.some.injEq] at hk <;> subst hk <;> norm_num

/-- The pixels of the cell of `(x, y)` are greys. -/
def GreyCell (f : PixelFormat) (V : Pic Nat) (x y : Nat) : Prop :=
  ∀ x' y', x' / hsub f = x / hsub f → y' / vsub f = y / vsub f → V .G x' y' = V .R x' y' ∧ V .B x' y' = V .R x' y'

theorem grey_ideal {s : ColorSpace} {k : ℝ × ℝ × ℝ} (h : IsStandard s k) {f : PixelFormat} (h8 : sampleBits f = 8) {V : Pic Nat} {x y : Nat}
    (hg : GreyCell f V x y) : idealYuv k f false V .Y x y = (16 * 85 + 73 * V .R x y : Int) / (85 : Int) ∧
      idealYuv k f false V .U x y = 128 ∧ idealYuv k f false V .V x y = 128 := by
  obtain ⟨hk, h1, h3, _⟩ := weights_sum h
  have hpix : ∀ x' y', x' / hsub f = x / hsub f → y' / vsub f = y / vsub f → pixelYuv k V x' y' = ((V .R x' y' : ℝ) / 255, 0, 0) := by
    intro x' y' ex ey
    obtain ⟨e1, e2⟩ := hg x' y' ex ey
    simp only [pixelYuv, standardYuv, e1, e2]
    have : ∀ v : ℝ, k.1 * v + k.2.1 * v + k.2.2 * v = v := fun v => by linear_combination v * hk
    simp only [this, sub_self, zero_div]
  have hh : 0 < hsub f := by cases f <;> decide
  have hv : 0 < vsub f := by cases f <;> decide
  have hmean : ∀ g : Nat → Nat → ℝ, (∀ x' y', x' / hsub f = x / hsub f → y' / vsub f = y / vsub f → g x' y' = 0) →
      cellMean f g x y = 0 := by
    intro g h
    rw [cellMean, Finset.sum_eq_zero, zero_div]
    intro a ha
    refine Finset.sum_eq_zero fun b hb => h _ _ ?_ ?_
    · rw [mul_comm, Nat.mul_add_div hh, Nat.div_eq_of_lt (Finset.mem_range.mp ha), add_zero]
    · rw [mul_comm, Nat.mul_add_div hv, Nat.div_eq_of_lt (Finset.mem_range.mp hb), add_zero]
  refine ⟨?_, ?_, ?_⟩
  · simp only [idealYuv, hpix x y rfl rfl, lumaCode, h8]
    push_cast
    norm_num
    ring
  · simp only [idealYuv]
    rw [hmean _ fun x' y' ex ey => by rw [hpix x' y' ex ey]]
    simp only [chromaCode, h8]; norm_num
  · simp only [idealYuv]
    rw [hmean _ fun x' y' ex ey => by rw [hpix x' y' ex ey]]
    simp only [chromaCode, h8]; norm_num

/-- **C61** for greys (partial: BT.601 and BT.709, columns whose stores round). In limited-range 8-bit destinations, luma is
`16 + 219·g/255` rounded to nearest and chroma exactly 128. -/
theorem C61_grey_codes_partial (r : Run (p.ieee simd scalar) src dst sps dps m mo) (hs : isYuv src.format = false)
    (hd : isYuv dst.format = true) (h8 : sampleBits dst.format = 8) {i : YuvColorInfo} (hi : dst.color = .YUV i)
    (hfull : i.fullRange = false) (ht : src.color.transfer = i.transfer)
    (hp : src.color.primaries = i.primaries) (hcs : i.space = .BT601 ∨ i.space = .BT709) {x y : Nat} (hx : x < dst.width)
    (hy : y < dst.height) (hT : ¬ Truncates p dst.width x) (hg : GreyCell dst.format (shown src.format sps m) x y) :
    (∃ n, sample dst.format dps mo .Y x y = some n ∧ IsNearest n (16 * 85 + 73 * shown src.format sps m .R x y) 85) ∧
      sample dst.format dps mo .U x y = some 128 ∧ sample dst.format dps mo .V x y = some 128 := by
  obtain ⟨k, hk⟩ : ∃ k, lumaWeights i.space = some k := by rcases hcs with h | h <;> rw [h] <;> exact ⟨_, rfl⟩
  have hst : IsStandard i.space k := ⟨hcs, hk⟩
  obtain ⟨i1, i2, i3⟩ := grey_ideal hst h8 hg
  have key := fun c hc => C61_encode_nearest_partial r hs hd hi ht hp hcs hk (c := c) hc hx hy hT
  simp only [hfull, h8] at key
  have hch : ∀ n : Nat, |(n : ℝ) - 128| ≤ 1 / 2 + 5 / 10 ^ 6 * ((2 ^ 8 - 1 : Nat) : ℝ) → n = 128 := by
    intro n h
    norm_num at h
    rw [abs_le] at h
    have a : (n : ℝ) < ((129 : Nat) : ℝ) := by push_cast; linarith [h.2]
    have b : ((127 : Nat) : ℝ) < n := by push_cast; linarith [h.1]
    rw [Nat.cast_lt] at a b
    omega
  refine ⟨?_, ?_, ?_⟩
  · obtain ⟨n, e, h⟩ := key .Y (by simp)
    rw [i1] at h
    exact ⟨n, e, nearest_of_near (by norm_num) (by norm_num) (by norm_num) h⟩
  · obtain ⟨n, e, h⟩ := key .U (by simp)
    rw [i2] at h
    rw [e, hch n h]
  · obtain ⟨n, e, h⟩ := key .V (by simp)
    rw [i3] at h
    rw [e, hch n h]

/-- **C61** for greys, back (partial: BT.601 and BT.709, columns whose stores round). 8-bit limited-range colours without chroma and between
black and white become greys of the level `(Y - 16)·255/219`, rounded to nearest. -/
theorem C61_grey_levels_partial (r : Run (p.ieee simd scalar) src dst sps dps m mo) (hs : isYuv src.format = true)
    (hd : isYuv dst.format = false) (h8 : sampleBits src.format = 8) {i : YuvColorInfo} (hi : src.color = .YUV i)
    (hfull : i.fullRange = false) (ht : i.transfer = dst.color.transfer)
    (hp : i.primaries = dst.color.primaries) (hcs : i.space = .BT601 ∨ i.space = .BT709) {x y : Nat} (hx : x < dst.width)
    (hy : y < dst.height) (hT : ¬ Truncates p dst.width x) (hU : shown src.format sps m .U x y = 128)
    (hV : shown src.format sps m .V x y = 128) (hY : 16 ≤ shown src.format sps m .Y x y) (hY' : shown src.format sps m .Y x y ≤ 235) :
    ∃ n, IsNearest n (85 * (shown src.format sps m .Y x y - 16)) 73 ∧
      ∀ c, c = .R ∨ c = .G ∨ c = .B → sample dst.format dps mo c x y = some n := by
  obtain ⟨k, hk⟩ : ∃ k, lumaWeights i.space = some k := by rcases hcs with h | h <;> rw [h] <;> exact ⟨_, rfl⟩
  have hst : IsStandard i.space k := ⟨hcs, hk⟩
  obtain ⟨hsum, _, _, hpos⟩ := weights_sum hst
  have hin : InDepth src.format src.width src.height (shown src.format sps m) := fun c x y l _ _ _ => by
    have hb : sampleBytes src.format = 1 := by revert h8; cases src.format <;> simp [sampleBits, sampleBytes]
    rw [h8]; exact shown_le hb ..
  set Y := shown src.format sps m .Y x y with hYd
  have hid : ∀ c, c = .R ∨ c = .G ∨ c = .B → clamp255 (idealRgb k src.format false (shown src.format sps m) c x y) =
      (85 * (Y - 16) : Int) / (73 : Int) := by
    have y0 : (16 : ℝ) ≤ Y := by exact_mod_cast hY
    have y1 : (Y : ℝ) ≤ 235 := by exact_mod_cast hY'
    have h1 : chromaOfCode false (2 ^ sampleBits src.format - 1) (shown src.format sps m .U x y) = 0 := by
      rw [hU, h8]; simp only [chromaOfCode]; norm_num
    have h2 : chromaOfCode false (2 ^ sampleBits src.format - 1) (shown src.format sps m .V x y) = 0 := by
      rw [hV, h8]; simp only [chromaOfCode]; norm_num
    have h3 : lumaOf false (2 ^ sampleBits src.format - 1) (shown src.format sps m .Y x y) = (Y - 16) / 219 := by
      rw [← hYd, h8]; simp only [lumaOf]; norm_num; ring
    have h4 : ∀ t : ℝ, (t - k.1 * t - k.2.2 * t) / k.2.1 = t := fun t => by
      rw [div_eq_iff hpos.ne']; linear_combination (-t) * hsum
    have h5 : clamp255 (255 * (((Y : ℝ) - 16) / 219)) = (85 * (Y - 16) : Int) / (73 : Int) := by
      rw [clamp255, min_eq_right (by linarith), max_eq_right (by linarith)]
      push_cast; ring
    rintro c (rfl | rfl | rfl) <;> simp only [idealRgb, standardRgb, h1, h2, h3, mul_zero, add_zero, h4, h5]
  have key : ∀ c, c = .R ∨ c = .G ∨ c = .B → ∃ n, sample dst.format dps mo c x y = some n ∧ IsNearest n (85 * (Y - 16)) 73 := by
    intro c hc
    obtain ⟨n, e, h⟩ := C61_decode_nearest_partial r hs hd hi ht hp hcs hk hin hc hx hy hT
    rw [hfull, hid c hc] at h
    exact ⟨n, e, nearest_of_near (by norm_num) (by norm_num) (by norm_num) h⟩
  obtain ⟨n, e, h⟩ := key .R (by simp)
  refine ⟨n, h, fun c hc => ?_⟩
  obtain ⟨n', e', h'⟩ := key c hc
  have : n' = n := by
    have a1 := le_abs_self ((n : Int) * 73 - 85 * (Y - 16))
    have a2 := neg_abs_le ((n : Int) * 73 - 85 * (Y - 16))
    have a3 := le_abs_self ((n' : Int) * 73 - 85 * (Y - 16))
    have a4 := neg_abs_le ((n' : Int) * 73 - 85 * (Y - 16))
    simp only [IsNearest] at h h'
    omega
  rw [e', this]

/-! ## White without rounding -/

/-- The float of the red-difference sample of white, BT.601. -/
def whiteV : F32 :=
  let ar := scalarArith ⟨fun _ _ => .nan, fun _ => .nan, fun _ => .nan⟩
  let n : F32 := F32.div (ofNat 255) (ofNat 255)
  F32.mul (compressChroma ar false (rgbToYuv ar .BT601 .SDR .BT709 (n, n, n)).2.2) (ofNat 255)

theorem whiteV_below : ∃ q, whiteV = .fin false q ∧ 127 < q ∧ q < 128 := by
  have h : (match whiteV with | .fin false q => decide (127 < q ∧ q < 128) | _ => false) = true := by decide +kernel
  cases e : whiteV with
  | nan => rw [e] at h; cases h
  | inf s => rw [e] at h; cases h
  | fin s q =>
    cases s
    · rw [e] at h; exact ⟨q, rfl, of_decide_eq_true h⟩
    · rw [e] at h; cases h

/-- A white image, 2×2. -/
def whiteSrc : Img := .raw .RGB 2 2 [⟨⟨0, 12⟩, 6⟩] (.RGB ⟨.SDR, .BT709⟩)
/-- The same as I444. -/
def whiteDst : Img := .raw .I444 2 2 [⟨⟨100, 4⟩, 2⟩, ⟨⟨104, 4⟩, 2⟩, ⟨⟨108, 4⟩, 2⟩] (.YUV ⟨.SDR, .BT709, .BT601, false⟩)

/-- **C61** is false in columns whose stores truncate: white of 2×2 pixels gets the chroma code 127 instead of 128, on all platforms. -/
theorem C61_white_false (p : Platform) (simd scalar : Libm) :
    ∃ m', Run (p.ieee simd scalar) whiteSrc whiteDst [⟨⟨0, 12⟩, 6⟩] [⟨⟨100, 4⟩, 2⟩, ⟨⟨104, 4⟩, 2⟩, ⟨⟨108, 4⟩, 2⟩] (fun _ => 255) m' ∧
      sample .I444 [⟨⟨100, 4⟩, 2⟩, ⟨⟨104, 4⟩, 2⟩, ⟨⟨108, 4⟩, 2⟩] m' .V 0 0 = some 127 ∧
      idealYuv (0.299, 0.587, 0.114) .I444 false (shown .RGB [⟨⟨0, 12⟩, 6⟩] fun _ => 255) .V 0 0 = 128 := by
  obtain ⟨m', r⟩ := run_exists (c := p.ieee simd scalar) (platform_lawful p _ _) (src := whiteSrc) (dst := whiteDst)
    (sps := [⟨⟨0, 12⟩, 6⟩]) (dps := [⟨⟨100, 4⟩, 2⟩, ⟨⟨104, 4⟩, 2⟩, ⟨⟨108, 4⟩, 2⟩]) rfl rfl
    (planesDisjoint_of (by decide)) (separate_of (by decide)) (uniform_of (by decide)) (by decide) fun _ => 255
  have hT : Truncates p 2 0 := by cases p <;> simp [Truncates, lanes]
  refine ⟨m', r, ?_, (grey_ideal (s := .BT601) ⟨.inl rfl, rfl⟩ rfl ?_).2.2⟩
  · obtain ⟨v, e1, e2, _⟩ := rgb_to_yuv_value r rfl rfl rfl rfl rfl rfl (c := .V) (by simp) (x := 0) (y := 0) (by decide) (by decide)
    have hi := column_ieee p simd scalar 2 0
    have hv : v = whiteV := by
      rw [e2]
      have sR : shown .RGB [⟨⟨0, 12⟩, 6⟩] (fun _ => 255) .R 0 0 = 255 := by decide
      have sG : shown .RGB [⟨⟨0, 12⟩, 6⟩] (fun _ => 255) .G 0 0 = 255 := by decide
      have sB : shown .RGB [⟨⟨0, 12⟩, 6⟩] (fun _ => 255) .B 0 0 = 255 := by decide
      simp only [whiteSrc, whiteDst, Img.format, Img.width, encode, yuvAt, chromaOf, withAlpha, Spec.normalize, sR, sG, sB, compressChroma,
        rgbToYuv, matMul, dot, hi.mul, hi.add, hi.sub, hi.div, Bool.false_eq_true, if_false]
      rfl
    obtain ⟨q, hq, h1, h2⟩ := whiteV_below
    refine e1.trans ?_
    rw [show whiteDst.width = 2 from rfl, stored_truncates hT, hv, hq]
    have : trunc (signed false q) = 127 := by
      rw [trunc_eq_floor (by simp [signed]; linarith)]
      exact Int.floor_eq_iff.mpr ⟨by simp [signed]; linarith, by simp [signed]; linarith⟩
    simp only [asUnsigned, this]; rfl
  · intro x' y' ex ey
    simp only [hsub, vsub, Nat.div_one] at ex ey
    subst ex ey
    decide

/-! ## Examples -/

/-- In a white image of 32×2 pixels, AVX2, every NV12 code is right: 235 and 128. -/
example (simd scalar : Libm) : ∃ mo : Mem, sample .NV12 [⟨⟨400, 64⟩, 32⟩, ⟨⟨500, 32⟩, 32⟩] mo .Y 5 1 = some 235 ∧
    sample .NV12 [⟨⟨400, 64⟩, 32⟩, ⟨⟨500, 32⟩, 32⟩] mo .V 5 1 = some 128 := by
  obtain ⟨mo, r⟩ := run_exists (c := Platform.avx2.ieee simd scalar) (platform_lawful .avx2 _ _)
    (src := .raw .RGB 32 2 [⟨⟨0, 300⟩, 96⟩] (.RGB ⟨.SDR, .BT709⟩))
    (dst := .raw .NV12 32 2 [⟨⟨400, 64⟩, 32⟩, ⟨⟨500, 32⟩, 32⟩] (.YUV ⟨.SDR, .BT709, .BT601, false⟩))
    (sps := [⟨⟨0, 300⟩, 96⟩]) (dps := [⟨⟨400, 64⟩, 32⟩, ⟨⟨500, 32⟩, 32⟩]) rfl rfl
    (planesDisjoint_of (by decide)) (separate_of (by decide)) (uniform_of (by decide)) (by decide) fun _ => 255
  obtain ⟨⟨n, h1, h2⟩, -, h3⟩ := C61_grey_codes_partial r rfl rfl rfl rfl rfl rfl rfl (.inl rfl) (x := 5) (y := 1) (by decide) (by decide)
    (by simp [Truncates, lanes, Img.width]) (by
      intro x' y' ex ey
      simp only [hsub, vsub, Img.format] at ex ey
      have a : x' = 4 ∨ x' = 5 := by omega
      have b : y' = 0 ∨ y' = 1 := by omega
      rcases a with rfl | rfl <;> rcases b with rfl | rfl <;> decide)
  have e : shown .RGB [⟨⟨0, 300⟩, 96⟩] (fun _ => 255) .R 5 1 = 255 := by decide
  have : n = 235 := by
    simp only [IsNearest, Img.format, e] at h2
    have a1 := le_abs_self ((n : Int) * 85 - (16 * 85 + 73 * (255 : Nat)))
    have a2 := neg_abs_le ((n : Int) * 85 - (16 * 85 + 73 * (255 : Nat)))
    omega
  exact ⟨mo, this ▸ h1, h3⟩

/-- An NV12 image with all samples 128, on AVX2: `112·255/219 = 130.4`. -/
example (simd scalar : Libm) : ∃ mo : Mem, sample .RGBA [⟨⟨400, 256⟩, 128⟩] mo .G 10 1 = some 130 := by
  let mem : Mem := fun _ => 128
  obtain ⟨mo, r⟩ := run_exists (c := Platform.avx2.ieee simd scalar) (platform_lawful .avx2 _ _)
    (src := .raw .NV12 32 2 [⟨⟨0, 64⟩, 32⟩, ⟨⟨64, 32⟩, 32⟩] (.YUV ⟨.SRGB, .BT709, .BT601, false⟩))
    (dst := .raw .RGBA 32 2 [⟨⟨400, 256⟩, 128⟩] (.RGB ⟨.SRGB, .BT709⟩))
    (sps := [⟨⟨0, 64⟩, 32⟩, ⟨⟨64, 32⟩, 32⟩]) (dps := [⟨⟨400, 256⟩, 128⟩]) rfl rfl
    (planesDisjoint_of (by decide)) (separate_of (by decide)) (uniform_of (by decide)) (by decide) mem
  have e : ∀ ch, (ch = .Y ∨ ch = .U ∨ ch = .V) → shown .NV12 [⟨⟨0, 64⟩, 32⟩, ⟨⟨64, 32⟩, 32⟩] mem ch 10 1 = 128 := by
    rintro ch (rfl | rfl | rfl) <;> rfl
  obtain ⟨n, h1, h2⟩ := C61_grey_levels_partial r rfl rfl rfl rfl rfl rfl rfl (.inl rfl) (x := 10) (y := 1) (by decide) (by decide)
    (by simp [Truncates, lanes, Img.width]) (e .U (by simp)) (e .V (by simp)) (by simp only [Img.format]; rw [e .Y (by simp)]; decide)
    (by simp only [Img.format]; rw [e .Y (by simp)]; decide)
  have : n = 130 := by
    simp only [IsNearest, Img.format, e .Y (by simp)] at h1
    have a1 := le_abs_self ((n : Int) * 73 - 85 * ((128 : Nat) - 16))
    have a2 := neg_abs_le ((n : Int) * 73 - 85 * ((128 : Nat) - 16))
    omega
  exact ⟨mo, this ▸ h2 .G (by simp)⟩

/-- The same on NEON, which cuts off: the code is at most 130.4. -/
example (simd scalar : Libm) : ∃ mo : Mem, ∃ n, sample .RGBA [⟨⟨400, 256⟩, 128⟩] mo .G 10 1 = some n ∧
    (n : ℝ) ≤ clamp255 (idealRgb (0.299, 0.587, 0.114) .NV12 false (shown .NV12 [⟨⟨0, 64⟩, 32⟩, ⟨⟨64, 32⟩, 32⟩] fun _ => 128) .G 10 1) + 1 / 400 := by
  let mem : Mem := fun _ => 128
  obtain ⟨mo, r⟩ := run_exists (c := Platform.neon.ieee simd scalar) (platform_lawful .neon _ _)
    (src := .raw .NV12 32 2 [⟨⟨0, 64⟩, 32⟩, ⟨⟨64, 32⟩, 32⟩] (.YUV ⟨.SRGB, .BT709, .BT601, false⟩))
    (dst := .raw .RGBA 32 2 [⟨⟨400, 256⟩, 128⟩] (.RGB ⟨.SRGB, .BT709⟩))
    (sps := [⟨⟨0, 64⟩, 32⟩, ⟨⟨64, 32⟩, 32⟩]) (dps := [⟨⟨400, 256⟩, 128⟩]) rfl rfl
    (planesDisjoint_of (by decide)) (separate_of (by decide)) (uniform_of (by decide)) (by decide) mem
  obtain ⟨n, h1, h2, _⟩ := C61_decode_floor_partial r rfl rfl rfl rfl rfl (.inl rfl) rfl (fun c x y l _ _ _ => shown_le rfl ..) (c := .G)
    (by simp) (x := 10) (y := 1) (by decide) (by decide) (.inr (.inl rfl))
  exact ⟨mo, n, h1, h2⟩

/-- White on NEON: the luma code is at most 235. -/
example (simd scalar : Libm) : ∃ mo : Mem, ∃ n, sample .I444 [⟨⟨100, 4⟩, 2⟩, ⟨⟨104, 4⟩, 2⟩, ⟨⟨108, 4⟩, 2⟩] mo .Y 0 0 = some n ∧ n ≤ 235 := by
  obtain ⟨mo, r, -⟩ := C61_white_false .neon simd scalar
  obtain ⟨n, h1, h2, _⟩ := C61_encode_floor_partial r rfl rfl rfl rfl rfl (.inl rfl) rfl (c := .Y) (by simp) (x := 0) (y := 0) (by decide)
    (by decide) (.inr (.inl rfl))
  refine ⟨mo, n, h1, ?_⟩
  have e := (grey_ideal (s := .BT601) (k := (0.299, 0.587, 0.114)) ⟨.inl rfl, rfl⟩ (f := .I444) rfl
    (V := shown .RGB [⟨⟨0, 12⟩, 6⟩] fun _ => 255) (x := 0) (y := 0) (by
      intro x' y' ex ey
      simp only [hsub, vsub, Nat.div_one] at ex ey
      subst ex ey
      decide)).1
  have e' : shown .RGB [⟨⟨0, 12⟩, 6⟩] (fun _ => 255) .R 0 0 = 255 := by decide
  rw [e'] at e
  have h3 : (n : ℝ) ≤ idealYuv (0.299, 0.587, 0.114) .I444 false (shown .RGB [⟨⟨0, 12⟩, 6⟩] fun _ => 255) .Y 0 0 + 5 / 10 ^ 6 * 255 := by
    refine h2.trans (le_of_eq ?_)
    norm_num [whiteDst, whiteSrc, Img.format, sampleBits]
  rw [e] at h3
  norm_num at h3
  have : (n : ℝ) < ((236 : Nat) : ℝ) := by push_cast; linarith
  have := Nat.cast_lt.mp this
  omega

end Ezk.Props

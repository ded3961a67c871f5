import Verif.Proofs.Detour
import Verif.Props.Generations
import Verif.Props.Layouts

/-!
# C81: the way over another YUV format

An RGB image is converted to a sub-sampled YUV format, once directly and once over a YUV format of no less resolution and depth.
-/

namespace Ezk.Props
open FOps Spec F32 PixelFormat

variable {p : Platform} {simd scalar : Libm} {src mid dst dst' : Img} {sps mps dps dps' : List Plane} {m m1 m2 m' : Mem}

/-- How far a store in column `x` goes below (`lo`) and above (`hi`) the value. -/
def StoreBand (p : Platform) (w x : Nat) (lo hi : ℝ) : Prop :=
  (Truncates p w x ∧ lo = 1 ∧ hi = 0) ∨ (¬ Truncates p w x ∧ lo = 1 / 2 ∧ hi = 1 / 2)

/-- The ideal codes of a format, from the ideal codes of one of no less resolution. -/
theorem ideal_mean {f f' : PixelFormat} (k : ℝ × ℝ × ℝ) (full : Bool) (V : Pic Nat) (h1 : hsub f ≤ hsub f') (h2 : vsub f ≤ vsub f') {c : Chan}
    (h : c = .U ∨ c = .V) (x y : Nat) : idealYuv k f' full V c x y =
      cellMean f' (fun x y => idealYuv k f full V c x y * ((2 ^ sampleBits f' - 1 : Nat) / (2 ^ sampleBits f - 1 : Nat) : ℝ)) x y := by
  have hM : ((2 ^ sampleBits f - 1 : Nat) : ℝ) ≠ 0 := by
    have : 0 < 2 ^ sampleBits f - 1 := (max_lt f).1
    exact_mod_cast this.ne'
  have hs : ∀ u, chromaCode full (2 ^ sampleBits f - 1) u * ((2 ^ sampleBits f' - 1 : Nat) / (2 ^ sampleBits f - 1 : Nat) : ℝ) =
      chromaCode full (2 ^ sampleBits f' - 1) u := by
    intro u
    simp only [chromaCode]
    field_simp
  rcases h with rfl | rfl <;> simp only [idealYuv, hs, ← chromaCode_mean, cellMean_cellMean h1 h2]

theorem ideal_luma {f f' : PixelFormat} (k : ℝ × ℝ × ℝ) (full : Bool) (V : Pic Nat) (x y : Nat) : idealYuv k f' full V .Y x y =
      idealYuv k f full V .Y x y * ((2 ^ sampleBits f' - 1 : Nat) / (2 ^ sampleBits f - 1 : Nat) : ℝ) := by
  have hM : ((2 ^ sampleBits f - 1 : Nat) : ℝ) ≠ 0 := by
    have : 0 < 2 ^ sampleBits f - 1 := (max_lt f).1
    exact_mod_cast this.ne'
  simp only [idealYuv, lumaCode]
  field_simp

theorem encode_band (r : Run (p.ieee simd scalar) src dst sps dps m m') (hs : isYuv src.format = false)
    (hd : isYuv dst.format = true) {i : YuvColorInfo} (hi : dst.color = .YUV i) (ht : src.color.transfer = i.transfer)
    (hp : src.color.primaries = i.primaries) {k : ℝ × ℝ × ℝ} (hk : IsStandard i.space k) {c : Chan} (hc : c = .Y ∨ c = .U ∨ c = .V)
    {x y : Nat} (hx : x < dst.width) (hy : y < dst.height) {lo up : ℝ} (hb : StoreBand p dst.width x lo up) :
    ∃ n, sample dst.format dps m' c x y = some n ∧
      idealYuv k dst.format i.fullRange (shown src.format sps m) c x y - (lo + 5 / 10 ^ 6 * (2 ^ sampleBits dst.format - 1 : Nat)) ≤ n ∧
      n ≤ idealYuv k dst.format i.fullRange (shown src.format sps m) c x y + (up + 5 / 10 ^ 6 * (2 ^ sampleBits dst.format - 1 : Nat)) := by
  rcases hb with ⟨hT, rfl, rfl⟩ | ⟨hT, rfl, rfl⟩
  · obtain ⟨n, h1, h2, h3⟩ := C61_encode_floor_partial r hs hd hi ht hp hk.1 hk.2 hc hx hy hT
    exact ⟨n, h1, by linarith, by linarith⟩
  · obtain ⟨n, h1, h2⟩ := C61_encode_nearest_partial r hs hd hi ht hp hk.1 hk.2 hc hx hy hT
    rw [abs_le] at h2
    exact ⟨n, h1, by linarith [h2.1], by linarith [h2.2]⟩

theorem recode_band (r : Run (p.ieee simd scalar) src dst sps dps m m') (hs : isYuv src.format = true)
    (hd : isYuv dst.format = true) {i : YuvColorInfo} (hi : src.color = .YUV i) (hj : dst.color = .YUV i)
    (hn : src.format ≠ dst.format) {k : ℝ × ℝ × ℝ} (hk : IsStandard i.space k)
    {c : Chan} (hc : c = .Y ∨ c = .U ∨ c = .V) {x y : Nat} (hx : x < dst.width) (hy : y < dst.height)
    (hV : InDepth src.format src.width src.height (shown src.format sps m))
    (h0 : 0 ≤ idealRecode k k src.format dst.format i.fullRange i.fullRange (shown src.format sps m) c x y)
    (h1 : idealRecode k k src.format dst.format i.fullRange i.fullRange (shown src.format sps m) c x y ≤
      (2 ^ sampleBits dst.format - 1 : Nat)) {lo up : ℝ} (hb : StoreBand p dst.width x lo up) :
    ∃ n, sample dst.format dps m' c x y = some n ∧
      idealRecode k k src.format dst.format i.fullRange i.fullRange (shown src.format sps m) c x y -
        (lo + 6 / 10 ^ 5 * (2 ^ sampleBits dst.format - 1 : Nat)) ≤ n ∧
      n ≤ idealRecode k k src.format dst.format i.fullRange i.fullRange (shown src.format sps m) c x y +
        (up + 6 / 10 ^ 5 * (2 ^ sampleBits dst.format - 1 : Nat)) := by
  obtain ⟨v, e, a⟩ := yuv_to_yuv_value r hs hd hi hj (fun h => hn h.1) rfl rfl hk hk hc hx hy hV h0 h1
  have M2 : ((2 ^ sampleBits dst.format - 1 : Nat) : ℝ) ≤ 4095 := by
    have : 2 ^ sampleBits dst.format - 1 ≤ 4095 := by cases dst.format <;> decide
    exact_mod_cast this
  have M3 : ((2 ^ sampleBits dst.format - 1 : Nat) : ℝ) ≤ ((yuvStore dst.format).top : ℝ) := by
    have : 2 ^ sampleBits dst.format - 1 ≤ (yuvStore dst.format).top := by cases dst.format <;> decide
    exact_mod_cast this
  refine ⟨_, e, ?_⟩
  rcases hb with ⟨hT, rfl, rfl⟩ | ⟨hT, rfl, rfl⟩
  · obtain ⟨h2, h3⟩ := stored_floor (simd := simd) (scalar := scalar) hT (yuvStore dst.format) a h0 (h1.trans M3) (by linarith)
    exact ⟨by linarith, by linarith⟩
  · have h2 := stored_near (simd := simd) (scalar := scalar) hT (yuvStore dst.format) a h0 (h1.trans M3) (by linarith)
    rw [abs_le] at h2
    exact ⟨by linarith [h2.1], by linarith [h2.2]⟩

/-- The code after the detour against the ideal one. -/
theorem detour_band (r1 : Run (p.ieee simd scalar) src mid sps mps m m1) (r2 : Run (p.ieee simd scalar) mid dst mps dps m1 m2)
    (hs : isYuv src.format = false) (hm : isYuv mid.format = true) (hd : isYuv dst.format = true) {i : YuvColorInfo}
    (hi : mid.color = .YUV i) (hj : dst.color = .YUV i) (ht : src.color.transfer = i.transfer) (hp : src.color.primaries = i.primaries)
    (hn : mid.format ≠ dst.format) (hbits : sampleBits dst.format ≤ sampleBits mid.format) (hcoarse : Coarser dst.format mid.format)
    {k : ℝ × ℝ × ℝ} (hk : IsStandard i.space k) {c : Chan} (hc : c = .Y ∨ c = .U ∨ c = .V) {x y : Nat} (hx : x < dst.width)
    (hy : y < dst.height) {lo up : ℝ} (hb : StoreBand p dst.width x lo up) :
    ∃ n, sample dst.format dps m2 c x y = some n ∧
      idealYuv k dst.format i.fullRange (shown src.format sps m) c x y -
        (2 * lo + 65 / 10 ^ 6 * (2 ^ sampleBits dst.format - 1 : Nat)) ≤ n ∧
      n ≤ idealYuv k dst.format i.fullRange (shown src.format sps m) c x y +
        (2 * up + 65 / 10 ^ 6 * (2 ^ sampleBits dst.format - 1 : Nat)) := by
  have ret := r2.returned
  have hw : mid.width = dst.width := ret.width
  have hh : mid.height = dst.height := ret.height
  have hdepth : InDepth mid.format mid.width mid.height (shown mid.format mps m1) := by
    intro c x y l hx hy hl
    obtain ⟨n, h1, h2, -⟩ := rgb_to_yuv r1 hs hm hi ht hp hk.isMatrix (c := c)
      (by revert hl hm; cases mid.format <;> cases c <;> simp [isYuv, sampleLoc]) hx hy
    have e : shown mid.format mps m1 c x y = n := by rw [shown, h1]; rfl
    rw [e]
    exact h2
  have hmid : ∀ x' y', x' / hsub dst.format = x / hsub dst.format → y' / vsub dst.format = y / vsub dst.format →
      shown mid.format mps m1 c x' y' ≤ 2 ^ sampleBits mid.format - 1 ∧
      idealYuv k mid.format i.fullRange (shown src.format sps m) c x' y' -
        (lo + 5 / 10 ^ 6 * (2 ^ sampleBits mid.format - 1 : Nat)) ≤ shown mid.format mps m1 c x' y' ∧
      shown mid.format mps m1 c x' y' ≤ idealYuv k mid.format i.fullRange (shown src.format sps m) c x' y' +
        (up + 5 / 10 ^ 6 * (2 ^ sampleBits mid.format - 1 : Nat)) := by
    intro x' y' ex ey
    obtain ⟨hx', hy'⟩ := cell_in ret.evenW ret.evenH hx hy ex ey
    have hT := truncates_cell (p := p) (w := dst.width) (half_of_cell ex)
    have hb' : StoreBand p mid.width x' lo up := by rw [StoreBand, hw, hT]; exact hb
    obtain ⟨n, h1, h2⟩ := encode_band r1 hs hm hi ht hp hk hc (hw ▸ hx') (hh ▸ hy') hb'
    obtain ⟨l, hl⟩ : ∃ l, sampleLoc mid.format c x' y' = some l := by
      revert hm; rcases hc with rfl | rfl | rfl <;> cases mid.format <;> simp [isYuv, sampleLoc]
    have e : shown mid.format mps m1 c x' y' = n := by rw [shown, h1]; rfl
    exact ⟨hdepth c x' y' l (hw ▸ hx') (hh ▸ hy') hl, e ▸ h2⟩
  have hM : (0 : ℝ) < ((2 ^ sampleBits mid.format - 1 : Nat) : ℝ) := by
    have : 0 < 2 ^ sampleBits mid.format - 1 := (max_lt mid.format).1
    exact_mod_cast this
  have hM' : (0 : ℝ) < ((2 ^ sampleBits dst.format - 1 : Nat) : ℝ) := by
    have : 0 < 2 ^ sampleBits dst.format - 1 := (max_lt dst.format).1
    exact_mod_cast this
  have hMM : ((2 ^ sampleBits dst.format - 1 : Nat) : ℝ) ≤ ((2 ^ sampleBits mid.format - 1 : Nat) : ℝ) := by
    have := Nat.sub_le_sub_right (Nat.pow_le_pow_right (n := 2) (by norm_num) hbits) 1
    exact_mod_cast this
  have hlo : 0 ≤ lo ∧ 0 ≤ up := by rcases hb with ⟨_, rfl, rfl⟩ | ⟨_, rfl, rfl⟩ <;> norm_num
  have key : (0 ≤ idealRecode k k mid.format dst.format i.fullRange i.fullRange (shown mid.format mps m1) c x y ∧
      idealRecode k k mid.format dst.format i.fullRange i.fullRange (shown mid.format mps m1) c x y ≤ (2 ^ sampleBits dst.format - 1 : Nat)) ∧
      idealYuv k dst.format i.fullRange (shown src.format sps m) c x y - (lo + 5 / 10 ^ 6 * (2 ^ sampleBits dst.format - 1 : Nat)) ≤
        idealRecode k k mid.format dst.format i.fullRange i.fullRange (shown mid.format mps m1) c x y ∧
      idealRecode k k mid.format dst.format i.fullRange i.fullRange (shown mid.format mps m1) c x y ≤
        idealYuv k dst.format i.fullRange (shown src.format sps m) c x y + (up + 5 / 10 ^ 6 * (2 ^ sampleBits dst.format - 1 : Nat)) := by
    have pix : ∀ x' y', x' / hsub dst.format = x / hsub dst.format → y' / vsub dst.format = y / vsub dst.format →
        ((0 : ℝ) - 0 ≤ shown mid.format mps m1 c x' y' * ((2 ^ sampleBits dst.format - 1 : Nat) / (2 ^ sampleBits mid.format - 1 : Nat) : ℝ) ∧
        shown mid.format mps m1 c x' y' * ((2 ^ sampleBits dst.format - 1 : Nat) / (2 ^ sampleBits mid.format - 1 : Nat) : ℝ) ≤
          0 + (2 ^ sampleBits dst.format - 1 : Nat)) ∧
        idealYuv k mid.format i.fullRange (shown src.format sps m) c x' y' *
            ((2 ^ sampleBits dst.format - 1 : Nat) / (2 ^ sampleBits mid.format - 1 : Nat) : ℝ) -
            (lo + 5 / 10 ^ 6 * (2 ^ sampleBits dst.format - 1 : Nat)) ≤
          shown mid.format mps m1 c x' y' * ((2 ^ sampleBits dst.format - 1 : Nat) / (2 ^ sampleBits mid.format - 1 : Nat) : ℝ) ∧
        shown mid.format mps m1 c x' y' * ((2 ^ sampleBits dst.format - 1 : Nat) / (2 ^ sampleBits mid.format - 1 : Nat) : ℝ) ≤
          idealYuv k mid.format i.fullRange (shown src.format sps m) c x' y' *
            ((2 ^ sampleBits dst.format - 1 : Nat) / (2 ^ sampleBits mid.format - 1 : Nat) : ℝ) +
            (up + 5 / 10 ^ 6 * (2 ^ sampleBits dst.format - 1 : Nat)) := by
      intro x' y' ex ey
      obtain ⟨h1, h2, h3⟩ := hmid x' y' ex ey
      have h1 : (shown mid.format mps m1 c x' y' : ℝ) ≤ ((2 ^ sampleBits mid.format - 1 : Nat) : ℝ) := by exact_mod_cast h1
      have h0 : (0 : ℝ) ≤ shown mid.format mps m1 c x' y' := Nat.cast_nonneg _
      generalize (shown mid.format mps m1 c x' y' : ℝ) = n at *
      generalize idealYuv k mid.format i.fullRange (shown src.format sps m) c x' y' = z at *
      generalize ((2 ^ sampleBits mid.format - 1 : Nat) : ℝ) = M at *
      generalize ((2 ^ sampleBits dst.format - 1 : Nat) : ℝ) = M' at *
      have q0 : 0 ≤ M' / M := by positivity
      have q1 : M' / M ≤ 1 := (div_le_one hM).mpr hMM
      have q2 : M * (M' / M) = M' := by field_simp
      generalize M' / M = q at *
      have e1 := mul_le_mul_of_nonneg_right h1 q0
      have e2 := mul_le_mul_of_nonneg_right h2 q0
      have e3 := mul_le_mul_of_nonneg_right h3 q0
      have e4 := mul_nonneg h0 q0
      have e5 := mul_le_mul_of_nonneg_left q1 hlo.1
      have e6 := mul_le_mul_of_nonneg_left q1 hlo.2
      refine ⟨⟨by linarith, by linarith⟩, ?_, ?_⟩
      · nlinarith
      · nlinarith
    rcases hc with rfl | hc
    · rw [recode_luma hk, ideal_luma (f := mid.format)]
      obtain ⟨⟨a1, a2⟩, a3⟩ := pix x y rfl rfl
      exact ⟨⟨by linarith, by linarith⟩, a3⟩
    · rw [recode_mean hk _ _ _ _ hc, ideal_mean k i.fullRange _ hcoarse.1 hcoarse.2 hc]
      have b1 := cellMean_band dst.format (x := x) (y := y) (g' := fun _ _ => 0) (fun x' y' ex ey => (pix x' y' ex ey).1)
      have b2 := cellMean_band dst.format (x := x) (y := y) (fun x' y' ex ey => (pix x' y' ex ey).2)
      have z : cellMean dst.format (fun _ _ => 0) x y = 0 := by simp [cellMean]
      rw [z] at b1
      exact ⟨⟨by linarith [b1.1], by linarith [b1.2]⟩, b2⟩
  obtain ⟨n, e, h1, h2⟩ := recode_band r2 hm hd hi hj hn hk hc hx hy hdepth key.1.1 key.1.2 hb
  exact ⟨n, e, by linarith [key.2.1], by linarith [key.2.2]⟩

/-- **C81** (BT.601 and BT.709; transfer function and primaries do not change). RGB to a YUV format directly, or over another
YUV format with the same colour information, of no less depth and resolution: the samples differ by at most one code where stores
round. In all other columns the detour cuts off twice: it loses at most two codes against the direct way and gains at most one. -/
theorem C81_detour (r : Run (p.ieee simd scalar) src dst' sps dps' m m')
    (r1 : Run (p.ieee simd scalar) src mid sps mps m m1) (r2 : Run (p.ieee simd scalar) mid dst mps dps m1 m2)
    (hs : isYuv src.format = false) (hm : isYuv mid.format = true) (hd : isYuv dst.format = true) (hf : dst'.format = dst.format)
    {i : YuvColorInfo} (hi : mid.color = .YUV i) (hj : dst.color = .YUV i) (hj' : dst'.color = .YUV i)
    (ht : src.color.transfer = i.transfer) (hp : src.color.primaries = i.primaries) (hcs : i.space = .BT601 ∨ i.space = .BT709)
    (hn : mid.format ≠ dst.format) (hbits : sampleBits dst.format ≤ sampleBits mid.format) (hcoarse : Coarser dst.format mid.format)
    {c : Chan} (hc : c = .Y ∨ c = .U ∨ c = .V) {x y : Nat} (hx : x < dst.width) (hy : y < dst.height) :
    ∃ n n', sample dst.format dps' m' c x y = some n ∧ sample dst.format dps m2 c x y = some n' ∧ n' ≤ n + 1 ∧ n ≤ n' + 2 ∧
      (¬ Truncates p dst.width x → n ≤ n' + 1) := by
  obtain ⟨k, hk⟩ : ∃ k, lumaWeights i.space = some k := by rcases hcs with h | h <;> rw [h] <;> exact ⟨_, rfl⟩
  have hst : IsStandard i.space k := ⟨hcs, hk⟩
  have hw : dst'.width = dst.width := by
    have a := r.returned.width
    have b := r1.returned.width
    have c := r2.returned.width
    omega
  have hh : dst'.height = dst.height := by
    have a := r.returned.height
    have b := r1.returned.height
    have c := r2.returned.height
    omega
  have M2 : ((2 ^ sampleBits dst.format - 1 : Nat) : ℝ) ≤ 4095 := by
    have : 2 ^ sampleBits dst.format - 1 ≤ 4095 := by cases dst.format <;> decide
    exact_mod_cast this
  by_cases hT : Truncates p dst.width x
  · have hb : StoreBand p dst.width x 1 0 := .inl ⟨hT, rfl, rfl⟩
    obtain ⟨n, e, a1, a2⟩ := encode_band r hs (hf ▸ hd) hj' ht hp hst hc (hw.symm ▸ hx) (hh.symm ▸ hy) (hw.symm ▸ hb)
    obtain ⟨n', e', b1, b2⟩ := detour_band r1 r2 hs hm hd hi hj ht hp hn hbits hcoarse hst hc hx hy hb
    rw [hf] at e a1 a2
    have u1 : (n' : ℝ) < n + 2 := by linarith
    have u2 : (n : ℝ) < n' + 3 := by linarith
    have u1 : n' < n + 2 := by exact_mod_cast u1
    have u2 : n < n' + 3 := by exact_mod_cast u2
    exact ⟨n, n', e, e', by omega, by omega, fun h => absurd hT h⟩
  · have hb : StoreBand p dst.width x (1 / 2) (1 / 2) := .inr ⟨hT, rfl, rfl⟩
    obtain ⟨n, e, a1, a2⟩ := encode_band r hs (hf ▸ hd) hj' ht hp hst hc (hw.symm ▸ hx) (hh.symm ▸ hy) (hw.symm ▸ hb)
    obtain ⟨n', e', b1, b2⟩ := detour_band r1 r2 hs hm hd hi hj ht hp hn hbits hcoarse hst hc hx hy hb
    rw [hf] at e a1 a2
    have u1 : (n' : ℝ) < n + 2 := by linarith
    have u2 : (n : ℝ) < n' + 2 := by linarith
    have u1 : n' < n + 2 := by exact_mod_cast u1
    have u2 : n < n' + 2 := by exact_mod_cast u2
    exact ⟨n, n', e, e', by omega, by omega, fun _ => by omega⟩

/-- **C81** for YUV images (BT.601 and BT.709, images all of whose columns are stored by code that rounds). Repacking first makes no
difference at all: a YUV image is brought into another layout of the same depth, without sub-sampling chroma, and then converted to anything
else, on any processor; the result is the same as without the repacking. -/
theorem C81_repack {c : Cpu F32} (r1 : Run (p.ieee simd scalar) src mid sps mps m m1) (r : Run c src dst' sps dps' m m')
    (r2 : Run c mid dst mps dps m1 m2) (hs : isYuv src.format = true) (hm : isYuv mid.format = true) (ef : dst'.format = dst.format)
    (ec : dst'.color = dst.color) {i : YuvColorInfo} (hi : src.color = .YUV i) (hj : mid.color = .YUV i)
    (hcs : i.space = .BT601 ∨ i.space = .BT709) (hb : sampleBits src.format = sampleBits mid.format)
    (hco : Coarser src.format mid.format) (hV : InDepth src.format src.width src.height (shown src.format sps m))
    (n1 : ¬ (src.format = dst.format ∧ src.color = dst.color)) (n2 : ¬ (mid.format = dst.format ∧ mid.color = dst.color))
    (hT : ∀ x < dst.width, ¬ Truncates p dst.width x) {ch : Chan} {x y : Nat} (hx : x < dst.width) (hy : y < dst.height) :
    sample dst.format dps m2 ch x y = sample dst.format dps' m' ch x y := by
  have w1 := r1.returned.width
  have w2 := r.returned.width
  have w3 := r2.returned.width
  have h1 := r1.returned.height
  have h2 := r.returned.height
  have h3 := r2.returned.height
  have hd := shown_depicts (w := src.width) (h := src.height) r1.returned.vsrc.fits.1 m
  have hd' : Depicts mid.format mps mid.width mid.height m1 (shown src.format sps m) := by
    intro c x y l hx hy hl
    have hc : c = .Y ∨ c = .U ∨ c = .V := by revert hl hm; cases mid.format <;> cases c <;> simp [isYuv, sampleLoc]
    obtain ⟨n, n', e, e', -, h⟩ := C51_repack r1 hs hm hi hj hcs hb hco hc hx hy hV
    have : n' = n := h (by rw [w3]; exact hT x (w3 ▸ hx))
    rw [e', this, shown, e]
    rfl
  have := C40_same_samples_partial r2 r hm hs hb.symm (hj.trans hi.symm) ef.symm ec.symm (by omega) (by omega) n2 n1 hd' hd (ch := ch) hx hy
  rw [this, ef]

/-- Any RGB image over 12-bit 4:4:4 to NV12, on AVX2 in the columns of the vector code. -/
example (simd scalar : Libm) (m : Mem) : ∃ m' m2 n n', sample .NV12 [⟨⟨2000, 64⟩, 32⟩, ⟨⟨2064, 32⟩, 32⟩] m' .U 9 1 = some n ∧
    sample .NV12 [⟨⟨1000, 64⟩, 32⟩, ⟨⟨1064, 32⟩, 32⟩] m2 .U 9 1 = some n' ∧ n' ≤ n + 1 ∧ n ≤ n' + 1 := by
  obtain ⟨m', r⟩ := run_exists (c := Platform.avx2.ieee simd scalar) (platform_lawful .avx2 _ _)
    (src := .raw .RGB 32 2 [⟨⟨0, 192⟩, 96⟩] (.RGB ⟨.SDR, .BT709⟩))
    (dst := .raw .NV12 32 2 [⟨⟨2000, 64⟩, 32⟩, ⟨⟨2064, 32⟩, 32⟩] (.YUV ⟨.SDR, .BT709, .BT601, false⟩))
    (sps := [⟨⟨0, 192⟩, 96⟩]) (dps := [⟨⟨2000, 64⟩, 32⟩, ⟨⟨2064, 32⟩, 32⟩]) rfl rfl
    (planesDisjoint_of (by decide)) (separate_of (by decide)) (uniform_of (by decide)) (by decide) m
  obtain ⟨m1, r1⟩ := run_exists (c := Platform.avx2.ieee simd scalar) (platform_lawful .avx2 _ _)
    (src := .raw .RGB 32 2 [⟨⟨0, 192⟩, 96⟩] (.RGB ⟨.SDR, .BT709⟩))
    (dst := .raw .I412 32 2 [⟨⟨200, 128⟩, 64⟩, ⟨⟨328, 128⟩, 64⟩, ⟨⟨456, 128⟩, 64⟩] (.YUV ⟨.SDR, .BT709, .BT601, false⟩))
    (sps := [⟨⟨0, 192⟩, 96⟩]) (dps := [⟨⟨200, 128⟩, 64⟩, ⟨⟨328, 128⟩, 64⟩, ⟨⟨456, 128⟩, 64⟩]) rfl rfl
    (planesDisjoint_of (by decide)) (separate_of (by decide)) (uniform_of (by decide)) (by decide) m
  obtain ⟨m2, r2⟩ := run_exists (c := Platform.avx2.ieee simd scalar) (platform_lawful .avx2 _ _)
    (src := .raw .I412 32 2 [⟨⟨200, 128⟩, 64⟩, ⟨⟨328, 128⟩, 64⟩, ⟨⟨456, 128⟩, 64⟩] (.YUV ⟨.SDR, .BT709, .BT601, false⟩))
    (dst := .raw .NV12 32 2 [⟨⟨1000, 64⟩, 32⟩, ⟨⟨1064, 32⟩, 32⟩] (.YUV ⟨.SDR, .BT709, .BT601, false⟩))
    (sps := [⟨⟨200, 128⟩, 64⟩, ⟨⟨328, 128⟩, 64⟩, ⟨⟨456, 128⟩, 64⟩]) (dps := [⟨⟨1000, 64⟩, 32⟩, ⟨⟨1064, 32⟩, 32⟩]) rfl rfl
    (planesDisjoint_of (by decide)) (separate_of (by decide)) (uniform_of (by decide)) (by decide) m1
  obtain ⟨n, n', h1, h2, h3, -, h4⟩ := C81_detour r r1 r2 rfl rfl rfl rfl rfl rfl rfl rfl rfl (.inl rfl) (by decide) (by decide)
    (by constructor <;> decide) (c := .U) (by simp) (x := 9) (y := 1) (by decide) (by decide)
  exact ⟨m', m2, n, n', h1, h2, h3, h4 (by simp [Truncates, lanes, Img.width])⟩

/-- Any I420 image over YUYV on AVX-512, and then to RGB by any code. -/
example (simd scalar : Libm) (m : Mem) : ∃ m' m2, sample .RGB [⟨⟨3000, 192⟩, 96⟩] m2 .G 9 1 = sample .RGB [⟨⟨2000, 192⟩, 96⟩] m' .G 9 1 := by
  obtain ⟨m1, r1⟩ := run_exists (c := Platform.avx512.ieee simd scalar) (platform_lawful .avx512 _ _)
    (src := .raw .I420 32 2 [⟨⟨0, 64⟩, 32⟩, ⟨⟨64, 16⟩, 16⟩, ⟨⟨80, 16⟩, 16⟩] (.YUV ⟨.SDR, .BT709, .BT709, false⟩))
    (dst := .raw .YUYV 32 2 [⟨⟨1000, 128⟩, 64⟩] (.YUV ⟨.SDR, .BT709, .BT709, false⟩))
    (sps := [⟨⟨0, 64⟩, 32⟩, ⟨⟨64, 16⟩, 16⟩, ⟨⟨80, 16⟩, 16⟩]) (dps := [⟨⟨1000, 128⟩, 64⟩]) rfl rfl
    (planesDisjoint_of (by decide)) (separate_of (by decide)) (uniform_of (by decide)) (by decide) m
  obtain ⟨m', r⟩ := run_exists (c := Platform.neon.ieee simd scalar) (platform_lawful .neon _ _)
    (src := .raw .I420 32 2 [⟨⟨0, 64⟩, 32⟩, ⟨⟨64, 16⟩, 16⟩, ⟨⟨80, 16⟩, 16⟩] (.YUV ⟨.SDR, .BT709, .BT709, false⟩))
    (dst := .raw .RGB 32 2 [⟨⟨2000, 192⟩, 96⟩] (.RGB ⟨.SDR, .BT709⟩))
    (sps := [⟨⟨0, 64⟩, 32⟩, ⟨⟨64, 16⟩, 16⟩, ⟨⟨80, 16⟩, 16⟩]) (dps := [⟨⟨2000, 192⟩, 96⟩]) rfl rfl
    (planesDisjoint_of (by decide)) (separate_of (by decide)) (uniform_of (by decide)) (by decide) m
  obtain ⟨m2, r2⟩ := run_exists (c := Platform.neon.ieee simd scalar) (platform_lawful .neon _ _)
    (src := .raw .YUYV 32 2 [⟨⟨1000, 128⟩, 64⟩] (.YUV ⟨.SDR, .BT709, .BT709, false⟩))
    (dst := .raw .RGB 32 2 [⟨⟨3000, 192⟩, 96⟩] (.RGB ⟨.SDR, .BT709⟩))
    (sps := [⟨⟨1000, 128⟩, 64⟩]) (dps := [⟨⟨3000, 192⟩, 96⟩]) rfl rfl
    (planesDisjoint_of (by decide)) (separate_of (by decide)) (uniform_of (by decide)) (by decide) m1
  exact ⟨m', m2, C81_repack r1 r r2 rfl rfl rfl rfl rfl rfl (.inr rfl) rfl (by constructor <;> decide)
    (fun c x y l _ _ _ => shown_le rfl ..) (fun h => nomatch h.1) (fun h => nomatch h.1)
    (fun x hx => by change x < 32 at hx; simp [Truncates, lanes, Img.width, hx]) (by decide) (by decide)⟩

end Ezk.Props

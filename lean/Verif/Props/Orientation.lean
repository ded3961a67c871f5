import Verif.Proofs.Orientation
import Verif.Props.Detour

/-!
# C82: turned and mirrored images

Two conversions, one of an image and one of the same image in another orientation, each on a platform of its own.
-/

namespace Ezk.Props
open FOps Spec F32 PixelFormat

variable {p p2 : Platform} {simd scalar simd2 scalar2 : Libm} {src dst src' dst' : Img} {sps dps sps' dps' : List Plane} {m m' n n' : Mem}

/-- The second image shows the first in orientation `o`, as far as the channels `ch` go. -/
def Reoriented (o : Orientation) (ch : Chan → Prop) (src src' : Img) (sps sps' : List Plane) (m n : Mem) : Prop :=
  (src'.width, src'.height) = o.size src.width src.height ∧
  ∀ c x y, ch c → x < src'.width → y < src'.height →
    sample src'.format sps' n c x y =
      sample src.format sps m c (o.place src.width src.height x y).1 (o.place src.width src.height x y).2

theorem some_band (p : Platform) (w x : Nat) : ∃ lo up, StoreBand p w x lo up ∧ lo ≤ 1 ∧ up ≤ 1 / 2 := by
  by_cases h : Truncates p w x
  · exact ⟨1, 0, .inl ⟨h, rfl, rfl⟩, le_refl _, by norm_num⟩
  · exact ⟨1 / 2, 1 / 2, .inr ⟨h, rfl, rfl⟩, by norm_num, le_refl _⟩

theorem one_apart {a b : Nat} {I J e : ℝ} (h : I = J) (he : e < 1 / 4) (a1 : I - (1 + e) ≤ a) (a2 : a ≤ I + (1 / 2 + e))
    (b1 : J - (1 + e) ≤ b) (b2 : b ≤ J + (1 / 2 + e)) : a ≤ b + 1 ∧ b ≤ a + 1 := by
  subst h
  have u1 : (a : ℝ) < b + 2 := by linarith
  have u2 : (b : ℝ) < a + 2 := by linarith
  have u1 : a < b + 2 := by exact_mod_cast u1
  have u2 : b < a + 2 := by exact_mod_cast u2
  omega

/-- Ideal chroma of the reoriented picture. -/
theorem mean_reoriented (o : Orientation) {f : PixelFormat} (ht : o.transpose = true → hsub f = vsub f) {w h w' h' x y : Nat} (hw : w % 2 = 0)
    (hh : h % 2 = 0) (hs : (w', h') = o.size w h) (hx : x < w') (hy : y < h') {g g' : Nat → Nat → ℝ}
    (hg : ∀ x y, x < w' → y < h' → g' x y = g (o.place w h x y).1 (o.place w h x y).2) :
    cellMean f g' x y = cellMean f g (o.place w h x y).1 (o.place w h x y).2 := by
  have hw' : w' % 2 = 0 ∧ h' % 2 = 0 := by
    rw [Orientation.size] at hs
    split at hs <;> cases hs <;> exact ⟨by assumption, by assumption⟩
  have hx2 : x < (o.size w h).1 := by rw [← hs]; exact hx
  have hy2 : y < (o.size w h).2 := by rw [← hs]; exact hy
  rw [← cellMean_place o ht hw hh hx2 hy2]
  have := cellMean_lip f (g := g') (g' := fun x y => g (o.place w h x y).1 (o.place w h x y).2) (x := x) (y := y) (d := 0) (by
    intro x' y' ex ey
    obtain ⟨a, b⟩ := cell_in hw'.1 hw'.2 hx hy ex ey
    rw [hg x' y' a b, sub_self, abs_zero])
  exact sub_eq_zero.mp (abs_eq_zero.mp (le_antisymm this (abs_nonneg _)))

theorem shown_reoriented {o : Orientation} {ch : Chan → Prop} (h : Reoriented o ch src src' sps sps' m n) {c : Chan} (hc : ch c) {x y : Nat}
    (hx : x < src'.width) (hy : y < src'.height) : shown src'.format sps' n c x y =
      shown src.format sps m c (o.place src.width src.height x y).1 (o.place src.width src.height x y).2 := by
  rw [shown, shown, h.2 c x y hc hx hy]

/-- **C82**, RGB to YUV (BT.601 and BT.709, without a change of transfer function or primaries). Turning or mirroring an image before or
after the conversion makes at most one code of difference, whichever platforms convert. If the image is turned by a quarter, chroma has
to be sub-sampled in both directions or in none. -/
theorem C82_rgb_to_yuv (o : Orientation) (r : Run (p.ieee simd scalar) src dst sps dps m m')
    (r' : Run (p2.ieee simd2 scalar2) src' dst' sps' dps' n n') (hs : isYuv src.format = false) (hs' : isYuv src'.format = false)
    (hd : isYuv dst.format = true) (ef : dst'.format = dst.format) {i : YuvColorInfo} (hi : dst.color = .YUV i) (hi' : dst'.color = .YUV i)
    (ht : src.color.transfer = i.transfer) (hp : src.color.primaries = i.primaries) (ht' : src'.color.transfer = i.transfer)
    (hp' : src'.color.primaries = i.primaries) (hcs : i.space = .BT601 ∨ i.space = .BT709)
    (ho : Reoriented o (fun c => c = .R ∨ c = .G ∨ c = .B) src src' sps sps' m n)
    (hq : o.transpose = true → hsub dst.format = vsub dst.format) {c : Chan} (hc : c = .Y ∨ c = .U ∨ c = .V) {x y : Nat}
    (hx : x < dst'.width) (hy : y < dst'.height) :
    ∃ a b, sample dst.format dps m' c (o.place dst.width dst.height x y).1 (o.place dst.width dst.height x y).2 = some a ∧
      sample dst.format dps' n' c x y = some b ∧ a ≤ b + 1 ∧ b ≤ a + 1 := by
  obtain ⟨k, hk⟩ : ∃ k, lumaWeights i.space = some k := by rcases hcs with h | h <;> rw [h] <;> exact ⟨_, rfl⟩
  have hst : IsStandard i.space k := ⟨hcs, hk⟩
  have ret := r.returned
  have ret' := r'.returned
  have hsz : (dst'.width, dst'.height) = o.size dst.width dst.height := by
    rw [← ret.width, ← ret.height, ← ret'.width, ← ret'.height]; exact ho.1
  have hpl := place_lt o (w := dst.width) (h := dst.height) (x := x) (y := y) (by rw [← hsz]; exact hx) (by rw [← hsz]; exact hy)
  obtain ⟨lo, up, hb, l1, l2⟩ := some_band p dst.width (o.place dst.width dst.height x y).1
  obtain ⟨lo', up', hb', l1', l2'⟩ := some_band p2 dst'.width x
  obtain ⟨a, ea, a1, a2⟩ := encode_band r hs hd hi ht hp hst hc hpl.1 hpl.2 hb
  obtain ⟨b, eb, b1, b2⟩ := encode_band r' hs' (ef ▸ hd) hi' ht' hp' hst hc hx hy hb'
  rw [ef] at eb b1 b2
  have hV : ∀ c, (c = .R ∨ c = .G ∨ c = .B) → ∀ x y, x < dst'.width → y < dst'.height → shown src'.format sps' n c x y =
      shown src.format sps m c (o.place dst.width dst.height x y).1 (o.place dst.width dst.height x y).2 := by
    intro c hc x y hx hy
    rw [← ret.width, ← ret.height]
    exact shown_reoriented ho hc (ret'.width ▸ hx) (ret'.height ▸ hy)
  have hpix : ∀ x y, x < dst'.width → y < dst'.height → pixelYuv k (shown src'.format sps' n) x y =
      pixelYuv k (shown src.format sps m) (o.place dst.width dst.height x y).1 (o.place dst.width dst.height x y).2 := by
    intro x y hx hy
    rw [pixelYuv, pixelYuv, hV .R (by simp) x y hx hy, hV .G (by simp) x y hx hy, hV .B (by simp) x y hx hy]
  have key : idealYuv k dst.format i.fullRange (shown src.format sps m) c (o.place dst.width dst.height x y).1
      (o.place dst.width dst.height x y).2 = idealYuv k dst.format i.fullRange (shown src'.format sps' n) c x y := by
    rcases hc with rfl | rfl | rfl
    · simp only [idealYuv, hpix x y hx hy]
    · simp only [idealYuv]
      rw [mean_reoriented (g := fun x y => (pixelYuv k (shown src.format sps m) x y).2.1) o hq ret.evenW ret.evenH hsz hx hy fun x y hx hy => by rw [hpix x y hx hy]]
    · simp only [idealYuv]
      rw [mean_reoriented (g := fun x y => (pixelYuv k (shown src.format sps m) x y).2.2) o hq ret.evenW ret.evenH hsz hx hy fun x y hx hy => by rw [hpix x y hx hy]]
  have M2 : ((2 ^ sampleBits dst.format - 1 : Nat) : ℝ) ≤ 4095 := by
    have : 2 ^ sampleBits dst.format - 1 ≤ 4095 := by cases dst.format <;> decide
    exact_mod_cast this
  exact ⟨a, b, ea, eb, one_apart key (e := 5 / 10 ^ 6 * (2 ^ sampleBits dst.format - 1 : Nat)) (by linarith) (by linarith) (by linarith)
    (by linarith) (by linarith)⟩

theorem decode_band (r : Run (p.ieee simd scalar) src dst sps dps m m') (hs : isYuv src.format = true)
    (hd : isYuv dst.format = false) {i : YuvColorInfo} (hi : src.color = .YUV i) (ht : i.transfer = dst.color.transfer)
    (hp : i.primaries = dst.color.primaries) {k : ℝ × ℝ × ℝ} (hk : IsStandard i.space k)
    (hV : InDepth src.format src.width src.height (shown src.format sps m)) {c : Chan} (hc : c = .R ∨ c = .G ∨ c = .B) {x y : Nat}
    (hx : x < dst.width) (hy : y < dst.height) :
    ∃ n, sample dst.format dps m' c x y = some n ∧
      clamp255 (idealRgb k src.format i.fullRange (shown src.format sps m) c x y) - (1 + 1 / 400) ≤ n ∧
      n ≤ clamp255 (idealRgb k src.format i.fullRange (shown src.format sps m) c x y) + (1 / 2 + 1 / 400) := by
  by_cases hT : Truncates p dst.width x
  · obtain ⟨n, e, h1, h2⟩ := C61_decode_floor_partial r hs hd hi ht hp hk.1 hk.2 hV hc hx hy hT
    exact ⟨n, e, by linarith, by linarith⟩
  · obtain ⟨n, e, h⟩ := C61_decode_nearest_partial r hs hd hi ht hp hk.1 hk.2 hV hc hx hy hT
    rw [abs_le] at h
    exact ⟨n, e, by linarith [h.1], by linarith [h.2]⟩

theorem shown_turned {o : Orientation} {ch : Chan → Prop} (ho : Reoriented o ch src src' sps sps' m n) (hw : src.width = dst.width)
    (hh : src.height = dst.height) : ∀ c, ch c → ∀ x y, x < src'.width → y < src'.height → shown src'.format sps' n c x y =
      shown src.format sps m c (o.place dst.width dst.height x y).1 (o.place dst.width dst.height x y).2 := by
  intro c hc x y hx hy
  rw [← hw, ← hh]
  exact shown_reoriented ho hc hx hy

theorem depth_turned {o : Orientation} (hs : isYuv src.format = true) (hs' : isYuv src'.format = true)
    (eb : sampleBits src'.format = sampleBits src.format) (hV : InDepth src.format src.width src.height (shown src.format sps m))
    (ho : Reoriented o (fun c => c = .Y ∨ c = .U ∨ c = .V) src src' sps sps' m n) :
    InDepth src'.format src'.width src'.height (shown src'.format sps' n) := by
  intro c x y l hx hy hl
  have hc : c = .Y ∨ c = .U ∨ c = .V := by revert hl hs'; cases src'.format <;> cases c <;> simp [isYuv, sampleLoc]
  have hpl := place_lt o (w := src.width) (h := src.height) (x := x) (y := y) (by rw [← ho.1]; exact hx) (by rw [← ho.1]; exact hy)
  obtain ⟨l', hl'⟩ : ∃ l, sampleLoc src.format c (o.place src.width src.height x y).1 (o.place src.width src.height x y).2 = some l := by
    revert hs; rcases hc with rfl | rfl | rfl <;> cases src.format <;> simp [isYuv, sampleLoc]
  rw [shown_reoriented ho hc hx hy, eb]
  exact hV c _ _ l' hpl.1 hpl.2 hl'

theorem transcode_band (r : Run (p.ieee simd scalar) src dst sps dps m m') (hs : isYuv src.format = true)
    (hd : isYuv dst.format = true) {i j : YuvColorInfo} (hi : src.color = .YUV i) (hj : dst.color = .YUV j)
    (hn : ¬ (src.format = dst.format ∧ src.color = dst.color)) (ht : i.transfer = j.transfer) (hp : i.primaries = j.primaries)
    {k k' : ℝ × ℝ × ℝ} (hk : IsStandard i.space k) (hk' : IsStandard j.space k')
    {c : Chan} (hc : c = .Y ∨ c = .U ∨ c = .V) {x y : Nat} (hx : x < dst.width) (hy : y < dst.height)
    (hV : InDepth src.format src.width src.height (shown src.format sps m))
    (h0 : 0 ≤ idealRecode k k' src.format dst.format i.fullRange j.fullRange (shown src.format sps m) c x y)
    (h1 : idealRecode k k' src.format dst.format i.fullRange j.fullRange (shown src.format sps m) c x y ≤
      (2 ^ sampleBits dst.format - 1 : Nat)) :
    ∃ n, sample dst.format dps m' c x y = some n ∧
      idealRecode k k' src.format dst.format i.fullRange j.fullRange (shown src.format sps m) c x y -
        (1 + 6 / 10 ^ 5 * (2 ^ sampleBits dst.format - 1 : Nat)) ≤ n ∧
      n ≤ idealRecode k k' src.format dst.format i.fullRange j.fullRange (shown src.format sps m) c x y +
        (1 / 2 + 6 / 10 ^ 5 * (2 ^ sampleBits dst.format - 1 : Nat)) := by
  obtain ⟨v, e, a⟩ := yuv_to_yuv_value r hs hd hi hj hn ht hp hk hk' hc hx hy hV h0 h1
  have M2 : ((2 ^ sampleBits dst.format - 1 : Nat) : ℝ) ≤ 4095 := by
    have : 2 ^ sampleBits dst.format - 1 ≤ 4095 := by cases dst.format <;> decide
    exact_mod_cast this
  have M3 : ((2 ^ sampleBits dst.format - 1 : Nat) : ℝ) ≤ ((yuvStore dst.format).top : ℝ) := by
    have : 2 ^ sampleBits dst.format - 1 ≤ (yuvStore dst.format).top := by cases dst.format <;> decide
    exact_mod_cast this
  refine ⟨_, e, ?_⟩
  by_cases hT : Truncates p dst.width x
  · obtain ⟨h2, h3⟩ := stored_floor (simd := simd) (scalar := scalar) hT (yuvStore dst.format) a h0 (h1.trans M3) (by linarith)
    exact ⟨by linarith, by linarith⟩
  · have h2 := stored_near (simd := simd) (scalar := scalar) hT (yuvStore dst.format) a h0 (h1.trans M3) (by linarith)
    rw [abs_le] at h2
    exact ⟨by linarith [h2.1], by linarith [h2.2]⟩

/-- **C82**, YUV to RGB (BT.601 and BT.709, without a change of transfer function or primaries, samples within their depth; the layouts
of the two YUV images may differ, since not all can be turned). -/
theorem C82_yuv_to_rgb (o : Orientation) (r : Run (p.ieee simd scalar) src dst sps dps m m')
    (r' : Run (p2.ieee simd2 scalar2) src' dst' sps' dps' n n') (hs : isYuv src.format = true) (hs' : isYuv src'.format = true)
    (eb : sampleBits src'.format = sampleBits src.format) (hd : isYuv dst.format = false) (hd' : isYuv dst'.format = false)
    {i : YuvColorInfo} (hi : src.color = .YUV i) (hi' : src'.color = .YUV i)
    (ht : i.transfer = dst.color.transfer) (hp : i.primaries = dst.color.primaries) (ht' : i.transfer = dst'.color.transfer)
    (hp' : i.primaries = dst'.color.primaries) (hcs : i.space = .BT601 ∨ i.space = .BT709)
    (hV : InDepth src.format src.width src.height (shown src.format sps m))
    (ho : Reoriented o (fun c => c = .Y ∨ c = .U ∨ c = .V) src src' sps sps' m n) {c : Chan} (hc : c = .R ∨ c = .G ∨ c = .B) {x y : Nat}
    (hx : x < dst'.width) (hy : y < dst'.height) :
    ∃ a b, sample dst.format dps m' c (o.place dst.width dst.height x y).1 (o.place dst.width dst.height x y).2 = some a ∧
      sample dst'.format dps' n' c x y = some b ∧ a ≤ b + 1 ∧ b ≤ a + 1 := by
  obtain ⟨k, hk⟩ : ∃ k, lumaWeights i.space = some k := by rcases hcs with h | h <;> rw [h] <;> exact ⟨_, rfl⟩
  have hst : IsStandard i.space k := ⟨hcs, hk⟩
  have ret := r.returned
  have ret' := r'.returned
  have hsz : (dst'.width, dst'.height) = o.size dst.width dst.height := by
    rw [← ret.width, ← ret.height, ← ret'.width, ← ret'.height]; exact ho.1
  have hpl := place_lt o (w := dst.width) (h := dst.height) (x := x) (y := y) (by rw [← hsz]; exact hx) (by rw [← hsz]; exact hy)
  have hsh := shown_turned ho ret.width ret.height
  have hV' := depth_turned hs hs' eb hV ho
  obtain ⟨a, ea, a1, a2⟩ := decode_band r hs hd hi ht hp hst hV hc hpl.1 hpl.2
  obtain ⟨b, eb', b1, b2⟩ := decode_band r' hs' hd' hi' ht' hp' hst hV' hc hx hy
  refine ⟨a, b, ea, eb', one_apart (e := 1 / 400) ?_ (by norm_num) a1 a2 b1 b2⟩
  have hx' : x < src'.width := ret'.width ▸ hx
  have hy' : y < src'.height := ret'.height ▸ hy
  rcases hc with rfl | rfl | rfl <;>
    simp only [idealRgb, hsh .Y (by simp) x y hx' hy', hsh .U (by simp) x y hx' hy', hsh .V (by simp) x y hx' hy', eb]

/-- **C82**, YUV to YUV (BT.601 and BT.709, without a change of transfer function or primaries, samples within their depth and ideal codes
within that of the destination, see C51). -/
theorem C82_yuv_to_yuv (o : Orientation) (r : Run (p.ieee simd scalar) src dst sps dps m m')
    (r' : Run (p2.ieee simd2 scalar2) src' dst' sps' dps' n n') (hs : isYuv src.format = true) (hs' : isYuv src'.format = true)
    (eb : sampleBits src'.format = sampleBits src.format) (hd : isYuv dst.format = true) (ef : dst'.format = dst.format)
    {i j : YuvColorInfo} (hi : src.color = .YUV i) (hi' : src'.color = .YUV i) (hj : dst.color = .YUV j) (hj' : dst'.color = .YUV j)
    (hn : ¬ (src.format = dst.format ∧ i = j)) (hn' : ¬ (src'.format = dst.format ∧ i = j))
    (ht : i.transfer = j.transfer) (hp : i.primaries = j.primaries) (hcs : i.space = .BT601 ∨ i.space = .BT709)
    (hcs' : j.space = .BT601 ∨ j.space = .BT709) {k k' : ℝ × ℝ × ℝ} (hk : lumaWeights i.space = some k) (hk' : lumaWeights j.space = some k')
    (hV : InDepth src.format src.width src.height (shown src.format sps m))
    (ho : Reoriented o (fun c => c = .Y ∨ c = .U ∨ c = .V) src src' sps sps' m n)
    (hq : o.transpose = true → hsub dst.format = vsub dst.format) {c : Chan} (hc : c = .Y ∨ c = .U ∨ c = .V) {x y : Nat}
    (hx : x < dst'.width) (hy : y < dst'.height)
    (h0 : 0 ≤ idealRecode k k' src.format dst.format i.fullRange j.fullRange (shown src.format sps m) c
      (o.place dst.width dst.height x y).1 (o.place dst.width dst.height x y).2)
    (h1 : idealRecode k k' src.format dst.format i.fullRange j.fullRange (shown src.format sps m) c
      (o.place dst.width dst.height x y).1 (o.place dst.width dst.height x y).2 ≤ (2 ^ sampleBits dst.format - 1 : Nat)) :
    ∃ a b, sample dst.format dps m' c (o.place dst.width dst.height x y).1 (o.place dst.width dst.height x y).2 = some a ∧
      sample dst.format dps' n' c x y = some b ∧ a ≤ b + 1 ∧ b ≤ a + 1 := by
  have hst : IsStandard i.space k := ⟨hcs, hk⟩
  have hst' : IsStandard j.space k' := ⟨hcs', hk'⟩
  have ret := r.returned
  have ret' := r'.returned
  have hsz : (dst'.width, dst'.height) = o.size dst.width dst.height := by
    rw [← ret.width, ← ret.height, ← ret'.width, ← ret'.height]; exact ho.1
  have hpl := place_lt o (w := dst.width) (h := dst.height) (x := x) (y := y) (by rw [← hsz]; exact hx) (by rw [← hsz]; exact hy)
  have hsh := shown_turned ho ret.width ret.height
  have hV' := depth_turned hs hs' eb hV ho
  have hpix : ∀ x y, x < dst'.width → y < dst'.height → recoded k k' src'.format i.fullRange (shown src'.format sps' n) x y =
      recoded k k' src.format i.fullRange (shown src.format sps m) (o.place dst.width dst.height x y).1 (o.place dst.width dst.height x y).2 := by
    intro x y hx hy
    rw [← ret'.width] at hx
    rw [← ret'.height] at hy
    simp only [recoded, hsh .Y (by simp) x y hx hy, hsh .U (by simp) x y hx hy, hsh .V (by simp) x y hx hy, eb]
  have key : idealRecode k k' src.format dst.format i.fullRange j.fullRange (shown src.format sps m) c (o.place dst.width dst.height x y).1
      (o.place dst.width dst.height x y).2 =
      idealRecode k k' src'.format dst.format i.fullRange j.fullRange (shown src'.format sps' n) c x y := by
    rcases hc with rfl | rfl | rfl
    · simp only [idealRecode, hpix x y hx hy]
    · simp only [idealRecode]
      rw [mean_reoriented (g := fun x y => (recoded k k' src.format i.fullRange (shown src.format sps m) x y).2.1) o hq ret.evenW
        ret.evenH hsz hx hy fun x y hx hy => by rw [hpix x y hx hy]]
    · simp only [idealRecode]
      rw [mean_reoriented (g := fun x y => (recoded k k' src.format i.fullRange (shown src.format sps m) x y).2.2) o hq ret.evenW
        ret.evenH hsz hx hy fun x y hx hy => by rw [hpix x y hx hy]]
  have M2 : ((2 ^ sampleBits dst.format - 1 : Nat) : ℝ) ≤ 4095 := by
    have : 2 ^ sampleBits dst.format - 1 ≤ 4095 := by cases dst.format <;> decide
    exact_mod_cast this
  obtain ⟨a, ea, a1, a2⟩ := transcode_band r hs hd hi hj (fun h => hn ⟨h.1, by have := h.2; rw [hi, hj] at this; injection this⟩) ht hp hst
    hst' hc hpl.1 hpl.2 hV h0 h1
  have b := transcode_band r' hs' (ef ▸ hd) hi' hj' (fun h => hn' ⟨h.1.trans ef, by have := h.2; rw [hi', hj'] at this; injection this⟩) ht hp
    hst hst' hc hx hy hV' (by rw [ef, ← key]; exact h0) (by rw [ef, ← key]; exact h1)
  rw [ef] at b
  obtain ⟨b, eb', b1, b2⟩ := b
  exact ⟨a, b, ea, eb', one_apart key (e := 6 / 10 ^ 5 * (2 ^ sampleBits dst.format - 1 : Nat)) (by linarith) a1 a2 b1 b2⟩

/-- Any RGB image of 4×2 pixels and the same image turned by a quarter, to NV12 on AVX2 and on NEON. -/
example (simd scalar : Libm) (m n : Mem)
    (h : ∀ c x y, (c = .R ∨ c = .G ∨ c = .B) → x < 2 → y < 4 →
      sample .RGB [⟨⟨0, 24⟩, 6⟩] n c x y = sample .RGB [⟨⟨0, 24⟩, 12⟩] m c y (1 - x)) : ∃ m' n' a b,
    sample .NV12 [⟨⟨100, 8⟩, 4⟩, ⟨⟨108, 4⟩, 4⟩] m' .U 3 1 = some a ∧
    sample .NV12 [⟨⟨200, 8⟩, 2⟩, ⟨⟨208, 4⟩, 2⟩] n' .U 0 3 = some b ∧ a ≤ b + 1 ∧ b ≤ a + 1 := by
  obtain ⟨m', r⟩ := run_exists (c := Platform.avx2.ieee simd scalar) (platform_lawful .avx2 _ _)
    (src := .raw .RGB 4 2 [⟨⟨0, 24⟩, 12⟩] (.RGB ⟨.SDR, .BT709⟩))
    (dst := .raw .NV12 4 2 [⟨⟨100, 8⟩, 4⟩, ⟨⟨108, 4⟩, 4⟩] (.YUV ⟨.SDR, .BT709, .BT709, false⟩))
    (sps := [⟨⟨0, 24⟩, 12⟩]) (dps := [⟨⟨100, 8⟩, 4⟩, ⟨⟨108, 4⟩, 4⟩]) rfl rfl
    (planesDisjoint_of (by decide)) (separate_of (by decide)) (uniform_of (by decide)) (by decide) m
  obtain ⟨n', r'⟩ := run_exists (c := Platform.neon.ieee simd scalar) (platform_lawful .neon _ _)
    (src := .raw .RGB 2 4 [⟨⟨0, 24⟩, 6⟩] (.RGB ⟨.SDR, .BT709⟩))
    (dst := .raw .NV12 2 4 [⟨⟨200, 8⟩, 2⟩, ⟨⟨208, 4⟩, 2⟩] (.YUV ⟨.SDR, .BT709, .BT709, false⟩))
    (sps := [⟨⟨0, 24⟩, 6⟩]) (dps := [⟨⟨200, 8⟩, 2⟩, ⟨⟨208, 4⟩, 2⟩]) rfl rfl
    (planesDisjoint_of (by decide)) (separate_of (by decide)) (uniform_of (by decide)) (by decide) n
  obtain ⟨a, b, h1⟩ := C82_rgb_to_yuv ⟨true, false, true⟩ r r' rfl rfl rfl rfl rfl rfl rfl rfl rfl rfl (.inr rfl) ⟨rfl, h⟩ (fun _ => rfl)
    (c := .U) (by simp) (x := 0) (y := 3) (by decide) (by decide)
  exact ⟨m', n', a, b, h1⟩

/-- Such an image exists. -/
example : ∃ m n : Mem, ∀ c x y, (c = .R ∨ c = .G ∨ c = .B) → x < 2 → y < 4 →
    sample .RGB [⟨⟨0, 24⟩, 6⟩] n c x y = sample .RGB [⟨⟨0, 24⟩, 12⟩] m c y (1 - x) := by
  refine ⟨fun a => (3 * a : Nat).toUInt8, fun a => (3 * ((1 - a % 6 / 3) * 12 + a / 6 * 3 + a % 3) : Nat).toUInt8, ?_⟩
  intro c x y hc hx hy
  have hx : x = 0 ∨ x = 1 := by omega
  have hy : y = 0 ∨ y = 1 ∨ y = 2 ∨ y = 3 := by omega
  rcases hc with rfl | rfl | rfl <;> rcases hx with rfl | rfl <;> rcases hy with rfl | rfl | rfl | rfl <;> decide

/-- An I420 image upside down, to RGB by NEON and by AVX-512. -/
example (simd scalar : Libm) (m n : Mem)
    (h : ∀ c x y, (c = .Y ∨ c = .U ∨ c = .V) → x < 2 → y < 2 →
      sample .I420 [⟨⟨0, 4⟩, 2⟩, ⟨⟨4, 1⟩, 1⟩, ⟨⟨5, 1⟩, 1⟩] n c x y = sample .NV12 [⟨⟨0, 4⟩, 2⟩, ⟨⟨4, 2⟩, 2⟩] m c x (1 - y)) : ∃ m' n' a b,
    sample .RGB [⟨⟨100, 12⟩, 6⟩] m' .G 1 0 = some a ∧ sample .BGRA [⟨⟨200, 16⟩, 8⟩] n' .G 1 1 = some b ∧ a ≤ b + 1 ∧ b ≤ a + 1 := by
  obtain ⟨m', r⟩ := run_exists (c := Platform.neon.ieee simd scalar) (platform_lawful .neon _ _)
    (src := .raw .NV12 2 2 [⟨⟨0, 4⟩, 2⟩, ⟨⟨4, 2⟩, 2⟩] (.YUV ⟨.SDR, .BT709, .BT709, false⟩))
    (dst := .raw .RGB 2 2 [⟨⟨100, 12⟩, 6⟩] (.RGB ⟨.SDR, .BT709⟩))
    (sps := [⟨⟨0, 4⟩, 2⟩, ⟨⟨4, 2⟩, 2⟩]) (dps := [⟨⟨100, 12⟩, 6⟩]) rfl rfl
    (planesDisjoint_of (by decide)) (separate_of (by decide)) (uniform_of (by decide)) (by decide) m
  obtain ⟨n', r'⟩ := run_exists (c := Platform.avx512.ieee simd scalar) (platform_lawful .avx512 _ _)
    (src := .raw .I420 2 2 [⟨⟨0, 4⟩, 2⟩, ⟨⟨4, 1⟩, 1⟩, ⟨⟨5, 1⟩, 1⟩] (.YUV ⟨.SDR, .BT709, .BT709, false⟩))
    (dst := .raw .BGRA 2 2 [⟨⟨200, 16⟩, 8⟩] (.RGB ⟨.SDR, .BT709⟩))
    (sps := [⟨⟨0, 4⟩, 2⟩, ⟨⟨4, 1⟩, 1⟩, ⟨⟨5, 1⟩, 1⟩]) (dps := [⟨⟨200, 16⟩, 8⟩]) rfl rfl
    (planesDisjoint_of (by decide)) (separate_of (by decide)) (uniform_of (by decide)) (by decide) n
  obtain ⟨a, b, h1⟩ := C82_yuv_to_rgb ⟨false, false, true⟩ r r' rfl rfl rfl rfl rfl rfl rfl rfl rfl rfl rfl (.inr rfl)
    (fun c x y l _ _ _ => shown_le rfl ..) ⟨rfl, h⟩ (c := .G) (by simp) (x := 1) (y := 1) (by decide) (by decide)
  exact ⟨m', n', a, b, h1⟩

end Ezk.Props

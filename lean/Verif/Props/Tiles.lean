import Verif.Proofs.Tiles
import Verif.Props.Window

/-!
# C66: an image may be converted tile by tile
-/

namespace Ezk.Props
open Ezk F32 Spec

section
variable {F : Type} [FOps F]

/-- Parts of `src` are converted into the same parts of `dst`, one after the other. -/
inductive Tiled (c : Cpu F) (src dst : Img) : List Window → Mem → Mem → Prop
  | nil (m : Mem) : Tiled c src dst [] m m
  | cons {win : Window} {wins : List Window} {s d : Img} {m m' m'' : Mem} (hs : src.crop win = .ok (.ok s))
      (hd : dst.crop win = .ok (.ok d)) (h : convert c s d m = .ok (.ok (), m')) (ht : Tiled c src dst wins m' m'') :
      Tiled c src dst (win :: wins) m m''

/-- The windows start at even columns and rows (chroma cells are not cut), in row 0 if there are 16-bit samples (see C08). -/
def Tile (sf df : PixelFormat) (win : Window) : Prop :=
  win.x % 2 = 0 ∧ win.y % 2 = 0 ∧ (sampleBytes sf = 1 ∧ sampleBytes df = 1 ∨ win.y = 0)

variable {c : Cpu F} {src dst : Img} {sps dps : List Plane} {m mo mt : Mem} {wins : List Window}

theorem sample_same {f : PixelFormat} {ps : List Plane} {m m' : Mem} {ch : Chan} {x y : Nat}
    (h : ∀ l b k, sampleLoc f ch x y = some l → locAddr ps l = some b → k < sampleBytes f → m' (b + k) = m (b + k)) :
    sample f ps m' ch x y = sample f ps m ch x y := by
  rw [sample, sample]
  cases hl : sampleLoc f ch x y with
  | none => rfl
  | some l =>
    rw [Option.bind_some]
    cases hb : locAddr ps l with
    | none => rfl
    | some b =>
      have h12 : sampleBytes f = 1 ∨ sampleBytes f = 2 := by cases f <;> simp [sampleBytes]
      have h0 := h l b 0 hl hb (by omega)
      rw [Nat.add_zero] at h0
      simp only [Option.map_some, sampleVal]
      split
      · rw [h0]
      · rw [h0, h l b 1 hl hb (by omega)]

theorem planes_of_convert {c : Cpu F} {s d : Img} {m m' : Mem} (h : convert c s d m = .ok (.ok (), m')) :
    (∃ sqs, s.planes = .ok sqs) ∧ ∃ dqs, d.planes = .ok dqs := by
  have hv := C12_returns_verdict h
  have hs : s.boundsCheck = .ok (.ok ()) ∧ d.boundsCheck = .ok (.ok ()) := by
    revert hv
    rw [verdict]
    split
    · intro h; cases h
    split
    · intro h; cases h
    split
    · simp only [firstProblem, checkBounds, bind, Except.bind, pure, Except.pure]
      rcases s.boundsCheck with _ | (_ | ⟨⟨⟩⟩) <;> rcases d.boundsCheck with _ | (_ | ⟨⟨⟩⟩) <;> simp
    · simp only [firstProblem, checkBounds, checkColor, bind, Except.bind, pure, Except.pure]
      rcases s.boundsCheck with _ | (_ | ⟨⟨⟩⟩) <;> rcases d.boundsCheck with _ | (_ | ⟨⟨⟩⟩) <;>
        cases isYuv s.format <;> cases isYuv d.format <;> cases s.color <;> cases d.color <;> simp
  exact ⟨boundsCheck_planes hs.1, boundsCheck_planes hs.2⟩

/-- What one tile does. -/
theorem tile_step (r : Run c src dst sps dps m mo) (hls : ∀ p ∈ sps, p.slice.len < 2 ^ 64) (hld : ∀ p ∈ dps, p.slice.len < 2 ^ 64)
    {win : Window} (ht : Tile src.format dst.format win) {s d : Img} {m1 m2 : Mem} (hs : src.crop win = .ok (.ok s))
    (hd : dst.crop win = .ok (.ok d)) (h : convert c s d m1 = .ok (.ok (), m2)) :
    (∃ sqs dqs, Run c (.cropped src win) (.cropped dst win) sqs dqs m1 m2 ∧
      (∀ n ch i j, sample src.format sqs n ch i j = sample src.format sps n ch (win.x + i) (win.y + j)) ∧
      (∀ n ch i j, sample dst.format dqs n ch i j = sample dst.format dps n ch (win.x + i) (win.y + j))) ∧
    (∀ a, ¬ SampleByte dst.format dps dst.width dst.height a → m2 a = m1 a) ∧
    (∀ ch x y, x < dst.width → y < dst.height → ¬ InWindow win x y → sample dst.format dps m2 ch x y = sample dst.format dps m1 ch x y) := by
  obtain ⟨-, hsin, rfl⟩ := crop_ok_inv hs
  obtain ⟨-, hdin, rfl⟩ := crop_ok_inv hd
  obtain ⟨⟨sqs, hsq⟩, dqs, hdq⟩ := planes_of_convert h
  obtain ⟨hx, hy, hby⟩ := ht
  have h16s : sampleBytes src.format = 1 ∨ win.y = 0 := hby.imp_left And.left
  have h16d : sampleBytes dst.format = 1 ∨ win.y = 0 := hby.imp_left And.right
  have r' : Run c (.cropped src win) (.cropped dst win) sqs dqs m1 m2 := ⟨r.lawful, hsq, hdq,
    crop_disjoint (t := dst) r.dstPlanes hld hdq r.disjoint,
    crop_separate (t := dst) (s := src) r.dstPlanes hld hdq r.srcPlanes hls hsq r.separate,
    crop_uniform (t := src) r.srcPlanes hls hsq r.uniform, h⟩
  have hw : win.width % 2 = 0 := r'.returned.evenW
  have hh : win.height % 2 = 0 := r'.returned.evenH
  have frame : ∀ a, ¬ SampleByte dst.format dqs win.width win.height a → m2 a = m1 a := fun a ha =>
    C15_frame r.lawful hsq hdq h a ha
  refine ⟨⟨sqs, dqs, r', fun n => crop_sample r.srcPlanes hls hsq hx hy h16s n, fun n => crop_sample r.dstPlanes hld hdq hx hy h16d n⟩,
    fun a ha => frame a (not_sampleByte_parent r.dstPlanes hld hdq hdin hx hy h16d ha), ?_⟩
  intro ch x y hX hY hout
  refine sample_same fun l b k hl hb hk => frame _ ?_
  exact not_sampleByte_crop r.dstPlanes hld hdq r.returned.vdst.fits r.disjoint r.returned.evenW r.returned.evenH hdin hx hy hw hh h16d
    hX hY hl hb hk hout

/-- The source is not changed by stores to samples of the destination. -/
theorem source_kept (r : Run c src dst sps dps m mo) {m1 m2 : Mem}
    (h : ∀ a, ¬ SampleByte dst.format dps dst.width dst.height a → m2 a = m1 a) (ch : Chan) {x y : Nat} (hx : x < src.width)
    (hy : y < src.height) : sample src.format sps m2 ch x y = sample src.format sps m1 ch x y := by
  refine sample_same fun l b k hl hb hk => h _ ?_
  rintro ⟨ch', i, j, l', b', k', hi, hj, hl', hb', hk', e⟩
  have d := inDom_of_loc (by rw [r.returned.width]; exact r.returned.evenW) (by rw [r.returned.height]; exact r.returned.evenH) hx hy hl hk
  have d' := inDom_of_loc r.returned.evenW r.returned.evenH hi hj hl' hk'
  rw [locAddr, Option.map_eq_some_iff] at hb hb'
  obtain ⟨p, hp, rfl⟩ := hb
  obtain ⟨p', hp', rfl⟩ := hb'
  obtain ⟨a1, a2⟩ := d.inside r.returned.vsrc.fits hp
  obtain ⟨b1, b2⟩ := d'.inside r.returned.vdst.fits hp'
  rw [Plane.at] at a1 a2 b1 b2
  exact r.separate _ _ p p' d.plane d'.plane hp hp' (p.slice.addr + l.row * p.stride + l.col + k) (by omega) (by omega) (by omega) (by omega)

/-- Converted tiles have even sizes. -/
theorem tile_even {m1 : Mem} (t : Tiled c src dst wins m1 mt) {win : Window} (hw : win ∈ wins) : win.width % 2 = 0 := by
  induction t with
  | nil => cases hw
  | @cons w wins s d m1 m2 mt hs hd h t ih =>
    rcases List.mem_cons.1 hw with rfl | hw
    · obtain ⟨-, -, rfl⟩ := crop_ok_inv hs
      obtain ⟨-, -, rfl⟩ := crop_ok_inv hd
      obtain ⟨⟨sqs, hsq⟩, dqs, hdq⟩ := planes_of_convert h
      exact (Ezk.returned h hsq hdq).evenW
    · exact ih hw

/-- What all tiles do. `m1` is the memory before the first of them. -/
theorem tiles_do (r : Run c src dst sps dps m mo) (hls : ∀ p ∈ sps, p.slice.len < 2 ^ 64) (hld : ∀ p ∈ dps, p.slice.len < 2 ^ 64)
    {m1 : Mem} (t : Tiled c src dst wins m1 mt) (ht : ∀ win ∈ wins, Tile src.format dst.format win)
    (hsrc : ∀ ch x y, x < src.width → y < src.height → sample src.format sps m1 ch x y = sample src.format sps m ch x y) :
    (∀ a, ¬ SampleByte dst.format dps dst.width dst.height a → mt a = m1 a) ∧
    ∀ x y, x < dst.width → y < dst.height →
      ((∀ win ∈ wins, ¬ InWindow win x y) → ∀ ch, sample dst.format dps mt ch x y = sample dst.format dps m1 ch x y) ∧
      ((∃ win ∈ wins, InWindow win x y) → ∃ win ∈ wins, InWindow win x y ∧ WindowInside win dst.width dst.height ∧ ∃ sqs dqs n no,
        Run c (.cropped src win) (.cropped dst win) sqs dqs n no ∧
        ShowsWindow src.format sqs n sps m win.x win.y win.width win.height ∧
        ∀ ch, sample dst.format dps mt ch x y = sample dst.format dqs no ch (x - win.x) (y - win.y)) := by
  induction t with
  | nil m1 => exact ⟨fun _ _ => rfl, fun x y _ _ => ⟨fun _ _ => rfl, by rintro ⟨_, h, _⟩; cases h⟩⟩
  | @cons win wins s d m1 m2 mt hs hd h t ih =>
    obtain ⟨⟨sqs, dqs, r', es, ed⟩, f1, f2⟩ := tile_step r hls hld (ht win (List.mem_cons_self ..)) hs hd h
    obtain ⟨-, hsin, -⟩ := crop_ok_inv hs
    obtain ⟨-, hdin, -⟩ := crop_ok_inv hd
    obtain ⟨g1, g2⟩ := ih (fun w hw => ht w (List.mem_cons_of_mem _ hw))
      (fun ch x y hx hy => (source_kept r f1 ch hx hy).trans (hsrc ch x y hx hy))
    refine ⟨fun a ha => (g1 a ha).trans (f1 a ha), fun x y hx hy => ⟨fun hno ch => ?_, ?_⟩⟩
    · rw [(g2 x y hx hy).1 (fun w hw => hno w (List.mem_cons_of_mem _ hw)) ch, f2 ch x y hx hy (hno win (List.mem_cons_self ..))]
    · rintro ⟨w, hw, hin⟩
      by_cases hlater : ∃ w ∈ wins, InWindow w x y
      · obtain ⟨w', hw', rest⟩ := (g2 x y hx hy).2 hlater
        exact ⟨w', List.mem_cons_of_mem _ hw', rest⟩
      · have hw' : w = win := by
          rcases List.mem_cons.1 hw with rfl | hw
          · rfl
          · exact absurd ⟨w, hw, hin⟩ hlater
        subst hw'
        refine ⟨w, List.mem_cons_self .., hin, hdin, sqs, dqs, m1, m2, r', ?_, ?_⟩
        · intro ch i j hi hj
          rw [es m1, hsrc ch _ _ (by have := hsin.1; omega) (by have := hsin.2.1; omega)]
        · intro ch
          rw [(g2 x y hx hy).1 (fun w hw h => hlater ⟨w, hw, h⟩) ch, ed m2]
          obtain ⟨a1, a2, a3, a4⟩ := hin
          rw [show w.x + (x - w.x) = x by omega, show w.y + (y - w.y) = y by omega]

/-- **C66** (partial: not for 4:4:4 sources whose planes have different strides, not for 4:2:0 destinations with an ICtCp colour space,
16-bit samples only with windows in row 0). Parts of an image are converted one after the other, in any order, possibly overlapping:
pixels of these parts get the samples they get if the image is converted as a whole, if their columns are computed by the same code;
all others keep what they had, and so do all bytes that belong to no pixel. -/
theorem C66_tiles_partial (r : Run c src dst sps dps m mo) (hls : ∀ p ∈ sps, p.slice.len < 2 ^ 64)
    (hld : ∀ p ∈ dps, p.slice.len < 2 ^ 64) (hb : ¬ BadChroma src.format src.color dst.format dst.color)
    (ht : ∀ win ∈ wins, Tile src.format dst.format win) (t : Tiled c src dst wins m mt) :
    (∀ ch x y, x < dst.width → y < dst.height → (∃ win ∈ wins, InWindow win x y) →
      (∀ win ∈ wins, InWindow win x y → SameCode c.vec.LEN win.width (x - win.x) dst.width x) →
      sample dst.format dps mt ch x y = sample dst.format dps mo ch x y) ∧
    (∀ ch x y, x < dst.width → y < dst.height → (∀ win ∈ wins, ¬ InWindow win x y) →
      sample dst.format dps mt ch x y = sample dst.format dps m ch x y) ∧
    ∀ a, ¬ SampleByte dst.format dps dst.width dst.height a → mt a = m a := by
  obtain ⟨g1, g2⟩ := tiles_do r hls hld t ht (fun _ _ _ _ _ => rfl)
  refine ⟨fun ch x y hx hy hcov hcode => ?_, fun ch x y hx hy hno => (g2 x y hx hy).1 hno ch, g1⟩
  obtain ⟨win, hw, hin, hins, sqs, dqs, n, no, r', hsh, e⟩ := (g2 x y hx hy).2 hcov
  obtain ⟨hx0, hy0, -⟩ := ht win hw
  have hc := hcode win hw hin
  obtain ⟨a1, a2, a3, a4⟩ := hin
  have ex : win.x + (x - win.x) = x := by omega
  have ey : win.y + (y - win.y) = y := by omega
  have := C59_window_partial r r' rfl rfl rfl rfl hb hx0 hy0 hins.1 hins.2.1 hsh (ch := ch) (i := x - win.x) (j := y - win.y)
    (show x - win.x < win.width by omega) (show y - win.y < win.height by omega) (by rw [ex]; exact hc)
  rw [e ch, this, ex, ey]

/-- The same code is used in all columns: without vectors, or if the vectors (of two pixels each) fit in all widths. -/
def VectorsFit (len : Nat) (w : Nat) (wins : List Window) : Prop :=
  len = 1 ∨ w % (len * 2) = 0 ∧ ∀ win ∈ wins, win.width % (len * 2) = 0

/-- **C66** (partial: as before). If the tiles cover the image and vectors fit in their widths, memory is afterwards the same as if the
image had been converted as a whole. -/
theorem C66_cover_partial (r : Run c src dst sps dps m mo) (hls : ∀ p ∈ sps, p.slice.len < 2 ^ 64)
    (hld : ∀ p ∈ dps, p.slice.len < 2 ^ 64) (hb : ¬ BadChroma src.format src.color dst.format dst.color)
    (ht : ∀ win ∈ wins, Tile src.format dst.format win) (t : Tiled c src dst wins m mt)
    (hcov : ∀ x y, x < dst.width → y < dst.height → ∃ win ∈ wins, InWindow win x y)
    (hfit : VectorsFit c.vec.LEN dst.width wins) : mt = mo := by
  obtain ⟨h1, -, h3⟩ := C66_tiles_partial r hls hld hb ht t
  obtain ⟨-, g2⟩ := tiles_do r hls hld t ht (fun _ _ _ _ _ => rfl)
  funext a
  by_cases ha : SampleByte dst.format dps dst.width dst.height a
  · obtain ⟨ch, x, y, l, b, k, hx, hy, hl, hb', hk, rfl⟩ := ha
    have hcode : ∀ win ∈ wins, InWindow win x y → SameCode c.vec.LEN win.width (x - win.x) dst.width x := by
      intro win hw hin
      obtain ⟨i1, i2, i3, i4⟩ := hin
      unfold SameCode
      rcases hfit with e | ⟨e1, e2⟩
      · rw [e]
        have := r.returned.evenW
        have hw2 : win.width % 2 = 0 := tile_even t hw
        omega
      · rw [e1, e2 win hw]
        omega
    have := h1 ch x y hx hy (hcov x y hx hy) hcode
    rw [sample, sample, hl, Option.bind_some, hb', Option.map_some, Option.map_some, Option.some.injEq, sampleVal, sampleVal] at this
    have h12 : sampleBytes dst.format = 1 ∨ sampleBytes dst.format = 2 := by cases dst.format <;> simp [sampleBytes]
    split at this
    · obtain rfl : k = 0 := by omega
      exact UInt8.toNat_inj.1 this
    · have l1 := (mt b).toNat_lt
      have l2 := (mo b).toNat_lt
      obtain rfl | rfl : k = 0 ∨ k = 1 := by omega
      · exact UInt8.toNat_inj.1 (by rw [Nat.add_zero]; omega)
      · exact UInt8.toNat_inj.1 (by omega)
  · rw [h3 a ha, C15_frame r.lawful r.srcPlanes r.dstPlanes r.ok a ha]

end

/-! ## Columns computed by different code -/

variable {p : Platform} {simd scalar : Libm} {src dst : Img} {sps dps : List Plane} {m mo mt : Mem} {wins : List Window}

/-- **C66**, RGB to YUV (partial: matrix colour spaces, no change of transfer function and primaries; 16-bit samples only with windows in
row 0). Whatever the widths of the tiles, their samples differ from those of the image converted as a whole by at most one code. -/
theorem C66_one_code_partial (r : Run (p.ieee simd scalar) src dst sps dps m mo) (hls : ∀ p ∈ sps, p.slice.len < 2 ^ 64)
    (hld : ∀ p ∈ dps, p.slice.len < 2 ^ 64) (ht : ∀ win ∈ wins, Tile src.format dst.format win)
    (t : Tiled (p.ieee simd scalar) src dst wins m mt)
    (hs : isYuv src.format = false) (hd : isYuv dst.format = true) {k : YuvColorInfo} {k' : RgbColorInfo} (hk' : src.color = .RGB k')
    (hk : dst.color = .YUV k) (hm : isMatrix k.space = true) (htr : k'.transfer = k.transfer) (hp : k'.primaries = k.primaries)
    {ch : Chan} (hch : ch = .Y ∨ ch = .U ∨ ch = .V) {x y : Nat} (hx : x < dst.width) (hy : y < dst.height)
    (hcov : ∃ win ∈ wins, InWindow win x y) :
    ∃ a b, sample dst.format dps mt ch x y = some a ∧ sample dst.format dps mo ch x y = some b ∧ a ≤ b + 1 ∧ b ≤ a + 1 := by
  obtain ⟨-, g2⟩ := tiles_do r hls hld t ht (fun _ _ _ _ _ => rfl)
  obtain ⟨win, hw, ⟨a1, a2, a3, a4⟩, hins, sqs, dqs, n, no, r', hsh, e⟩ := (g2 x y hx hy).2 hcov
  obtain ⟨hx0, hy0, -⟩ := ht win hw
  have := C59_one_code_partial r r' rfl rfl rfl rfl hs hd hk' hk hm htr hp hx0 hy0 hins.1 hins.2.1 hsh hch (i := x - win.x) (j := y - win.y)
    (show x - win.x < win.width by omega) (show y - win.y < win.height by omega)
  rwa [show win.x + (x - win.x) = x by omega, show win.y + (y - win.y) = y by omega, ← e ch] at this

/-- **C66**, YUV to RGB (partial: as before, samples within their depth). -/
theorem C66_one_code_rgb_partial (r : Run (p.ieee simd scalar) src dst sps dps m mo) (hls : ∀ p ∈ sps, p.slice.len < 2 ^ 64)
    (hld : ∀ p ∈ dps, p.slice.len < 2 ^ 64) (ht : ∀ win ∈ wins, Tile src.format dst.format win)
    (t : Tiled (p.ieee simd scalar) src dst wins m mt)
    (hs : isYuv src.format = true) (hd : isYuv dst.format = false) {k : YuvColorInfo} {k' : RgbColorInfo} (hk : src.color = .YUV k)
    (hk' : dst.color = .RGB k') (hm : isMatrix k.space = true) (htr : k.transfer = k'.transfer) (hp : k.primaries = k'.primaries)
    (hV : InDepth src.format src.width src.height (shown src.format sps m))
    {ch : Chan} (hch : ch = .R ∨ ch = .G ∨ ch = .B) {x y : Nat} (hx : x < dst.width) (hy : y < dst.height)
    (hcov : ∃ win ∈ wins, InWindow win x y) :
    ∃ a b, sample dst.format dps mt ch x y = some a ∧ sample dst.format dps mo ch x y = some b ∧ a ≤ b + 1 ∧ b ≤ a + 1 := by
  obtain ⟨-, g2⟩ := tiles_do r hls hld t ht (fun _ _ _ _ _ => rfl)
  obtain ⟨win, hw, ⟨a1, a2, a3, a4⟩, hins, sqs, dqs, n, no, r', hsh, e⟩ := (g2 x y hx hy).2 hcov
  obtain ⟨hx0, hy0, -⟩ := ht win hw
  have := C59_one_code_rgb_partial r r' rfl rfl rfl rfl hs hd hk hk' hm htr hp hV hx0 hy0 hins.1 hins.2.1 hsh hch
    (i := x - win.x) (j := y - win.y) (show x - win.x < win.width by omega) (show y - win.y < win.height by omega)
  rwa [show win.x + (x - win.x) = x by omega, show win.y + (y - win.y) = y by omega, ← e ch] at this

/-! ## Different codes -/

/-- The destination for the dark blue image, with room behind its last row. -/
def darkRoomy : Img := .raw .I444 32 2 [⟨⟨300, 100⟩, 32⟩, ⟨⟨400, 100⟩, 32⟩, ⟨⟨500, 100⟩, 32⟩] (.YUV ⟨.SDR, .BT709, .BT709, true⟩)

/-- **C66** is false of tiles narrower than the vectors of AVX2: with a tile 8 wide a pixel becomes 0 that is 1 in the conversion of
the whole image. -/
theorem C66_narrow_false (simd scalar : Libm) : ∃ mo mt : Mem,
    convert (Platform.avx2.ieee simd scalar) darkSrc darkRoomy darkBlue = .ok (.ok (), mo) ∧
    Tiled (Platform.avx2.ieee simd scalar) darkSrc darkRoomy [⟨8, 0, 8, 2⟩] darkBlue mt ∧
    sample .I444 [⟨⟨300, 100⟩, 32⟩, ⟨⟨400, 100⟩, 32⟩, ⟨⟨500, 100⟩, 32⟩] mo .Y 10 1 = some 1 ∧
    sample .I444 [⟨⟨300, 100⟩, 32⟩, ⟨⟨400, 100⟩, 32⟩, ⟨⟨500, 100⟩, 32⟩] mt .Y 10 1 = some 0 := by
  obtain ⟨mo, r⟩ := run_exists (c := Platform.avx2.ieee simd scalar) (platform_lawful .avx2 _ _) (src := darkSrc) (dst := darkRoomy)
    (sps := [⟨⟨0, 300⟩, 96⟩]) (dps := [⟨⟨300, 100⟩, 32⟩, ⟨⟨400, 100⟩, 32⟩, ⟨⟨500, 100⟩, 32⟩]) rfl rfl
    (planesDisjoint_of (by decide)) (separate_of (by decide)) (uniform_of (by decide)) (by decide) darkBlue
  obtain ⟨mt, r'⟩ := run_exists (c := Platform.avx2.ieee simd scalar) (platform_lawful .avx2 _ _) (src := .cropped darkSrc ⟨8, 0, 8, 2⟩)
    (dst := .cropped darkRoomy ⟨8, 0, 8, 2⟩) (sps := [⟨⟨24, 192⟩, 96⟩])
    (dps := [⟨⟨308, 64⟩, 32⟩, ⟨⟨408, 64⟩, 32⟩, ⟨⟨508, 64⟩, 32⟩]) rfl rfl
    (planesDisjoint_of (by decide)) (separate_of (by decide)) (uniform_of (by decide)) (by decide) darkBlue
  exact ⟨mo, mt, r.ok, .cons rfl rfl r'.ok (.nil _),
    (dark_luma r rfl rfl rfl rfl rfl rfl rfl rfl (x := 10) (y := 1) (by decide) (by decide) (by decide)).1
      (by simp [Truncates, lanes, Img.width, darkRoomy]),
    (dark_luma r' rfl rfl rfl rfl rfl rfl rfl rfl (x := 2) (y := 1) (by decide) (by decide) (by decide)).2
      (by simp [Truncates, lanes, Img.width])⟩

/-! ## Examples -/

/-- The left and the right half, with vectors of 8 floats, the right one first; any arithmetic, any content. -/
example (simd scalar : Libm) (m : Mem) : ∃ mo mt : Mem, convert (Platform.avx2.ieee simd scalar) darkSrc darkRoomy m = .ok (.ok (), mo) ∧
    Tiled (Platform.avx2.ieee simd scalar) darkSrc darkRoomy [⟨16, 0, 16, 2⟩, ⟨0, 0, 16, 2⟩] m mt ∧ mt = mo := by
  obtain ⟨mo, r⟩ := run_exists (c := Platform.avx2.ieee simd scalar) (platform_lawful .avx2 _ _) (src := darkSrc) (dst := darkRoomy)
    (sps := [⟨⟨0, 300⟩, 96⟩]) (dps := [⟨⟨300, 100⟩, 32⟩, ⟨⟨400, 100⟩, 32⟩, ⟨⟨500, 100⟩, 32⟩]) rfl rfl
    (planesDisjoint_of (by decide)) (separate_of (by decide)) (uniform_of (by decide)) (by decide) m
  obtain ⟨m1, r1⟩ := run_exists (c := Platform.avx2.ieee simd scalar) (platform_lawful .avx2 _ _) (src := .cropped darkSrc ⟨16, 0, 16, 2⟩)
    (dst := .cropped darkRoomy ⟨16, 0, 16, 2⟩) (sps := [⟨⟨48, 192⟩, 96⟩])
    (dps := [⟨⟨316, 64⟩, 32⟩, ⟨⟨416, 64⟩, 32⟩, ⟨⟨516, 64⟩, 32⟩]) rfl rfl
    (planesDisjoint_of (by decide)) (separate_of (by decide)) (uniform_of (by decide)) (by decide) m
  obtain ⟨m2, r2⟩ := run_exists (c := Platform.avx2.ieee simd scalar) (platform_lawful .avx2 _ _) (src := .cropped darkSrc ⟨0, 0, 16, 2⟩)
    (dst := .cropped darkRoomy ⟨0, 0, 16, 2⟩) (sps := [⟨⟨0, 192⟩, 96⟩])
    (dps := [⟨⟨300, 64⟩, 32⟩, ⟨⟨400, 64⟩, 32⟩, ⟨⟨500, 64⟩, 32⟩]) rfl rfl
    (planesDisjoint_of (by decide)) (separate_of (by decide)) (uniform_of (by decide)) (by decide) m1
  have t : Tiled (Platform.avx2.ieee simd scalar) darkSrc darkRoomy [⟨16, 0, 16, 2⟩, ⟨0, 0, 16, 2⟩] m m2 :=
    .cons rfl rfl r1.ok (.cons rfl rfl r2.ok (.nil _))
  refine ⟨mo, m2, r.ok, t, C66_cover_partial r ?_ ?_ ?_ ?_ t ?_ ?_⟩
  · simp
  · simp
  · rintro ⟨_, h, _⟩; cases h
  · intro win hw
    simp only [List.mem_cons, List.not_mem_nil, or_false] at hw
    rcases hw with rfl | rfl <;> exact ⟨rfl, rfl, .inr rfl⟩
  · intro x y hx hy
    simp only [darkRoomy, Img.width, Img.height] at hx hy
    by_cases h : x < 16
    · exact ⟨⟨0, 0, 16, 2⟩, by simp, by simp only [InWindow]; omega⟩
    · exact ⟨⟨16, 0, 16, 2⟩, by simp, by simp only [InWindow]; omega⟩
  · refine .inr ⟨show 32 % (8 * 2) = 0 by rfl, ?_⟩
    intro win hw
    simp only [List.mem_cons, List.not_mem_nil, or_false] at hw
    rcases hw with rfl | rfl <;> exact show 16 % (8 * 2) = 0 by rfl

/-- A tile of 8 columns: within one code. -/
example (simd scalar : Libm) : ∃ mo mt : Mem, ∃ a b,
    sample .I444 [⟨⟨300, 100⟩, 32⟩, ⟨⟨400, 100⟩, 32⟩, ⟨⟨500, 100⟩, 32⟩] mt .Y 10 1 = some a ∧
    sample .I444 [⟨⟨300, 100⟩, 32⟩, ⟨⟨400, 100⟩, 32⟩, ⟨⟨500, 100⟩, 32⟩] mo .Y 10 1 = some b ∧ a ≤ b + 1 ∧ b ≤ a + 1 := by
  obtain ⟨mo, mt, h, t, -, -⟩ := C66_narrow_false simd scalar
  have r : Run (Platform.avx2.ieee simd scalar) darkSrc darkRoomy [⟨⟨0, 300⟩, 96⟩]
      [⟨⟨300, 100⟩, 32⟩, ⟨⟨400, 100⟩, 32⟩, ⟨⟨500, 100⟩, 32⟩] darkBlue mo := ⟨platform_lawful .avx2 _ _, rfl, rfl,
    planesDisjoint_of (by decide), separate_of (by decide), uniform_of (by decide), h⟩
  refine ⟨mo, mt, C66_one_code_partial r ?_ ?_ ?_ t rfl rfl rfl rfl rfl rfl rfl (.inl rfl) (by decide) (by decide)
    ⟨_, List.mem_singleton.2 rfl, by simp [InWindow]⟩⟩
  · simp
  · simp
  · intro win hw
    simp only [List.mem_cons, List.not_mem_nil, or_false] at hw
    subst hw
    exact ⟨rfl, rfl, .inr rfl⟩

/-- A tile of a black NV12 image, on NEON. -/
example (simd scalar : Libm) : ∃ mo mt : Mem, ∃ a b,
    sample .RGBA [⟨⟨400, 300⟩, 128⟩] mt .G 10 1 = some a ∧
    sample .RGBA [⟨⟨400, 300⟩, 128⟩] mo .G 10 1 = some b ∧ a ≤ b + 1 ∧ b ≤ a + 1 := by
  let mem : Mem := fun _ => 0
  obtain ⟨mo, r⟩ := run_exists (c := Platform.neon.ieee simd scalar) (platform_lawful .neon _ _)
    (src := .raw .NV12 32 2 [⟨⟨0, 80⟩, 32⟩, ⟨⟨100, 80⟩, 32⟩] (.YUV ⟨.SRGB, .BT709, .BT601, false⟩))
    (dst := .raw .RGBA 32 2 [⟨⟨400, 300⟩, 128⟩] (.RGB ⟨.SRGB, .BT709⟩))
    (sps := [⟨⟨0, 80⟩, 32⟩, ⟨⟨100, 80⟩, 32⟩]) (dps := [⟨⟨400, 300⟩, 128⟩]) rfl rfl
    (planesDisjoint_of (by decide)) (separate_of (by decide)) (uniform_of (by decide)) (by decide) mem
  obtain ⟨mt, r'⟩ := run_exists (c := Platform.neon.ieee simd scalar) (platform_lawful .neon _ _)
    (src := .cropped (.raw .NV12 32 2 [⟨⟨0, 80⟩, 32⟩, ⟨⟨100, 80⟩, 32⟩] (.YUV ⟨.SRGB, .BT709, .BT601, false⟩)) ⟨8, 0, 6, 2⟩)
    (dst := .cropped (.raw .RGBA 32 2 [⟨⟨400, 300⟩, 128⟩] (.RGB ⟨.SRGB, .BT709⟩)) ⟨8, 0, 6, 2⟩)
    (sps := [⟨⟨8, 64⟩, 32⟩, ⟨⟨108, 32⟩, 32⟩]) (dps := [⟨⟨432, 256⟩, 128⟩]) rfl rfl
    (planesDisjoint_of (by decide)) (separate_of (by decide)) (uniform_of (by decide)) (by decide) mem
  refine ⟨mo, mt, C66_one_code_rgb_partial (wins := [⟨8, 0, 6, 2⟩]) r ?_ ?_ ?_ (.cons rfl rfl r'.ok (.nil _))
    rfl rfl rfl rfl rfl rfl rfl ?_ (.inr (.inl rfl)) (by decide) (by decide)
    ⟨_, List.mem_singleton.2 rfl, by simp [InWindow]⟩⟩
  · simp
  · simp
  · intro win hw
    simp only [List.mem_cons, List.not_mem_nil, or_false] at hw
    subst hw
    exact ⟨rfl, rfl, .inr rfl⟩
  · intro c x y l _ _ _
    exact shown_le rfl ..

end Ezk.Props

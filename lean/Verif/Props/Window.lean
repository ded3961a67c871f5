import Verif.Proofs.Window
import Verif.Props.Crop
import Verif.Props.Monotone
import Verif.Props.ChangeYuv

/-!
# C59: converting a part of an image gives that part of the converted image

Tiles, crops and strips of an image may be converted one by one.
-/

namespace Ezk.Props
open Ezk F32 Spec

section
variable {F : Type} [FOps F] {c : Cpu F} {src dst src' dst' : Img} {sps dps sps' dps' : List Plane} {m mo n no : Mem}

/-- The image of the planes `qs` shows the window at `(x0, y0)`, `w` wide and `h` high, of that of the planes `ps`. -/
def ShowsWindow (f : PixelFormat) (qs : List Plane) (n : Mem) (ps : List Plane) (m : Mem) (x0 y0 w h : Nat) : Prop :=
  ∀ ch i j, i < w → j < h → sample f qs n ch i j = sample f ps m ch (x0 + i) (y0 + j)

/-- Column `i` of an image `w'` wide is computed by the same code (vector or scalar) as column `x` of one `w` wide. -/
def SameCode (len w' i w x : Nat) : Prop := i < w' - w' % (len * 2) ↔ x < w - w % (len * 2)

theorem sampleLoc_none (f : PixelFormat) (ch : Chan) (x y x' y' : Nat) (h : sampleLoc f ch x y = none) : sampleLoc f ch x' y' = none := by
  revert h; cases f <;> cases ch <;> simp [sampleLoc]

/-- The cells of shown pictures. -/
theorem shows_cells {f : PixelFormat} {w h x0 y0 i j : Nat} (hsh : ShowsWindow f sps' n sps m x0 y0 w h) (hw : w % 2 = 0) (hh : h % 2 = 0)
    (hi : i < w) (hj : j < h) : CellAt (shown f sps m) (shown f sps' n) x0 y0 i j := by
  intro ch i' j' e1 e2
  rw [shown, shown, hsh ch i' j' (by omega) (by omega)]

/-- **C59** (partial: not for 4:4:4 sources whose planes have different strides, and not for 4:2:0 destinations with an ICtCp colour
space). If a source shows an evenly placed window of another one, its conversion shows that window of the other's conversion, in all
columns that are computed by the same code in both, with any arithmetic. -/
theorem C59_window_partial (r : Run c src dst sps dps m mo) (r' : Run c src' dst' sps' dps' n no)
    (ef : src'.format = src.format) (ec : src'.color = src.color) (efd : dst'.format = dst.format) (ecd : dst'.color = dst.color)
    (hb : ¬ BadChroma src.format src.color dst.format dst.color) {x0 y0 : Nat} (hx0 : x0 % 2 = 0) (hy0 : y0 % 2 = 0)
    (hw : x0 + dst'.width ≤ dst.width) (hh : y0 + dst'.height ≤ dst.height)
    (hwin : ShowsWindow src.format sps' n sps m x0 y0 dst'.width dst'.height) {ch : Chan} {i j : Nat} (hi : i < dst'.width) (hj : j < dst'.height)
    (hcode : SameCode c.vec.LEN dst'.width i dst.width (x0 + i)) :
    sample dst.format dps' no ch i j = sample dst.format dps mo ch (x0 + i) (y0 + j) := by
  cases hl : sampleLoc dst.format ch i j with
  | none => rw [sample, sample, hl, sampleLoc_none _ _ _ _ _ _ hl]; rfl
  | some l =>
    obtain ⟨l', hl'⟩ : ∃ l', sampleLoc dst.format ch (x0 + i) (y0 + j) = some l' := by
      cases hl' : sampleLoc dst.format ch (x0 + i) (y0 + j) with
      | none => rw [sampleLoc_none _ _ _ _ _ _ hl'] at hl; cases hl
      | some l' => exact ⟨l', rfl⟩
    have h1 := r.depicts hb (shown_depicts r.returned.vsrc.fits.1 m) ch (x0 + i) (y0 + j) l' (by omega) (by omega) hl'
    have h2 := r'.depicts (by rw [efd, ec, ecd, ef]; exact hb) (shown_depicts r'.returned.vsrc.fits.1 n) ch i j l hi hj (by rw [efd]; exact hl)
    rw [efd, ec, ecd, ef] at h2
    rw [h1, h2]
    have hcol : ColumnsAt (columnArith c dst.width) (columnArith c dst'.width) x0 i := by
      intro i' e
      have a1 : dst.width % (c.vec.LEN * 2) % 2 = dst.width % 2 := Nat.mod_mul_left_mod _ _ _
      have a2 : dst'.width % (c.vec.LEN * 2) % 2 = dst'.width % 2 := Nat.mod_mul_left_mod _ _ _
      have b1 := r.returned.evenW
      have b2 := r'.returned.evenW
      unfold SameCode at hcode
      simp only [columnArith]
      have : i' < dst'.width - dst'.width % (c.vec.LEN * 2) ↔ x0 + i' < dst.width - dst.width % (c.vec.LEN * 2) := by
        constructor <;> intro h
        · have := hcode.1 (by omega); omega
        · have := hcode.2 (by omega); omega
      simp only [this]
    rw [converted_at hcol hx0 hy0 (shows_cells hwin r'.returned.evenW r'.returned.evenH hi hj)]

/-- **C59** for `crop` (partial: as before, and for crops that show their window, see C08). -/
theorem C59_crop_partial (r : Run c src dst sps dps m mo) {win : Window} (hcrop : src.crop win = .ok (.ok src'))
    (r' : Run c src' dst' sps' dps' m no) (efd : dst'.format = dst.format) (ecd : dst'.color = dst.color)
    (hb : ¬ BadChroma src.format src.color dst.format dst.color) (hx0 : win.x % 2 = 0) (hy0 : win.y % 2 = 0)
    (h16 : sampleBytes src.format = 1 ∨ win.y = 0)
    (hrows : ∀ i < planeCount src.format, ∀ p, sps[i]? = some p → HasWindowRows src.format win i p)
    (hlen : ∀ p ∈ sps, p.slice.len < 2 ^ 64) {ch : Chan} {i j : Nat} (hi : i < win.width) (hj : j < win.height)
    (hcode : SameCode c.vec.LEN win.width i dst.width (win.x + i)) :
    sample dst.format dps' no ch i j = sample dst.format dps mo ch (win.x + i) (win.y + j) := by
  have hal : Aligned src.format win := by
    constructor
    · have : hsub src.format = 1 ∨ hsub src.format = 2 := by cases src.format <;> simp [hsub]
      rcases this with h | h <;> rw [h] <;> omega
    · have : vsub src.format = 1 ∨ vsub src.format = 2 := by cases src.format <;> simp [vsub]
      rcases this with h | h <;> rw [h] <;> omega
  obtain ⟨qs, hqs, -, hsh⟩ := C08_crop_shows_window_partial src src' win sps hcrop r.srcPlanes hlen hal h16 hrows
  obtain ⟨-, hin, rfl⟩ := (C07_crop_ok src src' win).1 hcrop
  have e : qs = sps' := by
    have := r'.srcPlanes
    rw [hqs] at this
    exact Except.ok.inj this
  subst e
  have hw : dst'.width = win.width := r'.returned.width.symm
  have hh : dst'.height = win.height := r'.returned.height.symm
  have w1 := r.returned.width
  have w2 := r.returned.height
  refine C59_window_partial r r' rfl rfl efd ecd hb hx0 hy0 (by rw [hw, ← w1]; exact hin.1) (by rw [hh, ← w2]; exact hin.2.1)
    (fun ch i j _ _ => hsh m ch i j) (by rw [hw]; exact hi) (by rw [hh]; exact hj) (by rw [hw]; exact hcode)

end

/-! ## Columns computed by different code -/

variable {p p' : Platform} {simd scalar simd' scalar' : Libm} {src dst src' dst' : Img} {sps dps sps' dps' : List Plane} {m mo n no : Mem}

/-- The stores differ by at most one code. -/
theorem stored_one (p p' : Platform) (simd scalar simd' scalar' : Libm) (w x w' x' : Nat) (s : Store) {v : F32} {q : ℚ} (hv : Is v q)
    (hq : Storable s q) : stored p simd scalar w x s v ≤ stored p' simd' scalar' w' x' s v + 1 := by
  have et : ∀ {p w x simd scalar}, Truncates p w x → stored p simd scalar w x s v = min (trunc q).toNat s.top := by
    intro p w x simd scalar ht
    rw [stored_truncates ht]
    obtain ⟨_, _, rfl, _, rfl⟩ := hv
    rfl
  have hr : (rne q).toNat ≤ (trunc q).toNat + 1 := by
    by_cases h0 : 0 ≤ q
    · rw [trunc_eq_floor h0]
      have h1 : rne q ≤ ⌊q⌋ + 1 := rne_le (by have := Int.lt_floor_add_one q; push_cast; linarith)
      have h2 : 0 ≤ ⌊q⌋ := Int.floor_nonneg.mpr h0
      omega
    · have : rne q ≤ 0 := rne_le (by push_cast; linarith)
      omega
  have hr' : (trunc q).toNat ≤ (rne q).toNat + 1 := by
    by_cases h0 : 0 ≤ q
    · have := trunc_le_rne h0; omega
    · have : trunc q ≤ 0 := by
        rw [trunc_neg (not_le.mp h0)]; exact Int.ceil_le.mpr (by push_cast; linarith)
      omega
  by_cases h1 : Truncates p w x <;> by_cases h2 : Truncates p' w' x'
  · rw [et h1, et h2]; omega
  · rw [et h1, stored_rounds h2 _ _ s hv hq]; omega
  · rw [et h2, stored_rounds h1 _ _ s hv hq]; omega
  · rw [stored_rounds h1 _ _ s hv hq, stored_rounds h2 _ _ s hv hq]; omega

/-- The floats computed for a window. -/
theorem window_floats (r' : Run (p'.ieee simd' scalar') src' dst' sps' dps' n no)
    (hs : MatrixColor src.color) (hd : MatrixColor dst.color) (ht : src.color.transfer = dst.color.transfer)
    (hp : src.color.primaries = dst.color.primaries) {x0 y0 : Nat} (hx0 : x0 % 2 = 0) (hy0 : y0 % 2 = 0)
    (hwin : ShowsWindow src.format sps' n sps m x0 y0 dst'.width dst'.height) {i j : Nat} (hi : i < dst'.width) (hj : j < dst'.height) (ch : Chan) :
    convertedF (columnArith (p'.ieee simd' scalar') dst'.width) src.format src.color dst.format dst.color (shown src.format sps' n) ch i j =
      convertedF (columnArith (p.ieee simd scalar) dst.width) src.format src.color dst.format dst.color (shown src.format sps m) ch
        (x0 + i) (y0 + j) := by
  rw [convertedF_ieee (column_ieee p' simd' scalar' dst'.width) (br := fun i => columnArith (p.ieee simd scalar) dst.width (x0 + i))
    (fun x => column_ieee p simd scalar dst.width (x0 + x)) hs hd ht hp]
  exact convertedF_at (ar := columnArith (p.ieee simd scalar) dst.width) (fun _ _ => rfl) hx0 hy0
    (shows_cells hwin r'.returned.evenW r'.returned.evenH hi hj) ch

/-- **C59**, RGB to YUV (partial: matrix colour spaces, no change of transfer function and primaries). Where the columns are computed by
different code, even on different platforms, the codes differ by at most one. -/
theorem C59_one_code_partial (r : Run (p.ieee simd scalar) src dst sps dps m mo) (r' : Run (p'.ieee simd' scalar') src' dst' sps' dps' n no)
    (ef : src'.format = src.format) (ec : src'.color = src.color) (efd : dst'.format = dst.format) (ecd : dst'.color = dst.color)
    (hs : isYuv src.format = false) (hd : isYuv dst.format = true) {k : YuvColorInfo} {k' : RgbColorInfo} (hk' : src.color = .RGB k')
    (hk : dst.color = .YUV k) (hm : isMatrix k.space = true)
    (ht : k'.transfer = k.transfer) (hp : k'.primaries = k.primaries) {x0 y0 : Nat} (hx0 : x0 % 2 = 0) (hy0 : y0 % 2 = 0)
    (hw : x0 + dst'.width ≤ dst.width) (hh : y0 + dst'.height ≤ dst.height)
    (hwin : ShowsWindow src.format sps' n sps m x0 y0 dst'.width dst'.height) {ch : Chan} (hch : ch = .Y ∨ ch = .U ∨ ch = .V)
    {i j : Nat} (hi : i < dst'.width) (hj : j < dst'.height) :
    ∃ a b, sample dst.format dps' no ch i j = some a ∧ sample dst.format dps mo ch (x0 + i) (y0 + j) = some b ∧ a ≤ b + 1 ∧ b ≤ a + 1 := by
  have ht1 : src.color.transfer = k.transfer := by rw [hk']; exact ht
  have hp1 : src.color.primaries = k.primaries := by rw [hk']; exact hp
  obtain ⟨v, e1, ev, app, a0, a1⟩ := rgb_to_yuv_value r hs hd hk ht1 hp1 hm hch (x := x0 + i) (y := y0 + j) (by omega) (by omega)
  obtain ⟨v', e2, ev', -, -, -⟩ := rgb_to_yuv_value r' (by rw [ef]; exact hs) (by rw [efd]; exact hd) (by rw [ecd]; exact hk)
    (by rw [ec]; exact ht1) (by rw [ec]; exact hp1) hm hch hi hj
  rw [ef, efd] at ev'
  rw [efd] at e2
  have enc : ∀ (ar : Nat → Arith F32) (V : Pic Nat), convertedF ar src.format src.color dst.format dst.color V =
      encode ar dst.format k (withAlpha src.format (Spec.normalize ar src.format V)) := by
    intro ar V
    rw [convertedF, if_neg (by rintro ⟨h, _⟩; rw [h, hd] at hs; cases hs), adaptPic, hk', hk, if_pos ⟨ht, hp⟩]
    simp only [readPic, writePic, hd, if_true]
  have hfl := window_floats (p := p) (simd := simd) (scalar := scalar) (dst := dst) r' (by rw [hk']; trivial) (by rw [hk]; exact hm)
    (by rw [hk', hk]; exact ht) (by rw [hk', hk]; exact hp) hx0 hy0 hwin hi hj ch
  rw [enc, enc] at hfl
  have hv : v' = v := by rw [ev', ev, hfl]
  subst hv
  obtain ⟨q, hq, hd1⟩ := app.is
  have M1 : (1 : ℝ) ≤ (2 ^ sampleBits dst.format - 1 : Nat) := by
    have := (max_lt dst.format).1
    exact_mod_cast this
  have M2 : ((2 ^ sampleBits dst.format - 1 : Nat) : ℝ) ≤ 4095 := by
    have : 2 ^ sampleBits dst.format - 1 ≤ 4095 := by cases dst.format <;> decide
    exact_mod_cast this
  have M3 : 2 ^ sampleBits dst.format - 1 ≤ (yuvStore dst.format).top := by cases dst.format <;> decide
  have M3' : ((2 ^ sampleBits dst.format - 1 : Nat) : ℝ) ≤ (((yuvStore dst.format).top : Nat) : ℝ) := by exact_mod_cast M3
  have hst : Storable (yuvStore dst.format) q := by
    generalize ((2 ^ sampleBits dst.format - 1 : Nat) : ℝ) = M at *
    generalize encode exactAr dst.format k (rgbOf (shown src.format sps m)) ch (x0 + i) (y0 + j) = V at *
    rw [abs_le] at hd1
    have g0 : 0 ≤ V * M := by positivity
    have g1 : V * M ≤ M := by nlinarith
    have hd2 := hd1.2
    have hd3 := hd1.1
    norm_num at hd2 hd3
    left
    constructor
    · have : ((-1 / 2 : ℚ) : ℝ) ≤ q := by push_cast; linarith
      exact_mod_cast this
    · have : (q : ℝ) < (((yuvStore dst.format).top + 1 / 2 : ℚ) : ℝ) := by push_cast; linarith
      exact_mod_cast this
  exact ⟨_, _, e2, e1, stored_one _ _ _ _ _ _ _ _ _ _ _ hq hst, stored_one _ _ _ _ _ _ _ _ _ _ _ hq hst⟩

/-- **C59**, YUV to RGB (partial: matrix colour spaces, no change of transfer function and primaries, samples within their depth). -/
theorem C59_one_code_rgb_partial (r : Run (p.ieee simd scalar) src dst sps dps m mo)
    (r' : Run (p'.ieee simd' scalar') src' dst' sps' dps' n no)
    (ef : src'.format = src.format) (ec : src'.color = src.color) (efd : dst'.format = dst.format) (ecd : dst'.color = dst.color)
    (hs : isYuv src.format = true) (hd : isYuv dst.format = false) {k : YuvColorInfo} {k' : RgbColorInfo} (hk : src.color = .YUV k)
    (hk' : dst.color = .RGB k') (hm : isMatrix k.space = true)
    (ht : k.transfer = k'.transfer) (hp : k.primaries = k'.primaries)
    (hV : InDepth src.format src.width src.height (shown src.format sps m))
    {x0 y0 : Nat} (hx0 : x0 % 2 = 0) (hy0 : y0 % 2 = 0)
    (hw : x0 + dst'.width ≤ dst.width) (hh : y0 + dst'.height ≤ dst.height)
    (hwin : ShowsWindow src.format sps' n sps m x0 y0 dst'.width dst'.height) {ch : Chan} (hch : ch = .R ∨ ch = .G ∨ ch = .B)
    {i j : Nat} (hi : i < dst'.width) (hj : j < dst'.height) :
    ∃ a b, sample dst.format dps' no ch i j = some a ∧ sample dst.format dps mo ch (x0 + i) (y0 + j) = some b ∧ a ≤ b + 1 ∧ b ≤ a + 1 := by
  have hV' : InDepth src'.format src'.width src'.height (shown src'.format sps' n) := by
    intro c a b l ha hb hl
    rw [ef] at hl ⊢
    have w1 := r'.returned.width
    have w2 := r'.returned.height
    have w3 := r.returned.width
    have w4 := r.returned.height
    have e : shown src.format sps' n c a b = shown src.format sps m c (x0 + a) (y0 + b) := by
      rw [shown, shown, hwin c a b (by omega) (by omega)]
    rw [e]
    cases hl' : sampleLoc src.format c (x0 + a) (y0 + b) with
    | none => rw [sampleLoc_none _ _ _ _ _ _ hl'] at hl; cases hl
    | some l' => exact hV c (x0 + a) (y0 + b) l' (by omega) (by omega) hl'
  have ht1 : k.transfer = dst.color.transfer := by rw [hk']; exact ht
  have hp1 : k.primaries = dst.color.primaries := by rw [hk']; exact hp
  obtain ⟨v, e1, ev, app, a1⟩ := yuv_to_rgb_value r hs hd hk ht1 hp1 hm hch (x := x0 + i) (y := y0 + j) (by omega) (by omega) hV
  obtain ⟨v', e2, ev', -, -⟩ := yuv_to_rgb_value r' (by rw [ef]; exact hs) (by rw [efd]; exact hd) (by rw [ec]; exact hk)
    (by rw [ecd]; exact ht1) (by rw [ecd]; exact hp1) hm hch hi hj hV'
  rw [ef, efd] at ev'
  rw [efd] at e2
  have dec : ∀ (ar : Nat → Arith F32) (V : Pic Nat), convertedF ar src.format src.color dst.format dst.color V =
      decode ar k (Spec.normalize ar src.format V) := by
    intro ar V
    rw [convertedF, if_neg (by rintro ⟨h, _⟩; rw [h, hd] at hs; cases hs), adaptPic, hk', hk, if_pos ⟨ht, hp⟩]
    simp only [readPic, writePic, hs, if_true]
  have hfl := window_floats (p := p) (simd := simd) (scalar := scalar) (dst := dst) r' (by rw [hk]; exact hm) (by rw [hk']; trivial)
    (by rw [hk', hk]; exact ht) (by rw [hk', hk]; exact hp) hx0 hy0 hwin hi hj ch
  rw [dec, dec] at hfl
  have hv : v' = v := by rw [ev', ev, hfl]
  subst hv
  obtain ⟨q, hq, hd1⟩ := app.is
  have w3 := r.returned.width
  have w4 := r.returned.height
  have hb := (decode_app (column_ieee p simd scalar dst.width) exactAr_exact (q := fun c x y =>
    (shown src.format sps m c x y : ℝ) / (2 ^ sampleBits src.format - 1 : Nat)) hm (fun c hc => by
      obtain ⟨s1, s2, s3⟩ := yuv_samples (column_ieee p simd scalar dst.width) hs hV (x := x0 + i) (y := y0 + j) (by omega) (by omega) hc
      exact ⟨s1, by rw [abs_of_nonneg s2]; exact s3⟩) hch).2
  have hst : Storable .interleaved8 q := by
    generalize decode exactAr k _ ch (x0 + i) (y0 + j) = V at *
    rw [abs_le] at hd1 hb
    have hd2 := hd1.2
    have hd3 := hd1.1
    norm_num at hd2 hd3
    refine Or.inr ⟨rfl, ?_, ?_⟩
    · have : ((-2 ^ 31 : ℚ) : ℝ) ≤ q := by push_cast; linarith [hb.1]
      exact_mod_cast this
    · have : (q : ℝ) < ((32767 : ℚ) : ℝ) := by push_cast; linarith
      exact_mod_cast this
  exact ⟨_, _, e2, e1, stored_one _ _ _ _ _ _ _ _ _ _ _ hq hst, stored_one _ _ _ _ _ _ _ _ _ _ _ hq hst⟩

/-! ## Different codes -/

/-- The luma of a dark blue. -/
theorem dark_luma (r : Run (p.ieee simd scalar) src dst sps dps m mo) (hs : isYuv src.format = false)
    (hd : isYuv dst.format = true) (h8 : sampleBits dst.format = 8) {i : YuvColorInfo} (hi : dst.color = .YUV i)
    (ht : src.color.transfer = i.transfer) (hp : src.color.primaries = i.primaries) (hcs : i.space = .BT709)
    (hfull : i.fullRange = true) {x y : Nat} (hx : x < dst.width) (hy : y < dst.height)
    (hdark : shown src.format sps m .R x y = 0 ∧ shown src.format sps m .G x y = 0 ∧ shown src.format sps m .B x y = 9) :
    (¬ Truncates p dst.width x → sample dst.format dps mo .Y x y = some 1) ∧
      (Truncates p dst.width x → sample dst.format dps mo .Y x y = some 0) := by
  have hst : IsStandard i.space (0.2126, 0.7152, 0.0722) := by rw [hcs]; exact ⟨Or.inr rfl, rfl⟩
  have h1 : sampleBytes dst.format = 1 := by revert h8; cases dst.format <;> simp [sampleBits, sampleBytes]
  obtain ⟨v, e1, _, a1, _⟩ := rgb_to_yuv_value r hs hd hi ht hp hst.isMatrix (c := .Y) (by simp) hx hy
  rw [encode_ideal hst _ _ (by simp)] at a1
  simp only [idealYuv, pixelYuv, standardYuv, hdark.1, hdark.2.1, hdark.2.2, lumaCode, hfull, if_true, h8] at a1
  norm_num at a1
  obtain ⟨q, i1, b1⟩ := a1.is
  rw [abs_le] at b1
  have c1 : 1 / 2 < q ∧ q < 1 := by
    constructor
    · have : ((1 / 2 : ℚ) : ℝ) < q := by push_cast; linarith [b1.1]
      exact_mod_cast this
    · have : (q : ℝ) < ((1 : ℚ) : ℝ) := by push_cast; linarith [b1.2]
      exact_mod_cast this
  have es : yuvStore dst.format = .planar8 := by rw [yuvStore, if_pos h1]
  rw [e1, es]
  constructor
  · intro hT
    rw [stored_rounds hT simd scalar _ i1 (Or.inl ⟨by linarith [c1.1], by simp only [Store.top]; push_cast; linarith [c1.2]⟩)]
    have : rne q = 1 := rne_of_near (by rw [abs_lt]; push_cast; constructor <;> linarith [c1.1, c1.2])
    rw [this]; rfl
  · intro hT
    rw [stored_truncates hT]
    obtain ⟨b, t, rfl, _, rfl⟩ := i1
    have : trunc (signed b t) = 0 := by
      rw [trunc_eq_floor (by linarith [c1.1])]; exact Int.floor_eq_zero_iff.mpr ⟨by linarith [c1.1], c1.2⟩
    simp only [asUnsigned, this]; rfl

/-- All pixels of an RGB image are `(0, 0, 9)`. -/
def darkBlue : Mem := fun a => if a % 3 = 2 then 9 else 0

/-- A dark blue image, 32×2. -/
def darkSrc : Img := .raw .RGB 32 2 [⟨⟨0, 300⟩, 96⟩] (.RGB ⟨.SDR, .BT709⟩)
/-- The same as I444. -/
def darkDst : Img := .raw .I444 32 2 [⟨⟨300, 64⟩, 32⟩, ⟨⟨400, 64⟩, 32⟩, ⟨⟨500, 64⟩, 32⟩] (.YUV ⟨.SDR, .BT709, .BT709, true⟩)
/-- An image for 8 of its columns. -/
def darkPart : Img := .raw .I444 8 2 [⟨⟨300, 16⟩, 8⟩, ⟨⟨400, 16⟩, 8⟩, ⟨⟨500, 16⟩, 8⟩] (.YUV ⟨.SDR, .BT709, .BT709, true⟩)

/-- **C59** is false of images that are cropped to fewer columns than fit in the vectors of AVX2 (and AVX-512): what is 1 in the
conversion of the image is 0 in that of the crop. -/
theorem C59_narrow_false (simd scalar : Libm) : ∃ (crop : Img) (qs : List Plane) (mo no : Mem),
    darkSrc.crop ⟨8, 0, 8, 2⟩ = .ok (.ok crop) ∧
    Run (Platform.avx2.ieee simd scalar) darkSrc darkDst [⟨⟨0, 300⟩, 96⟩] [⟨⟨300, 64⟩, 32⟩, ⟨⟨400, 64⟩, 32⟩, ⟨⟨500, 64⟩, 32⟩] darkBlue mo ∧
    Run (Platform.avx2.ieee simd scalar) crop darkPart qs [⟨⟨300, 16⟩, 8⟩, ⟨⟨400, 16⟩, 8⟩, ⟨⟨500, 16⟩, 8⟩] darkBlue no ∧
    sample .I444 [⟨⟨300, 64⟩, 32⟩, ⟨⟨400, 64⟩, 32⟩, ⟨⟨500, 64⟩, 32⟩] mo .Y 10 1 = some 1 ∧
    sample .I444 [⟨⟨300, 16⟩, 8⟩, ⟨⟨400, 16⟩, 8⟩, ⟨⟨500, 16⟩, 8⟩] no .Y 2 1 = some 0 := by
  obtain ⟨mo, r⟩ := run_exists (c := Platform.avx2.ieee simd scalar) (platform_lawful .avx2 _ _) (src := darkSrc) (dst := darkDst)
    (sps := [⟨⟨0, 300⟩, 96⟩]) (dps := [⟨⟨300, 64⟩, 32⟩, ⟨⟨400, 64⟩, 32⟩, ⟨⟨500, 64⟩, 32⟩]) rfl rfl
    (planesDisjoint_of (by decide)) (separate_of (by decide)) (uniform_of (by decide)) (by decide) darkBlue
  obtain ⟨no, r'⟩ := run_exists (c := Platform.avx2.ieee simd scalar) (platform_lawful .avx2 _ _) (src := .cropped darkSrc ⟨8, 0, 8, 2⟩)
    (dst := darkPart) (sps := [⟨⟨24, 192⟩, 96⟩]) (dps := [⟨⟨300, 16⟩, 8⟩, ⟨⟨400, 16⟩, 8⟩, ⟨⟨500, 16⟩, 8⟩]) rfl rfl
    (planesDisjoint_of (by decide)) (separate_of (by decide)) (uniform_of (by decide)) (by decide) darkBlue
  exact ⟨_, _, mo, no, rfl, r, r',
    (dark_luma r rfl rfl rfl rfl rfl rfl rfl rfl (x := 10) (y := 1) (by decide) (by decide) (by decide)).1
      (by simp [Truncates, lanes, Img.width, darkDst]),
    (dark_luma r' rfl rfl rfl rfl rfl rfl rfl rfl (x := 2) (y := 1) (by decide) (by decide) (by decide)).2
      (by simp [Truncates, lanes, Img.width, darkPart])⟩

/-! ## Examples -/

/-- On NEON (vectors of 4 floats, two at a time) a crop that starts at column 8 and is 16 wide. -/
example (simd scalar : Libm) (m : Mem) : ∃ mo no : Mem,
    sample .NV12 [⟨⟨400, 32⟩, 16⟩, ⟨⟨450, 16⟩, 16⟩] no .U 6 1 = sample .NV12 [⟨⟨400, 64⟩, 32⟩, ⟨⟨500, 32⟩, 32⟩] mo .U 14 1 := by
  obtain ⟨mo, r⟩ := run_exists (c := Platform.neon.ieee simd scalar) (platform_lawful .neon _ _) (src := darkSrc)
    (dst := .raw .NV12 32 2 [⟨⟨400, 64⟩, 32⟩, ⟨⟨500, 32⟩, 32⟩] (.YUV ⟨.SRGB, .BT709, .BT601, false⟩))
    (sps := [⟨⟨0, 300⟩, 96⟩]) (dps := [⟨⟨400, 64⟩, 32⟩, ⟨⟨500, 32⟩, 32⟩]) rfl rfl
    (planesDisjoint_of (by decide)) (separate_of (by decide)) (uniform_of (by decide)) (by decide) m
  obtain ⟨no, r'⟩ := run_exists (c := Platform.neon.ieee simd scalar) (platform_lawful .neon _ _) (src := .cropped darkSrc ⟨8, 0, 16, 2⟩)
    (dst := .raw .NV12 16 2 [⟨⟨400, 32⟩, 16⟩, ⟨⟨450, 16⟩, 16⟩] (.YUV ⟨.SRGB, .BT709, .BT601, false⟩))
    (sps := [⟨⟨24, 192⟩, 96⟩]) (dps := [⟨⟨400, 32⟩, 16⟩, ⟨⟨450, 16⟩, 16⟩]) rfl rfl
    (planesDisjoint_of (by decide)) (separate_of (by decide)) (uniform_of (by decide)) (by decide) m
  refine ⟨mo, no, C59_crop_partial (win := ⟨8, 0, 16, 2⟩) r rfl r' rfl rfl ?_ rfl rfl (.inl rfl) ?_ ?_ (i := 6) (j := 1) (by decide) (by decide) ?_⟩
  · rintro ⟨_, _, k, h, h'⟩; cases h; cases h'
  · intro i hi p hp
    obtain rfl : i = 0 := by simpa [planeCount, darkSrc, Img.format] using hi
    cases hp; decide
  · intro p hp
    obtain rfl : p = ⟨⟨0, 300⟩, 96⟩ := by simpa using hp
    norm_num
  · show (6 < 16 - 16 % (4 * 2) ↔ 8 + 6 < 32 - 32 % (4 * 2)); decide

/-- The dark blue image once more: 1 and 0 differ by one. -/
example (simd scalar : Libm) : ∃ mo no : Mem, ∃ a b,
    sample .I444 [⟨⟨300, 16⟩, 8⟩, ⟨⟨400, 16⟩, 8⟩, ⟨⟨500, 16⟩, 8⟩] no .Y 2 1 = some a ∧
    sample .I444 [⟨⟨300, 64⟩, 32⟩, ⟨⟨400, 64⟩, 32⟩, ⟨⟨500, 64⟩, 32⟩] mo .Y 10 1 = some b ∧ a ≤ b + 1 ∧ b ≤ a + 1 := by
  obtain ⟨crop, qs, mo, no, hc, r, r', -, -⟩ := C59_narrow_false simd scalar
  obtain rfl : crop = .cropped darkSrc ⟨8, 0, 8, 2⟩ := by cases hc; rfl
  obtain rfl : qs = [⟨⟨24, 192⟩, 96⟩] := by have := r'.srcPlanes; cases this; rfl
  refine ⟨mo, no, C59_one_code_partial r r' rfl rfl rfl rfl rfl rfl rfl rfl rfl rfl rfl (x0 := 8) (y0 := 0) rfl rfl (by decide) (by decide) ?_
    (ch := .Y) (.inl rfl) (i := 2) (j := 1) (by decide) (by decide)⟩
  intro ch i j hi hj
  obtain ⟨qs, hqs, -, hsh⟩ := C08_crop_shows_window_partial darkSrc _ ⟨8, 0, 8, 2⟩ [⟨⟨0, 300⟩, 96⟩] hc rfl (by
    intro p hp
    obtain rfl : p = ⟨⟨0, 300⟩, 96⟩ := by simpa using hp
    norm_num) (by decide) (.inl rfl) (by
    intro i hi p hp
    obtain rfl : i = 0 := by simpa [planeCount, darkSrc, Img.format] using hi
    cases hp; decide)
  obtain rfl : qs = [⟨⟨24, 192⟩, 96⟩] := by cases hqs; rfl
  exact hsh darkBlue ch i j

/-- An NV12 image, converted as a whole on NEON, and its columns 8 to 15, copied elsewhere and converted on AVX2: all samples 0. -/
example (simd scalar : Libm) : ∃ mo no : Mem, ∃ a b,
    sample .RGBA [⟨⟨400, 64⟩, 32⟩] no .G 2 1 = some a ∧
    sample .RGBA [⟨⟨400, 256⟩, 128⟩] mo .G 10 1 = some b ∧ a ≤ b + 1 ∧ b ≤ a + 1 := by
  let mem : Mem := fun _ => 0
  obtain ⟨mo, r⟩ := run_exists (c := Platform.neon.ieee simd scalar) (platform_lawful .neon _ _)
    (src := .raw .NV12 32 2 [⟨⟨0, 64⟩, 32⟩, ⟨⟨64, 32⟩, 32⟩] (.YUV ⟨.SRGB, .BT709, .BT601, false⟩))
    (dst := .raw .RGBA 32 2 [⟨⟨400, 256⟩, 128⟩] (.RGB ⟨.SRGB, .BT709⟩))
    (sps := [⟨⟨0, 64⟩, 32⟩, ⟨⟨64, 32⟩, 32⟩]) (dps := [⟨⟨400, 256⟩, 128⟩]) rfl rfl
    (planesDisjoint_of (by decide)) (separate_of (by decide)) (uniform_of (by decide)) (by decide) mem
  obtain ⟨no, r'⟩ := run_exists (c := Platform.avx2.ieee simd scalar) (platform_lawful .avx2 _ _)
    (src := .raw .NV12 8 2 [⟨⟨0, 16⟩, 8⟩, ⟨⟨64, 8⟩, 8⟩] (.YUV ⟨.SRGB, .BT709, .BT601, false⟩))
    (dst := .raw .RGBA 8 2 [⟨⟨400, 64⟩, 32⟩] (.RGB ⟨.SRGB, .BT709⟩))
    (sps := [⟨⟨0, 16⟩, 8⟩, ⟨⟨64, 8⟩, 8⟩]) (dps := [⟨⟨400, 64⟩, 32⟩]) rfl rfl
    (planesDisjoint_of (by decide)) (separate_of (by decide)) (uniform_of (by decide)) (by decide) mem
  have hwin : ShowsWindow .NV12 [⟨⟨0, 16⟩, 8⟩, ⟨⟨64, 8⟩, 8⟩] mem [⟨⟨0, 64⟩, 32⟩, ⟨⟨64, 32⟩, 32⟩] mem 8 0 8 2 := by
    intro ch i j hi hj
    cases ch <;> rfl
  refine ⟨mo, no, C59_one_code_rgb_partial r r' rfl rfl rfl rfl rfl rfl rfl rfl rfl rfl rfl ?_ (x0 := 8) (y0 := 0) rfl rfl
    (by decide) (by decide) hwin (ch := .G) (.inr (.inl rfl)) (i := 2) (j := 1) (by decide) (by decide)⟩
  intro c x y l _ _ _
  exact shown_le rfl ..

end Ezk.Props

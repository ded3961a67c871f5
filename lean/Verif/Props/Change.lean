import Verif.Proofs.ChangePq
import Verif.Proofs.EncodeCont
import Verif.Props.Transfers

/-!
# C50: RGB images in another transfer function or with other primaries

What each platform stores, its own `ln`, `exp` and `pow` included, compared with exact formulas.
-/

namespace Ezk.Props
open Ezk F32 Spec

variable {p : Platform} {scalar : Libm} {src dst : Img} {sps dps : List Plane} {m m' : Mem}

/-- One component of a colour. -/
def component {F : Type} (p : C3 F) : Chan → F
  | .R => p.1
  | .G => p.2.1
  | _ => p.2.2

/-- The light that the pixel `(x, y)` of an 8-bit RGB picture `V` stands for, in the primaries of the destination: exact
arithmetic with the numbers of the source code. -/
noncomputable def lightIn (sc dc : ColorInfo) (V : Pic Nat) (c : Chan) (x y : Nat) : ℝ :=
  let light (c : Chan) : ℝ := decodeTransfer (exactAr x) sc.transfer ((V c x y : ℝ) / 255)
  component (rowMul (exactAr x) (rowMul (exactAr x) (light .R, light .G, light .B) sc.primaries.rgbToXyzMat)
    dc.primaries.xyzToRgbMat) c

/-- NaN is stored as 0 in RGB images. -/
theorem stored_nan (p : Platform) (simd scalar : Libm) (w x : Nat) : stored p simd scalar w x .interleaved8 .nan = 0 := by
  by_cases ht : Truncates p w x
  · exact (C34_truncating_saturates ht simd scalar .interleaved8).2.2.2.2
  · simp only [Truncates, not_or, not_not] at ht
    cases p
    · exact absurd rfl ht.1
    · rw [stored, columnArith, if_pos (show x < w - w % ((Platform.avx2.ieee simd scalar).vec.LEN * 2) from ht.2.2)]
      rfl
    · rw [stored, columnArith, if_pos (show x < w - w % ((Platform.avx512.ieee simd scalar).vec.LEN * 2) from ht.2.2)]
      rfl
    · exact absurd rfl ht.2.1

theorem clamp_nonpos {r : ℝ} (h : r ≤ 0) : clamp255 r = 0 := by
  unfold clamp255
  rw [min_eq_right (by linarith), max_eq_left h]

theorem clamp_max (r : ℝ) : clamp255 (max 0 r * 255) = clamp255 (r * 255) := by
  rcases le_total 0 r with h | h
  · rw [max_eq_right h]
  · rw [max_eq_left h, zero_mul, clamp_nonpos (le_refl _), clamp_nonpos (by linarith)]

/-- How far stored codes may be from the encoding of the light as computed. -/
noncomputable def storeTolerance (t : ColorTransfer) : ℝ := if t = .BT2100PQ then 1 + 2 / 100 else 1 + 1 / 1000

/-- The code stored for an encoded signal. -/
theorem stored_encodes {rr : Arith ℝ} {t : ColorTransfer} {v : F32} {l : ℝ} (h : EncodesTo rr t v l) (p : Platform) (simd scalar : Libm)
    (w x : Nat) {f : PixelFormat} (hf : isYuv f = false) (hlin : t = .Linear → l ≤ 128 ∨ Truncates p w x) :
    |(stored p simd scalar w x .interleaved8 ((columnArith (p.ieee simd scalar) w x).mul v (maxSample f)) : ℝ) -
      clamp255 (encodeTransfer rr t l * 255)| < storeTolerance t := by
  have hi := column_ieee p simd scalar w x
  have htol : 1 + 1 / 1000 ≤ storeTolerance t := by unfold storeTolerance; split <;> norm_num
  have herr : 1 + (encodeError t + 62 / 10 ^ 8) * 255 ≤ storeTolerance t := by
    unfold storeTolerance encodeError; split <;> norm_num
  have herr2 : encodeError t ≤ 5 / 10 ^ 5 := by unfold encodeError; split <;> norm_num
  have max8 : (maxSample f : F32) = FOps.ofNat 255 := by rw [maxSample, (rgb8 hf).2]
  -- values below 0
  have below : ∀ {s : Bool} {q : ℚ}, signed s q ≤ 0 → stored p simd scalar w x .interleaved8 (fin s q) = 0 := by
    intro s q hq
    have := stored_clamp p simd scalar w x (v := fin s q) rfl (by linarith)
    rw [max_eq_left ((min_le_right _ _).trans hq), sub_zero] at this
    have h4 := (abs_lt.mp this).2
    have h5 : stored p simd scalar w x .interleaved8 (fin s q) < 1 := by exact_mod_cast h4
    omega
  rcases h with ⟨rfl, h0⟩ | ⟨r, ha, h1, h2, h3⟩ | ⟨q, hq, h1, h2, h0⟩ | ⟨q, hq, h1, h2, h3, h4, h5⟩
  · have e : F32.mul .nan (maxSample f) = .nan := rfl
    rw [hi.mul, e, stored_nan, h0, zero_mul, clamp_nonpos (le_refl _)]
    norm_num
    linarith
  · rw [← clamp_max, ← h3, clamp_max]
    rcases le_or_gt (-1) r with hr | hr
    · have hs := scale_app hi f ha (by rw [abs_le]; constructor <;> linarith) (herr2.trans (by norm_num))
      rw [(rgb8 hf).2] at hs
      norm_num at hs herr2
      have := stored_app p simd scalar w x hs (by linarith)
      refine lt_of_lt_of_le this (le_trans ?_ herr)
      linarith
    · rw [hi.mul, max8]
      have hs := app_mul (B := 6000) (A := 20) (C := 255) ha (app_nat (n := 255) (by norm_num)) (by rw [abs_le]; constructor <;> linarith)
        (by norm_num) (by norm_num at herr2 ⊢; linarith) (by norm_num) (by norm_num)
      obtain ⟨s, q, e, -, hq⟩ := hs
      rw [abs_le] at hq
      have hq2 := hq.2
      norm_num at hq2 herr2
      have hneg : ((signed s q : ℚ) : ℝ) ≤ ((0 : ℚ) : ℝ) := by push_cast; linarith
      rw [e, below (by exact_mod_cast hneg), clamp_nonpos (by linarith)]
      norm_num
      linarith
  · rw [hi.mul, max8]
    have h1r : (q : ℝ) ≤ -1 := by exact_mod_cast h1
    have h2r : (-300000 : ℝ) ≤ q := by exact_mod_cast h2
    have hs := app_mul (B := 80000000) (A := 300000) (C := 255) hq.app (app_nat (n := 255) (by norm_num)) (by rw [abs_le]; constructor <;> linarith)
      (by norm_num) (by norm_num) (by norm_num) (by norm_num)
    obtain ⟨s, q, e, -, hq⟩ := hs
    rw [abs_le] at hq
    have hq2 := hq.2
    norm_num at hq2
    have hneg : ((signed s q : ℚ) : ℝ) ≤ ((0 : ℚ) : ℝ) := by push_cast; linarith
    rw [e, below (by exact_mod_cast hneg), h0, zero_mul, clamp_nonpos (le_refl _)]
    norm_num
    linarith
  · have top : clamp255 (encodeTransfer rr t l * 255) = 255 := by
      unfold clamp255
      rw [min_eq_left (by linarith), max_eq_right (by norm_num)]
    rw [top, hi.mul, max8]
    norm_num at herr2
    by_cases hbig : (q : ℝ) ≤ 128
    · have hs := app_mul (B := 40000) (A := 128) (C := 255) hq.app (app_nat (n := 255) (by norm_num)) (by
        rw [abs_of_nonneg (by linarith)]; exact hbig) (by norm_num) (by norm_num) (by norm_num) (by norm_num)
      norm_num at hs
      have := stored_app p simd scalar w x hs (by linarith)
      have c1 : clamp255 ((q : ℝ) * 255) ≤ 255 := by unfold clamp255; exact max_le (by norm_num) (min_le_left _ _)
      have c2 : 255 - 255 * encodeError t ≤ clamp255 ((q : ℝ) * 255) := by
        unfold clamp255
        refine le_max_of_le_right (le_min ?_ ?_)
        · have : 0 ≤ encodeError t := by unfold encodeError; split <;> norm_num
          linarith
        · linarith
      norm_num at this herr
      rw [abs_lt] at this
      have hn : (stored p simd scalar w x .interleaved8 (F32.mul v (FOps.ofNat 255)) : ℝ) < ((257 : Nat) : ℝ) := by
        push_cast; linarith [this.2]
      have hn2 : ((253 : Nat) : ℝ) < (stored p simd scalar w x .interleaved8 (F32.mul v (FOps.ofNat 255)) : ℝ) := by
        push_cast; linarith [this.1]
      have hn3 : stored p simd scalar w x .interleaved8 (F32.mul v (FOps.ofNat 255)) < 257 := by exact_mod_cast hn
      have hn4 : 253 < stored p simd scalar w x .interleaved8 (F32.mul v (FOps.ofNat 255)) := by exact_mod_cast hn2
      generalize stored p simd scalar w x .interleaved8 (F32.mul v (FOps.ofNat 255)) = k at *
      refine lt_of_lt_of_le ?_ htol
      have : k = 254 ∨ k = 255 ∨ k = 256 := by omega
      rcases this with rfl | rfl | rfl <;> norm_num
    · rw [not_le] at hbig
      have hl : t = .Linear := by
        by_contra h
        linarith [h3 h]
      have ht : Truncates p w x := (hlin hl).resolve_left (by rw [← h4 hl]; linarith)
      have hs := app_mul (B := 6000000) (A := 19900) (C := 255) hq.app (app_nat (n := 255) (by norm_num)) (by
        rw [abs_of_nonneg (by linarith)]; exact h2) (by norm_num) (by norm_num) (by norm_num) (by norm_num)
      obtain ⟨s, c, e, -, hc⟩ := hs
      rw [abs_le] at hc
      have hc1 := hc.1
      norm_num at hc1
      have h255 : ((255 : ℚ) : ℝ) ≤ ((signed s c : ℚ) : ℝ) := by push_cast; linarith
      have := (C34_truncating_saturates ht simd scalar .interleaved8).1 (fin s c) (signed s c) rfl (by
        rw [show (Store.interleaved8.top : ℚ) = 255 by norm_num [Store.top]]; exact_mod_cast h255)
      rw [e, this]
      norm_num [Store.top]
      linarith

/-- The brightest component of a pixel of the source. -/
noncomputable def brightest (sc : ColorInfo) (V : Pic Nat) (x y : Nat) : ℝ :=
  let light (c : Chan) : ℝ := decodeTransfer (exactAr x) sc.transfer ((V c x y : ℝ) / 255)
  max (light .R) (max (light .G) (light .B))

/-- The error of the light as computed.  For PQ, whose light is not limited to white, it is relative to the brightest
component. -/
noncomputable def changeTolerance (sc : ColorInfo) (V : Pic Nat) (x y : Nat) : ℝ :=
  if sc.transfer = .BT2100PQ then 15 / 10 ^ 4 * max (1 / 10 ^ 3) (brightest sc V x y) else 12 / 10 ^ 6

/-- What is stored by a change of transfer function or primaries, as a formula. -/
theorem change_value (r : Run (p.real scalar) src dst sps dps m m') (hs : isYuv src.format = false)
    (hd : isYuv dst.format = false) (hne : ¬ (src.color.transfer = dst.color.transfer ∧ src.color.primaries = dst.color.primaries))
    {c : Chan} (hc : c = .R ∨ c = .G ∨ c = .B) {x y : Nat} (hx : x < dst.width) (hy : y < dst.height) :
    let ar := columnArith (p.real scalar) dst.width x
    let light (c : Chan) : F32 := decodeTransfer ar src.color.transfer (ar.div (FOps.ofNat (shown src.format sps m c x y)) (FOps.ofNat 255))
    sample dst.format dps m' c x y = some (stored p (p.libm scalar) scalar dst.width x .interleaved8
      (ar.mul (encodeTransfer ar dst.color.transfer (component (rowMul ar (rowMul ar (light .R, light .G, light .B)
        src.color.primaries.rgbToXyzMat) dst.color.primaries.xyzToRgbMat) c)) (maxSample dst.format))) := by
  intro ar light
  have hV := shown_depicts (w := src.width) (h := src.height) r.returned.vsrc.fits.1 m
  obtain ⟨a, hl⟩ : ∃ a, sampleLoc dst.format c x y = some a := by
    revert hd; rcases hc with rfl | rfl | rfl <;> cases dst.format <;> simp [isYuv, sampleLoc]
  have hb : ¬ BadChroma src.format src.color dst.format dst.color := by
    rintro ⟨_, h, _⟩
    revert h hd; cases dst.format <;> simp [isYuv, vsub]
  rw [r.depicts hb hV c x y a hx hy hl]
  have pick : converted (columnArith (p.real scalar) dst.width) src.format src.color dst.format dst.color
        (shown src.format sps m) c x y =
      stored p (p.libm scalar) scalar dst.width x .interleaved8 ((columnArith (p.real scalar) dst.width x).mul
        (changeColor (columnArith (p.real scalar) dst.width) src.color dst.color (fun c x y =>
          (columnArith (p.real scalar) dst.width x).div (FOps.ofNat (shown src.format sps m c x y)) (FOps.ofNat 255)) c x y)
        (maxSample dst.format)) := by
    have e1 : readPic (columnArith (p.real scalar) dst.width) src.format src.color (shown src.format sps m) =
        withAlpha src.format (Spec.normalize (columnArith (p.real scalar) dst.width) src.format (shown src.format sps m)) := by
      cases src.color <;> simp [readPic, hs]
    have e2 : ∀ q : Pic F32, writePic (columnArith (p.real scalar) dst.width) dst.format dst.color q = q := by
      intro q; cases dst.color <;> simp [writePic, hd]
    have e3 : ∀ c x y, c ≠ .A → withAlpha src.format (Spec.normalize (columnArith (p.real scalar) dst.width) src.format
        (shown src.format sps m)) c x y =
        (columnArith (p.real scalar) dst.width x).div (FOps.ofNat (shown src.format sps m c x y)) (FOps.ofNat 255) := by
      intro c x y h
      rw [withAlpha, if_neg (by rintro ⟨rfl, _⟩; exact h rfl), Spec.normalize, maxSample, (rgb8 hs).2]
    rw [converted, convertedF, if_neg (fun h => hne ⟨by rw [h.2], by rw [h.2]⟩), e1, adaptPic, if_neg hne, e2]
    have e4 : changeColor (columnArith (p.real scalar) dst.width) src.color dst.color (withAlpha src.format
        (Spec.normalize (columnArith (p.real scalar) dst.width) src.format (shown src.format sps m))) c x y =
        changeColor (columnArith (p.real scalar) dst.width) src.color dst.color (fun c x y =>
          (columnArith (p.real scalar) dst.width x).div (FOps.ofNat (shown src.format sps m c x y)) (FOps.ofNat 255)) c x y := by
      simp only [changeColor]
      rw [e3 .R _ _ nofun, e3 .G _ _ nofun, e3 .B _ _ nofun]
      rcases hc with rfl | rfl | rfl <;> rfl
    simp only [quantize, hd, if_true, e4]
    rfl
  rw [pick]
  rcases hc with rfl | rfl | rfl <;> rfl

/-- What is stored by a change of transfer function or primaries: the light `X` as computed, encoded. -/
theorem change_stored (r : Run (p.real scalar) src dst sps dps m m') (ha : scalar.Accurate) (hs : isYuv src.format = false)
    (hd : isYuv dst.format = false) (hne : ¬ (src.color.transfer = dst.color.transfer ∧ src.color.primaries = dst.color.primaries))
    {c : Chan} (hc : c = .R ∨ c = .G ∨ c = .B) {x y : Nat} (hx : x < dst.width) (hy : y < dst.height) :
    ∃ (v : F32) (X : ℚ), Is v X ∧ Good v ∧ -19900 ≤ X ∧ X ≤ 19900 ∧ changeTolerance src.color (shown src.format sps m) x y ≤ 15 ∧
      (src.color.transfer ≠ .BT2100PQ → lightIn src.color dst.color (shown src.format sps m) c x y ≤ 2) ∧
      |(X : ℝ) - lightIn src.color dst.color (shown src.format sps m) c x y| + 1 / 10 ^ 8 ≤
        changeTolerance src.color (shown src.format sps m) x y ∧
      sample dst.format dps m' c x y = some (stored p (p.libm scalar) scalar dst.width x .interleaved8
        ((columnArith (p.real scalar) dst.width x).mul
          (encodeTransfer (columnArith (p.real scalar) dst.width x) dst.color.transfer v) (maxSample dst.format))) := by
  have hf := column_floats p ha dst.width x
  have he := exactAr_exact x
  have hle := shown_le (rgb8 hs).1 sps m
  rw [change_value r hs hd hne hc hx hy]
  -- the light as computed
  by_cases hst : src.color.transfer = .BT2100PQ
  · have l1 := light_pq_app he hf (hle .R x y)
    have l2 := light_pq_app he hf (hle .G x y)
    have l3 := light_pq_app he hf (hle .B x y)
    rw [← hst] at l1 l2 l3
    set S : ℝ := max (1 / 10 ^ 3) (brightest src.color (shown src.format sps m) x y) with hS
    have hS0 : 1 / 10 ^ 3 ≤ S := le_max_left _ _
    have hS1 : 1 / 10 ^ 4 ≤ S := le_trans (by norm_num) hS0
    have b1 : decodeTransfer (exactAr x) src.color.transfer ((shown src.format sps m .R x y : ℝ) / 255) ≤ S :=
      le_max_of_le_right (le_max_left _ _)
    have b2 : decodeTransfer (exactAr x) src.color.transfer ((shown src.format sps m .G x y : ℝ) / 255) ≤ S :=
      le_max_of_le_right (le_max_of_le_right (le_max_left _ _))
    have b3 : decodeTransfer (exactAr x) src.color.transfer ((shown src.format sps m .B x y : ℝ) / 255) ≤ S :=
      le_max_of_le_right (le_max_of_le_right (le_max_right _ _))
    have hS2 : S ≤ 10000 := max_le (by norm_num) (max_le l1.2.2 (max_le l2.2.2 l3.2.2))
    have err : ∀ {q : ℝ}, q ≤ S → 56 / 10 ^ 5 * q + 2 / 10 ^ 10 ≤ 57 / 10 ^ 5 * S := by
      intro q hq
      norm_num at hS1 ⊢
      linarith
    obtain ⟨m1, m2, m3⟩ := mix_app_scaled he hf.toIsIeee src.color.primaries dst.color.primaries hS1 (hS2.trans (by norm_num))
      (p := (_, _, _)) (q := (_, _, _)) (l1.1.mono (err b1)) (l2.1.mono (err b2)) (l3.1.mono (err b3)) ⟨l1.2.1, b1⟩ ⟨l2.2.1, b2⟩ ⟨l3.2.1, b3⟩
    obtain ⟨g1, g2, g3⟩ := mix_range_scaled he src.color.primaries dst.color.primaries (p := (_, _, _)) (by norm_num at hS1; linarith)
      ⟨l1.2.1, b1⟩ ⟨l2.2.1, b2⟩ ⟨l3.2.1, b3⟩
    have key : ∀ {v : F32} {L : ℝ}, App v L (149 / 10 ^ 5 * S) → Good v → -8 / 10 * S ≤ L ∧ L ≤ 19 / 10 * S →
        ∃ X : ℚ, Is v X ∧ Good v ∧ -19900 ≤ X ∧ X ≤ 19900 ∧ changeTolerance src.color (shown src.format sps m) x y ≤ 15 ∧
          (src.color.transfer ≠ .BT2100PQ → L ≤ 2) ∧ |(X : ℝ) - L| + 1 / 10 ^ 8 ≤
          changeTolerance src.color (shown src.format sps m) x y := by
      intro v L hv hg hL
      obtain ⟨X, hX, hd1⟩ := hv.is
      have hd2 := abs_le.mp hd1
      have hd3 := hd2.1
      have hd4 := hd2.2
      norm_num at hd3 hd4
      have X1 : ((-19900 : ℚ) : ℝ) ≤ X := by push_cast; linarith [hL.1]
      have X2 : (X : ℝ) ≤ ((19900 : ℚ) : ℝ) := by push_cast; linarith [hL.2]
      rw [changeTolerance, if_pos hst, ← hS]
      refine ⟨X, hX, hg, by exact_mod_cast X1, by exact_mod_cast X2, by norm_num; linarith, fun h => absurd hst h, ?_⟩
      norm_num at hd1 hS0 ⊢
      linarith
    rcases hc with rfl | rfl | rfl
    · obtain ⟨X, h1, h2, h3, h4, h5, h6, h7⟩ := key m1 (good_dot hf.toIsIeee) g1
      exact ⟨_, X, h1, h2, h3, h4, h5, h6, h7, rfl⟩
    · obtain ⟨X, h1, h2, h3, h4, h5, h6, h7⟩ := key m2 (good_dot hf.toIsIeee) g2
      exact ⟨_, X, h1, h2, h3, h4, h5, h6, h7, rfl⟩
    · obtain ⟨X, h1, h2, h3, h4, h5, h6, h7⟩ := key m3 (good_dot hf.toIsIeee) g3
      exact ⟨_, X, h1, h2, h3, h4, h5, h6, h7, rfl⟩
  · have l1 := light_app hf he hst (hle .R x y)
    have l2 := light_app hf he hst (hle .G x y)
    have l3 := light_app hf he hst (hle .B x y)
    obtain ⟨m1, m2, m3⟩ := mix_app he hf.toIsIeee src.color.primaries dst.color.primaries
      (p := (_, _, _)) (q := (_, _, _)) l1.1 l2.1 l3.1 l1.2 l2.2 l3.2
    obtain ⟨b1, b2, b3⟩ := mix_range he src.color.primaries dst.color.primaries (p := (_, _, _)) l1.2 l2.2 l3.2
    have key : ∀ {v : F32} {L : ℝ}, App v L (11 / 10 ^ 6) → Good v → -8 / 10 ≤ L ∧ L ≤ 19 / 10 →
        ∃ X : ℚ, Is v X ∧ Good v ∧ -19900 ≤ X ∧ X ≤ 19900 ∧ changeTolerance src.color (shown src.format sps m) x y ≤ 15 ∧
          (src.color.transfer ≠ .BT2100PQ → L ≤ 2) ∧ |(X : ℝ) - L| + 1 / 10 ^ 8 ≤
          changeTolerance src.color (shown src.format sps m) x y := by
      intro v L hv hg hL
      obtain ⟨X, hX, hd1⟩ := hv.is
      have hd2 := abs_le.mp hd1
      have hd3 := hd2.1
      have hd4 := hd2.2
      norm_num at hd3 hd4
      have X1 : ((-19900 : ℚ) : ℝ) ≤ X := by push_cast; linarith [hL.1]
      have X2 : (X : ℝ) ≤ ((19900 : ℚ) : ℝ) := by push_cast; linarith [hL.2]
      rw [changeTolerance, if_neg hst]
      refine ⟨X, hX, hg, by exact_mod_cast X1, by exact_mod_cast X2, by norm_num, fun _ => hL.2.trans (by norm_num), ?_⟩
      norm_num at hd1 ⊢
      linarith
    rcases hc with rfl | rfl | rfl
    · obtain ⟨X, h1, h2, h3, h4, h5, h6, h7⟩ := key m1 (good_dot hf.toIsIeee) b1
      exact ⟨_, X, h1, h2, h3, h4, h5, h6, h7, rfl⟩
    · obtain ⟨X, h1, h2, h3, h4, h5, h6, h7⟩ := key m2 (good_dot hf.toIsIeee) b2
      exact ⟨_, X, h1, h2, h3, h4, h5, h6, h7, rfl⟩
    · obtain ⟨X, h1, h2, h3, h4, h5, h6, h7⟩ := key m3 (good_dot hf.toIsIeee) b3
      exact ⟨_, X, h1, h2, h3, h4, h5, h6, h7, rfl⟩

/-- **C50** (partial: left out is PQ light beyond 128 written to a `Linear` image by AVX2 or AVX-512, for which it is false, see
`C50_linear_black`). Every component stored is, within 1.001 codes (PQ: 1.02), the encoding of a light that differs from the
exact one by at most 1.2·10⁻⁵ of reference white or, for PQ sources, 0.15% of the brightest component; light below 0 counts as
0. -/
theorem C50_light_partial (r : Run (p.real scalar) src dst sps dps m m') (ha : scalar.Accurate) (hs : isYuv src.format = false)
    (hd : isYuv dst.format = false) (hne : ¬ (src.color.transfer = dst.color.transfer ∧ src.color.primaries = dst.color.primaries))
    {c : Chan} (hc : c = .R ∨ c = .G ∨ c = .B) {x y : Nat} (hx : x < dst.width) (hy : y < dst.height)
    (hlin : src.color.transfer = .BT2100PQ → dst.color.transfer = .Linear →
      lightIn src.color dst.color (shown src.format sps m) c x y + changeTolerance src.color (shown src.format sps m) x y ≤ 128 ∨
        Truncates p dst.width x) :
    ∃ (n : Nat) (l : ℝ), sample dst.format dps m' c x y = some n ∧ 0 ≤ l ∧
      |l - max 0 (lightIn src.color dst.color (shown src.format sps m) c x y)| ≤
        changeTolerance src.color (shown src.format sps m) x y ∧
      |(n : ℝ) - clamp255 (encodeTransfer (exactAr x) dst.color.transfer l * 255)| < storeTolerance dst.color.transfer := by
  obtain ⟨v, X, hX, hg, X1, X2, ht, hw, hL, e⟩ := change_stored r ha hs hd hne hc hx hy
  obtain ⟨l, h0, hl, hen⟩ := enc_any (exactAr_exact x) (column_floats p ha dst.width x) dst.color.transfer hX hg X1 X2
  have h4 : |max 0 (X : ℝ) - max 0 (lightIn src.color dst.color (shown src.format sps m) c x y)| ≤
      |(X : ℝ) - lightIn src.color dst.color (shown src.format sps m) c x y| := by
    rw [max_comm 0, max_comm 0]; exact abs_max_sub_max_le_abs _ _ 0
  have h5 := abs_sub_le l (max 0 (X : ℝ)) (max 0 (lightIn src.color dst.color (shown src.format sps m) c x y))
  have h6 : |l - max 0 (lightIn src.color dst.color (shown src.format sps m) c x y)| ≤
      changeTolerance src.color (shown src.format sps m) x y := by linarith
  refine ⟨_, l, e, h0, h6, stored_encodes hen p _ _ _ _ hd ?_⟩
  intro hlinear
  have h7 := (abs_le.mp h6).2
  by_cases hst : src.color.transfer = .BT2100PQ
  · refine (hlin hst hlinear).imp_left fun h => ?_
    rcases le_total 0 (lightIn src.color dst.color (shown src.format sps m) c x y) with h8 | h8
    · rw [max_eq_right h8] at h7; linarith
    · rw [max_eq_left h8, sub_zero] at h7; linarith
  · have h8 : max 0 (lightIn src.color dst.color (shown src.format sps m) c x y) ≤ 2 := max_le (by norm_num) (hw hst)
    exact .inl (by linarith)

/-- Light beyond 129, converted to a `Linear` image by the vector code of AVX2 or AVX-512, is stored as 0. -/
theorem C50_linear_black (r : Run (p.real scalar) src dst sps dps m m') (ha : scalar.Accurate) (hs : isYuv src.format = false)
    (hd : isYuv dst.format = false) (hst : src.color.transfer = .BT2100PQ) (hdt : dst.color.transfer = .Linear)
    {c : Chan} (hc : c = .R ∨ c = .G ∨ c = .B) {x y : Nat} (hx : x < dst.width) (hy : y < dst.height)
    (hp : p = .avx2 ∨ p = .avx512) (hv : ¬ Truncates p dst.width x)
    (hl : 129 + changeTolerance src.color (shown src.format sps m) x y ≤ lightIn src.color dst.color (shown src.format sps m) c x y) :
    sample dst.format dps m' c x y = some 0 := by
  obtain ⟨v, X, hX, hg, X1, X2, ht, hw, hL, e⟩ := change_stored r ha hs hd (by rw [hst, hdt]; simp) hc hx hy
  rw [e, hdt]
  have hi : IsIeee (columnArith (p.real scalar) dst.width x) := column_ieee p (p.libm scalar) scalar dst.width x
  have h1 := (abs_le.mp (show _ ≤ _ by linarith : |(X : ℝ) - lightIn src.color dst.color (shown src.format sps m) c x y| ≤
    changeTolerance src.color (shown src.format sps m) x y)).1
  have h2 : (X : ℝ) ≤ ((19900 : ℚ) : ℝ) := by exact_mod_cast X2
  push_cast at h2
  have e1 : encodeTransfer (columnArith (p.real scalar) dst.width x) .Linear v = v := rfl
  rw [e1, hi.mul, maxSample, (rgb8 hd).2, show (2 ^ 8 - 1 : Nat) = 255 from rfl]
  have hs := app_mul (B := 6000000) (A := 19900) (C := 255) hX.app (app_nat (n := 255) (by norm_num)) (by
    rw [abs_of_nonneg (by linarith)]; exact h2) (by norm_num) (by norm_num) (by norm_num) (by norm_num)
  obtain ⟨s, q, e, -, hq⟩ := hs
  have hq1 := (abs_le.mp hq).1
  norm_num at hq1
  have hr : ((32768 : ℚ) : ℝ) ≤ ((signed s q : ℚ) : ℝ) := by push_cast; linarith
  have hr2 : (32768 : ℚ) ≤ signed s q := by exact_mod_cast hr
  rw [e]
  have key := C34_packed8_overflow (p.libm scalar) scalar (fin s q) (Or.inr ⟨_, rfl, by linarith⟩)
  simp only [Truncates, not_or, not_not] at hv
  obtain ⟨-, -, hv⟩ := hv
  rcases hp with rfl | rfl
  · simp only [stored, columnArith]
    rw [if_pos (by exact hv)]
    exact congrArg some key.2.1
  · simp only [stored, columnArith]
    rw [if_pos (by exact hv)]
    exact congrArg some key.2.2

/-- How far the stored codes may be from the exact ones.  Near black the roots of `Gamma22`, `Gamma28` and HLG magnify the
errors of the light. -/
noncomputable def codeTolerance : ColorTransfer → ℝ
  | .Linear => 1 + 5 / 1000
  | .SRGB => 1 + 5 / 100
  | .SDR => 1 + 1 / 10
  | .BT2100HLG => 2 + 6 / 10
  | .Gamma22 => 2 + 5 / 10
  | .Gamma28 => 5 + 5 / 10
  | .BT2100PQ => 1 + 7 / 10

/-- **C50** (partial: PQ sources are left out). The stored codes, compared with the exact formulas. -/
theorem C50_codes_partial (r : Run (p.real scalar) src dst sps dps m m') (ha : scalar.Accurate) (hs : isYuv src.format = false)
    (hd : isYuv dst.format = false) (hst : src.color.transfer ≠ .BT2100PQ)
    (hne : ¬ (src.color.transfer = dst.color.transfer ∧ src.color.primaries = dst.color.primaries)) {c : Chan}
    (hc : c = .R ∨ c = .G ∨ c = .B) {x y : Nat} (hx : x < dst.width) (hy : y < dst.height) :
    ∃ n : Nat, sample dst.format dps m' c x y = some n ∧
      |(n : ℝ) - clamp255 (encodeTransfer (exactAr x) dst.color.transfer
        (max 0 (lightIn src.color dst.color (shown src.format sps m) c x y)) * 255)| < codeTolerance dst.color.transfer := by
  obtain ⟨n, l, h1, h0, h2, h3⟩ := C50_light_partial r ha hs hd hne hc hx hy (fun h => absurd h hst)
  obtain ⟨-, -, -, -, -, -, -, hw, -, -⟩ := change_stored r ha hs hd hne hc hx hy
  refine ⟨n, h1, ?_⟩
  rw [changeTolerance, if_neg hst] at h2
  have hm : max 0 (lightIn src.color dst.color (shown src.format sps m) c x y) ≤ 2 := max_le (by norm_num) (hw hst)
  have h4 : |encodeTransfer (exactAr x) dst.color.transfer l - encodeTransfer (exactAr x) dst.color.transfer
      (max 0 (lightIn src.color dst.color (shown src.format sps m) c x y))| * 255 + storeTolerance dst.color.transfer ≤
      codeTolerance dst.color.transfer := by
    by_cases hdt : dst.color.transfer = .BT2100PQ
    · rw [hdt]
      have := enc_pq_gap (exactAr_exact x) h0 (le_max_left _ _) (by norm_num at h2; linarith [(abs_le.mp h2).2]) (by linarith) h2
      rw [storeTolerance, if_pos rfl, codeTolerance]
      norm_num at this ⊢
      linarith
    · have := enc_cont (exactAr_exact x) hdt h0 (le_max_left _ _) h2
      have h7 : 1 + 1 / 1000 + encodeGap dst.color.transfer * 255 ≤ codeTolerance dst.color.transfer := by
        revert hdt
        cases dst.color.transfer <;> intro hdt <;> first | exact absurd rfl hdt | (simp only [encodeGap, codeTolerance]; norm_num)
      rw [storeTolerance, if_neg hdt]
      linarith
  have h5 := clamp_lipschitz (encodeTransfer (exactAr x) dst.color.transfer l * 255) (encodeTransfer (exactAr x)
    dst.color.transfer (max 0 (lightIn src.color dst.color (shown src.format sps m) c x y)) * 255)
  rw [← sub_mul, abs_mul, abs_of_nonneg (show (0 : ℝ) ≤ 255 by norm_num)] at h5
  have h6 := abs_sub_le (n : ℝ) (clamp255 (encodeTransfer (exactAr x) dst.color.transfer l * 255)) (clamp255 (encodeTransfer
    (exactAr x) dst.color.transfer (max 0 (lightIn src.color dst.color (shown src.format sps m) c x y)) * 255))
  linarith

/-- The libm of the examples: the crate's own functions. -/
theorem libm_exists : ∃ scalar : Libm, scalar.Accurate := ⟨x86Libm, x86_accurate⟩

/-- An sRGB image of BT.709 primaries becomes an SDR image of BT.2020 primaries, on AVX-512. -/
example (m : Mem) : ∃ (m' : Mem) (n : Nat), sample .RGBA [⟨⟨200, 32⟩, 16⟩] m' .G 3 1 = some n ∧
    |(n : ℝ) - clamp255 (encodeTransfer (exactAr 3) .SDR (max 0 (lightIn (.RGB ⟨.SRGB, .BT709⟩) (.RGB ⟨.SDR, .BT2020⟩)
      (shown .RGB [⟨⟨0, 24⟩, 12⟩] m) .G 3 1)) * 255)| < 1.1 := by
  obtain ⟨scalar, ha⟩ := libm_exists
  obtain ⟨m', r⟩ := run_exists (c := Platform.avx512.real scalar) (platform_lawful .avx512 _ _) (src := rgb24At 0)
    (dst := .raw .RGBA 4 2 [⟨⟨200, 32⟩, 16⟩] (.RGB ⟨.SDR, .BT2020⟩)) (sps := [⟨⟨0, 24⟩, 12⟩]) (dps := [⟨⟨200, 32⟩, 16⟩]) rfl rfl
    (planesDisjoint_of (by decide)) (separate_of (by decide)) (uniform_of (by decide)) (by decide) m
  obtain ⟨n, h1, h2⟩ := C50_codes_partial r ha rfl rfl nofun (by decide) (c := .G) (by simp) (x := 3) (y := 1) (by decide)
    (by decide)
  exact ⟨m', n, h1, lt_of_lt_of_le h2 (by norm_num [codeTolerance, ColorInfo.transfer, Img.color])⟩

/-- A PQ image becomes an sRGB image, on NEON: how bright the light may be does not matter. -/
example (m : Mem) : ∃ (m' : Mem) (n : Nat) (l : ℝ), sample .RGBA [⟨⟨200, 32⟩, 16⟩] m' .G 3 1 = some n ∧ 0 ≤ l ∧
    |l - max 0 (lightIn (.RGB ⟨.BT2100PQ, .BT2020⟩) (.RGB ⟨.SRGB, .BT709⟩) (shown .RGB [⟨⟨0, 24⟩, 12⟩] m) .G 3 1)| ≤
      15 / 10 ^ 4 * max (1 / 10 ^ 3) (brightest (.RGB ⟨.BT2100PQ, .BT2020⟩) (shown .RGB [⟨⟨0, 24⟩, 12⟩] m) 3 1) ∧
    |(n : ℝ) - clamp255 (encodeTransfer (exactAr 3) .SRGB l * 255)| < 1 + 1 / 1000 := by
  obtain ⟨scalar, ha⟩ := libm_exists
  obtain ⟨m', r⟩ := run_exists (c := Platform.neon.real scalar) (platform_lawful .neon _ _)
    (src := .raw .RGB 4 2 [⟨⟨0, 24⟩, 12⟩] (.RGB ⟨.BT2100PQ, .BT2020⟩))
    (dst := .raw .RGBA 4 2 [⟨⟨200, 32⟩, 16⟩] (.RGB ⟨.SRGB, .BT709⟩)) (sps := [⟨⟨0, 24⟩, 12⟩]) (dps := [⟨⟨200, 32⟩, 16⟩]) rfl rfl
    (planesDisjoint_of (by decide)) (separate_of (by decide)) (uniform_of (by decide)) (by decide) m
  obtain ⟨n, l, h1, h2, h3, h4⟩ := C50_light_partial r ha rfl rfl (by decide) (c := .G) (by simp) (x := 3) (y := 1) (by decide)
    (by decide) nofun
  rw [changeTolerance, if_pos (show (Img.color _).transfer = .BT2100PQ from rfl)] at h3
  exact ⟨m', n, l, h1, h2, h3, by simpa [storeTolerance, Img.color, ColorInfo.transfer] using h4⟩

/-- The light of PQ white. -/
theorem white_pq (x : Nat) : 9000 ≤ decodeTransfer (exactAr x) .BT2100PQ (((255 : Nat) : ℝ) / 255) := by
  have e : (((255 : Nat) : ℝ) / 255) = 1 := by norm_num
  rw [dec_pq (exactAr_exact x), e, max_eq_left (show (0 : ℝ) ≤ 1 by norm_num), Real.one_rpow]
  have h : (9 / 10 : ℝ) ≤ (max (1 - 0.8359375) 0 / (18.851563 - 1 * 18.6875)) ^ (1 / 0.15930176 : ℝ) := by
    refine le_trans ?_ (Real.rpow_le_rpow_of_exponent_ge (y := ((7 : ℕ) : ℝ)) ?_ ?_ ?_)
    · rw [Real.rpow_natCast, max_eq_left (by norm_num)]; norm_num
    · rw [max_eq_left (by norm_num)]; norm_num
    · rw [max_eq_left (by norm_num)]; norm_num
    · norm_num
  linarith

/-- White of a PQ image becomes black when AVX2 converts it to a `Linear` image (in scalar code it becomes white). -/
example : ∃ m' : Mem, sample .RGB [⟨⟨200, 96⟩, 48⟩] m' .G 3 0 = some 0 := by
  obtain ⟨scalar, ha⟩ := libm_exists
  obtain ⟨m', r⟩ := run_exists (c := Platform.avx2.real scalar) (platform_lawful .avx2 _ _)
    (src := .raw .RGB 16 2 [⟨⟨0, 96⟩, 48⟩] (.RGB ⟨.BT2100PQ, .BT709⟩))
    (dst := .raw .RGB 16 2 [⟨⟨200, 96⟩, 48⟩] (.RGB ⟨.Linear, .BT709⟩)) (sps := [⟨⟨0, 96⟩, 48⟩]) (dps := [⟨⟨200, 96⟩, 48⟩]) rfl rfl
    (planesDisjoint_of (by decide)) (separate_of (by decide)) (uniform_of (by decide)) (by decide) (fun _ => 255)
  refine ⟨m', C50_linear_black r ha rfl rfl rfl rfl (c := .G) (by simp) (x := 3) (y := 0) (by decide) (by decide) (.inl rfl)
    (by simp [Truncates]; decide) ?_⟩
  have ht : changeTolerance _ _ 3 0 ≤ 15 := (change_stored r ha rfl rfl (by decide) (c := .G) (by simp) (x := 3) (y := 0)
    (by decide) (by decide)).choose_spec.choose_spec.2.2.2.2.1
  have h1 := white_pq 3
  have h2 := (light_pq_app (exactAr_exact 3) (column_floats .scalar ha 1 0) (n := 255) (by norm_num)).2.2
  have hl : 1000 ≤ lightIn (.RGB ⟨.BT2100PQ, .BT709⟩) (.RGB ⟨.Linear, .BT709⟩) (shown .RGB [⟨⟨0, 96⟩, 48⟩] fun _ => 255) .G 3 0 := by
    have e : ∀ c, c = .R ∨ c = .G ∨ c = .B → shown .RGB [⟨⟨0, 96⟩, 48⟩] (fun _ => 255) c 3 0 = 255 := by
      rintro c (rfl | rfl | rfl) <;> decide
    unfold lightIn
    simp only [e .R (by simp), e .G (by simp), e .B (by simp), show (ColorInfo.RGB ⟨.BT2100PQ, .BT709⟩).transfer = .BT2100PQ from rfl,
      show (ColorInfo.RGB ⟨.BT2100PQ, .BT709⟩).primaries = .BT709 from rfl, show (ColorInfo.RGB ⟨.Linear, .BT709⟩).primaries = .BT709 from rfl]
    generalize decodeTransfer (exactAr 3) .BT2100PQ (((255 : Nat) : ℝ) / 255) = L at *
    simp only [component, rowMul, dot, (exactAr_exact 3).add, (exactAr_exact 3).mul, ColorPrimaries.rgbToXyzMat, BT709_RGB_TO_XYZ,
      ColorPrimaries.xyzToRgbMat, BT709_XYZ_TO_RGB, lit_real]
    norm_num [Rat.cast_ofScientific]
    linarith
  refine le_trans (add_le_add_right ht _) (le_trans (by norm_num) hl)

/-! ## Where it fails: YUV images with a gamma transfer function -/

/-- The blue component of pure green after its light went to XYZ and back, in binary32. -/
def greenBlue : F32 :=
  let ar := scalarArith ⟨fun _ _ => .nan, fun _ => .nan, fun _ => .nan⟩
  let n (k : Nat) : F32 := F32.div (FOps.ofNat k) (FOps.ofNat 255)
  (rowMul ar (rowMul ar (n 0, n 255, n 0) ColorPrimaries.BT709.rgbToXyzMat) ColorPrimaries.BT709.xyzToRgbMat).2.2

/-- It is negative. -/
theorem greenBlue_neg : ∃ q, greenBlue = .fin true q ∧ 0 < q := by
  have h : (match greenBlue with | .fin true q => decide (0 < q) | _ => false) = true := by decide +kernel
  cases e : greenBlue with
  | nan => rw [e] at h; cases h
  | inf s => rw [e] at h; cases h
  | fin s q =>
    cases s
    · rw [e] at h; cases h
    · rw [e] at h; exact ⟨q, rfl, of_decide_eq_true h⟩

theorem add_nan (y : F32) : F32.add y .nan = .nan := by cases y <;> rfl

/-- NaN is stored as 0 in YUV images. -/
theorem stored_nan_yuv (p : Platform) (simd scalar : Libm) (w x : Nat) :
    ((columnArith (p.ieee simd scalar) w x).q8 .nan).toNat = 0 ∧ ((columnArith (p.ieee simd scalar) w x).q16 .nan).toNat = 0 := by
  unfold columnArith
  cases p <;> split <;> exact ⟨rfl, rfl⟩

/-- Powers of negative numbers are NaN if the exponent is not an integer, as IEEE 754 demands. -/
def NegativePow (pow : F32 → F32 → F32) : Prop :=
  ∀ {q : ℚ} {y : F32} {Y : ℚ}, 0 < q → Is y Y → Y.den ≠ 1 → pow (fin true q) y = .nan

theorem negative_pow (hp : p ≠ .neon) (hpow : NegativePow scalar.pow) (w x : Nat) :
    NegativePow (columnArith (p.real scalar) w x).pow := by
  intro q y Y h hy hY
  have hscal : (scalarArith scalar).pow (fin true q) y = .nan := hpow h hy hY
  unfold columnArith
  cases p
  · split <;> exact hscal
  · split
    · exact x86Pow_neg h y
    · exact hscal
  · split
    · exact x86Pow_neg h y
    · exact hscal
  · exact absurd rfl hp

/-- On x86 and in scalar code, pure green of a linear image becomes black when written to a YUV image with a gamma transfer
function: its blue light is rounded below 0, the root of that is NaN, NaN spreads to Y, and is stored as 0.  The exact luma is
182 of 255 (BT.709, full range), see `C50_gamma_yuv_ideal`. -/
theorem C50_gamma_yuv_black (r : Run (p.real scalar) src dst sps dps m m') (hp : p ≠ .neon)
    (hpow : NegativePow scalar.pow) (hs : isYuv src.format = false) (hd : isYuv dst.format = true)
    {i : YuvColorInfo} (hi : dst.color = .YUV i) (hm : isMatrix i.space = true) (hst : src.color.transfer = .Linear)
    (hsp : src.color.primaries = .BT709) (hdt : i.transfer = .Gamma22 ∨ i.transfer = .Gamma28) (hdp : i.primaries = .BT709)
    {x y : Nat} (hx : x < dst.width) (hy : y < dst.height) (hR : shown src.format sps m .R x y = 0)
    (hG : shown src.format sps m .G x y = 255) (hB : shown src.format sps m .B x y = 0) :
    sample dst.format dps m' .Y x y = some 0 := by
  have hc : IsIeee (columnArith (p.real scalar) dst.width x) := column_ieee p (p.libm scalar) scalar dst.width x
  have hpw : NegativePow (columnArith (p.real scalar) dst.width x).pow := negative_pow hp hpow _ _
  have hV := shown_depicts (w := src.width) (h := src.height) r.returned.vsrc.fits.1 m
  obtain ⟨l, hl⟩ : ∃ l, sampleLoc dst.format .Y x y = some l := by
    revert hd; cases dst.format <;> simp [isYuv, sampleLoc]
  have hb : ¬ BadChroma src.format src.color dst.format dst.color := by
    rintro ⟨_, _, j, h1, h2⟩
    rw [hi] at h1; cases h1
    rw [hm] at h2; cases h2
  rw [r.depicts hb hV .Y x y l hx hy hl]
  have hne : ¬ (src.color.transfer = dst.color.transfer ∧ src.color.primaries = dst.color.primaries) := by
    rintro ⟨h, -⟩
    rw [hst, hi] at h
    rcases hdt with h' | h' <;> rw [show (ColorInfo.YUV i).transfer = i.transfer from rfl, h'] at h <;> cases h
  have e1 : readPic (columnArith (p.real scalar) dst.width) src.format src.color (shown src.format sps m) =
      withAlpha src.format (Spec.normalize (columnArith (p.real scalar) dst.width) src.format (shown src.format sps m)) := by
    cases src.color <;> simp [readPic, hs]
  have e3 : ∀ c, c ≠ .A → withAlpha src.format (Spec.normalize (columnArith (p.real scalar) dst.width) src.format
      (shown src.format sps m)) c x y = F32.div (FOps.ofNat (shown src.format sps m c x y)) (FOps.ofNat 255) := by
    intro c h
    rw [withAlpha, if_neg (by rintro ⟨rfl, _⟩; exact h rfl), Spec.normalize, maxSample, (rgb8 hs).2, hc.div]
  -- the blue component
  have hblue : changeColor (columnArith (p.real scalar) dst.width) src.color dst.color (withAlpha src.format
      (Spec.normalize (columnArith (p.real scalar) dst.width) src.format (shown src.format sps m))) .B x y = .nan := by
    obtain ⟨q, hq, hq0⟩ := greenBlue_neg
    simp only [changeColor, changeRgb, map3]
    rw [e3 .R nofun, e3 .G nofun, e3 .B nofun, hR, hG, hB, hst, hsp, hi,
      show (ColorInfo.YUV i).transfer = i.transfer from rfl, show (ColorInfo.YUV i).primaries = i.primaries from rfl, hdp]
    have e : (rowMul (columnArith (p.real scalar) dst.width x) (rowMul (columnArith (p.real scalar) dst.width x)
        (F32.div (FOps.ofNat 0) (FOps.ofNat 255), F32.div (FOps.ofNat 255) (FOps.ofNat 255),
          F32.div (FOps.ofNat 0) (FOps.ofNat 255)) ColorPrimaries.BT709.rgbToXyzMat)
        ColorPrimaries.BT709.xyzToRgbMat).2.2 = fin true q := by
      rw [← hq]
      simp only [rowMul, dot, hc.add, hc.mul]
      rfl
    simp only [decodeTransfer]
    rcases hdt with h | h <;> rw [h] <;> simp only [encodeTransfer] <;> rw [e]
    · exact hpw hq0 is_i22 (by decide +kernel)
    · exact hpw hq0 is_i28 (by decide +kernel)
  have hy : (yuvAt (columnArith (p.real scalar) dst.width) i (changeColor (columnArith (p.real scalar) dst.width) src.color dst.color
      (withAlpha src.format (Spec.normalize (columnArith (p.real scalar) dst.width) src.format (shown src.format sps m)))) x y).1
      = .nan := by
    rw [yuvAt, rgbToYuv_matrix _ hm, hblue]
    simp only [matMul, dot, hc.add, hc.mul]
    exact add_nan _
  have hv : convertedF (columnArith (p.real scalar) dst.width) src.format src.color dst.format dst.color
      (shown src.format sps m) .Y x y = .nan := by
    rw [convertedF, if_neg (fun h => hne ⟨by rw [h.2], by rw [h.2]⟩), e1, adaptPic, if_neg hne]
    simp only [hi, writePic, hd, if_true, encode]
    rw [← hi, hy]
    cases i.fullRange
    · simp only [compressLuma, Bool.false_eq_true, if_false, hc.add, hc.mul]; exact add_nan _
    · rfl
  obtain ⟨s1, s2⟩ : ((columnArith (p.real scalar) dst.width x).q8 .nan).toNat = 0 ∧
      ((columnArith (p.real scalar) dst.width x).q16 .nan).toNat = 0 := stored_nan_yuv p (p.libm scalar) scalar dst.width x
  simp only [converted, quantize, hd, hv, hc.mul]
  have e : F32.mul .nan (maxSample dst.format) = .nan := rfl
  rw [if_neg (by simp), e]
  split
  · exact congrArg some s1
  · exact congrArg some s2

/-- What the luma of that pixel should be: the share of green alone is more than 182 of 255. -/
theorem C50_gamma_yuv_ideal {sc dc : ColorInfo} {V : Pic Nat} {x y : Nat} (hst : sc.transfer = .Linear) (hsp : sc.primaries = .BT709)
    (hdt : dc.transfer = .Gamma22 ∨ dc.transfer = .Gamma28) (hdp : dc.primaries = .BT709) (hR : V .R x y = 0)
    (hG : V .G x y = 255) (hB : V .B x y = 0) :
    182 < 0.7152 * encodeTransfer (exactAr x) dc.transfer (max 0 (lightIn sc dc V .G x y)) * 255 := by
  have he := exactAr_exact x
  have hl : (999999 / 1000000 : ℝ) ≤ max 0 (lightIn sc dc V .G x y) := by
    refine le_trans ?_ (le_max_right _ _)
    simp only [lightIn, component, hst, hsp, hdp, decodeTransfer, rowMul, dot, he.add, he.mul, ColorPrimaries.rgbToXyzMat,
      ColorPrimaries.xyzToRgbMat, BT709_RGB_TO_XYZ, BT709_XYZ_TO_RGB, lit_real, hR, hG, hB]
    norm_num [Rat.cast_ofScientific]
  generalize max 0 (lightIn sc dc V .G x y) = l at *
  have pw : ∀ Z : ℝ, 0 ≤ Z → Z ≤ 1 → (999999 / 1000000 : ℝ) ≤ l ^ Z := by
    intro Z h0 h1
    calc (999999 / 1000000 : ℝ) = (999999 / 1000000 : ℝ) ^ (1 : ℝ) := (Real.rpow_one _).symm
      _ ≤ (999999 / 1000000 : ℝ) ^ Z := Real.rpow_le_rpow_of_exponent_ge (by norm_num) (by norm_num) h1
      _ ≤ l ^ Z := Real.rpow_le_rpow (by norm_num) hl h0
  rcases hdt with h | h <;> rw [h]
  · rw [enc_gamma22 he]
    have := pw (1 / 2.2) (by norm_num) (by norm_num)
    generalize l ^ (1 / 2.2 : ℝ) = q at *
    norm_num at this ⊢; linarith
  · rw [enc_gamma28 he]
    have := pw (1 / 2.8) (by norm_num) (by norm_num)
    generalize l ^ (1 / 2.8 : ℝ) = q at *
    norm_num at this ⊢; linarith

/-- A green image of 40 columns on AVX2, to a 4:4:4 image with `Gamma22`: the pixel in column 17 becomes black. -/
example : ∃ m m' : Mem, sample .RGB [⟨⟨0, 240⟩, 120⟩] m .G 17 1 = some 255 ∧
    sample .I444 [⟨⟨300, 80⟩, 40⟩, ⟨⟨400, 80⟩, 40⟩, ⟨⟨500, 80⟩, 40⟩] m' .Y 17 1 = some 0 := by
  obtain ⟨m', r⟩ := run_exists (c := Platform.avx2.real x86Libm) (platform_lawful .avx2 _ _)
    (src := .raw .RGB 40 2 [⟨⟨0, 240⟩, 120⟩] (.RGB ⟨.Linear, .BT709⟩))
    (dst := .raw .I444 40 2 [⟨⟨300, 80⟩, 40⟩, ⟨⟨400, 80⟩, 40⟩, ⟨⟨500, 80⟩, 40⟩] (.YUV ⟨.Gamma22, .BT709, .BT709, true⟩))
    (sps := [⟨⟨0, 240⟩, 120⟩]) (dps := [⟨⟨300, 80⟩, 40⟩, ⟨⟨400, 80⟩, 40⟩, ⟨⟨500, 80⟩, 40⟩]) rfl rfl
    (planesDisjoint_of (by decide)) (separate_of (by decide)) (uniform_of (by decide)) (by decide)
    (fun a => if a % 3 = 1 then 255 else 0)
  exact ⟨fun a => if a % 3 = 1 then 255 else 0, m', by decide, C50_gamma_yuv_black r nofun (fun h _ _ => x86Pow_neg h _) rfl rfl rfl rfl rfl rfl (Or.inl rfl) rfl (x := 17)
    (y := 1) (by decide) (by decide) (by decide) (by decide) (by decide)⟩

end Ezk.Props

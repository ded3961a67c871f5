import Verif.Props.BlackWhite
import Verif.Props.YuvGrey

/-!
# C74: black stays black, white stays white, in YUV
-/

namespace Ezk.Props
open Ezk Ezk.F32 Ezk.Spec

attribute [local instance] ratOps

variable {p : Platform} {scalar : Libm} {src dst : Img} {sps dps : List Plane} {m m' : Mem}

/-- The stored float of a pixel whose three signals are `v`. -/
def greyLuma (cs : ColorSpace) (f : PixelFormat) (full : Bool) (v : F32) : F32 :=
  let y := F32.add (F32.add (F32.mul v (forwardMat cs).m00) (F32.mul v (forwardMat cs).m01)) (F32.mul v (forwardMat cs).m02)
  F32.mul (if full then y else F32.add (FOps.div (FOps.lit 16.0) (FOps.lit 255.0)) (F32.mul y (FOps.div (FOps.lit 219.0) (FOps.lit 255.0))))
    (maxSample f)

/-- Lumas keep the order of the signals. -/
theorem luma_between {ar : Arith F32} (hi : IsIeee ar) {j : YuvColorInfo} (hm : isMatrix j.space = true)
    (f : PixelFormat) {u : C3 F32} {lo hi' : F32} (hlo : Ord 64 lo u.1 ∧ Ord 64 lo u.2.1 ∧ Ord 64 lo u.2.2)
    (hhi : Ord 64 u.1 hi' ∧ Ord 64 u.2.1 hi' ∧ Ord 64 u.2.2 hi') :
    ∃ a b c : ℚ, Is (greyLuma j.space f j.fullRange lo) a ∧ a ≤ b ∧ b ≤ c ∧ Is (greyLuma j.space f j.fullRange hi') c ∧
      Is (ar.mul (compressLuma ar j.fullRange (rgbToYuv ar j.space j.transfer j.primaries u).1) (maxSample f)) b := by
  have hM : 255 ≤ 2 ^ sampleBits f - 1 ∧ 2 ^ sampleBits f - 1 ≤ 4095 := by cases f <;> simp [sampleBits]
  have hmax : Is (maxSample f : F32) ((2 ^ sampleBits f - 1 : Nat) : ℚ) :=
    ⟨false, _, ofNat_eq (by omega), by positivity, by simp [signed]⟩
  have chain : ∀ {q q' : C3 F32}, Ord 64 q.1 q'.1 → Ord 64 q.2.1 q'.2.1 → Ord 64 q.2.2 q'.2.2 →
      Ord (2 * (8192 * 4095)) (ar.mul (compressLuma ar j.fullRange (rgbToYuv ar j.space j.transfer j.primaries q).1) (maxSample f))
        (ar.mul (compressLuma ar j.fullRange (rgbToYuv ar j.space j.transfer j.primaries q').1) (maxSample f)) := by
    intro q q' a b c
    have := ord_mul (K := 4095) (C := 2 * (8192 * 4095)) (ord_compressLuma hi hi j.fullRange (ord_luma hi hi hm j.transfer j.primaries a b c)) hmax
      (by positivity) (by exact_mod_cast hM.2) (by norm_num) (by norm_num) (by norm_num)
    rwa [← hi.mul] at this
  have e : ∀ v, ar.mul (compressLuma ar j.fullRange (rgbToYuv ar j.space j.transfer j.primaries (v, v, v)).1) (maxSample f) =
      greyLuma j.space f j.fullRange v := by
    intro v
    rw [rgbToYuv_matrix _ hm]
    simp only [compressLuma, matMul, dot, hi.add, hi.mul, greyLuma]
  obtain ⟨a, b, ia, ib, -, -, hab⟩ := chain (q := (lo, lo, lo)) (q' := u) hlo.1 hlo.2.1 hlo.2.2
  obtain ⟨b', c, ib', ic, -, -, hbc⟩ := chain (q := u) (q' := (hi', hi', hi')) hhi.1 hhi.2.1 hhi.2.2
  rw [e] at ia ic
  obtain rfl := ib.unique ib'
  exact ⟨a, b, c, ia, hab, hbc, ic, ib⟩

/-- Luma codes of black. -/
def blackCode (full : Bool) : Nat := if full then 0 else 16
/-- Luma codes of white. -/
def whiteCode (full : Bool) : Nat := if full then 255 else 235

theorem black_ends {cs : ColorSpace} (hm : isMatrix cs = true) (f : PixelFormat) (full : Bool) :
    between (greyLuma cs f full (fin true (1 / 16384))) (((blackCode full : ℚ) - 2 / 100) / 255 * (2 ^ sampleBits f - 1 : Nat)) 4096 = true ∧
    between (greyLuma cs f full (fin false (31 / 16384))) (-1) (((blackCode full : ℚ) + 49 / 100) / 255 * (2 ^ sampleBits f - 1 : Nat)) = true := by
  revert hm
  cases cs <;> cases f <;> cases full <;> decide +kernel

theorem white_ends {cs : ColorSpace} (hm : cs = .BT601 ∨ cs = .BT709) (f : PixelFormat) (full : Bool) :
    between (greyLuma cs f full (fin false (4089 / 4096))) (((whiteCode full : ℚ) - 45 / 100) / 255 * (2 ^ sampleBits f - 1 : Nat)) 4196 = true ∧
    between (greyLuma cs f full (fin false (4103 / 4096))) (-1) (((whiteCode full : ℚ) + 45 / 100) / 255 * (2 ^ sampleBits f - 1 : Nat)) = true := by
  rcases hm with rfl | rfl <;> cases f <;> cases full <;> decide +kernel

theorem bt2020_ends (f : PixelFormat) (full : Bool) :
    between (greyLuma .BT2020 f full (fin false (4089 / 4096))) 0 4196 = true ∧
    between (greyLuma .BT2020 f full (fin false (4103 / 4096))) (-1) (165 / 255 * (2 ^ sampleBits f - 1 : Nat)) = true := by
  cases f <;> cases full <;> decide +kernel

/-- Signals between two bounds are ordered with them. -/
theorem ord_bounds {v lo hi : F32} {a b : ℚ} (hlo : Is lo a) (hhi : Is hi b) (h0 : -64 ≤ a) (h1 : b ≤ 64) {q : ℚ} (hq : Is v q)
    (ha : (a : ℝ) ≤ q) (hb : (q : ℝ) ≤ b) : Ord 64 lo v ∧ Ord 64 v hi := by
  have ha : a ≤ q := by exact_mod_cast ha
  have hb : q ≤ b := by exact_mod_cast hb
  exact ⟨⟨a, q, hlo, hq, abs_le.mpr ⟨by linarith, by linarith⟩, abs_le.mpr ⟨by linarith, by linarith⟩, ha⟩,
    ⟨q, b, hq, hhi, abs_le.mpr ⟨by linarith, by linarith⟩, abs_le.mpr ⟨by linarith, by linarith⟩, hb⟩⟩

/-- The signals of black. -/
theorem black_signal (ha : scalar.Accurate) (s : ColorTransfer) {t : ColorTransfer} (ht : ¬ GammaTransfer t) (sp dp : ColorPrimaries) (w x : Nat)
    {c : Chan} (hc : c = .R ∨ c = .G ∨ c = .B) :
    let ar := columnArith (p.real scalar) w x
    let l := decodeTransfer ar s (ar.div (FOps.ofNat 0) (FOps.ofNat 255))
    ∃ v : ℚ, Is (encodeTransfer ar t (component (rowMul ar (rowMul ar (l, l, l) sp.rgbToXyzMat) dp.xyzToRgbMat) c)) v ∧
      -1 / 16384 ≤ (v : ℝ) ∧ (v : ℝ) ≤ 31 / 16384 := by
  intro ar l
  have he := exactAr_exact x
  have hf : Floats ar := column_floats p ha w x
  obtain ⟨q, hq, dq⟩ := (black_light he hf s).is
  rw [sub_zero] at dq
  obtain ⟨m1, m2, m3⟩ := mix_grey_app he hf.toIsIeee sp dp hq (S := 1 / 10 ^ 4) (le_refl _) (by norm_num) (dq.trans (by norm_num))
  have comp : App (component (rowMul ar (rowMul ar (l, l, l) sp.rgbToXyzMat) dp.xyzToRgbMat) c) q (35 / 10 ^ 7 * (1 / 10 ^ 4)) ∧
      Good (component (rowMul ar (rowMul ar (l, l, l) sp.rgbToXyzMat) dp.xyzToRgbMat) c) := by
    rcases hc with rfl | rfl | rfl
    · exact ⟨m1, good_dot hf.toIsIeee⟩
    · exact ⟨m2, good_dot hf.toIsIeee⟩
    · exact ⟨m3, good_dot hf.toIsIeee⟩
  obtain ⟨hu, hg⟩ := comp
  generalize component (rowMul ar (rowMul ar (l, l, l) sp.rgbToXyzMat) dp.xyzToRgbMat) c = u at *
  obtain ⟨U, hU, dU⟩ := hu.is
  have dU0 : |(U : ℝ) - 0| ≤ 1 / 10 ^ 9 := by
    rw [sub_zero]
    have := abs_sub_abs_le_abs_sub (U : ℝ) q
    norm_num at dU dq ⊢; linarith
  have d1 := (abs_le.mp dU0).1
  have d2 := (abs_le.mp dU0).2
  norm_num at d1 d2
  have U0 : -1 / 1000 ≤ U := by
    have : ((-1 / 1000 : ℚ) : ℝ) ≤ U := by push_cast; linarith
    exact_mod_cast this
  have U2 : U ≤ 2 := by
    have : (U : ℝ) ≤ ((2 : ℚ) : ℝ) := by push_cast; linarith
    exact_mod_cast this
  by_cases hst : SignedTransfer t
  · have cmp : ∀ b : ℚ, 2 / 1000 ≤ b → U < 0 → Compares ar U b := by
      intro b hb hneg
      refine column_compares p (by linarith) fun _ => ?_
      rw [abs_of_neg hneg]; linarith
    have cmp' : ∀ b : ℚ, 2 / 1000 ≤ b → Compares ar U b := fun b hb =>
      (lt_or_ge U 0).elim (fun h => cmp b hb h) fun h => hf.compares h (by linarith)
    have Ua : |(U : ℝ)| ≤ 78 / 100 := by rw [sub_zero] at dU0; exact dU0.trans (by norm_num)
    have Ub : U < 2 / 1000 := by
      have : (U : ℝ) < ((2 / 1000 : ℚ) : ℝ) := by push_cast; linarith
      exact_mod_cast this
    have h' : App (encodeTransfer ar t u) 0 (1 / 10 ^ 5) := by
      rcases hst with rfl | rfl | rfl
      · exact (hU.app.shift (d := 1 / 10 ^ 9) dU0).mono (by norm_num)
      · simp only [encodeTransfer]
        rw [(cmp' _ (by norm_num) hU is_srgb_enc).2, if_pos (decide_eq_true (by linarith)), hf.mul]
        have hs : App (FOps.lit 12.92 : F32) 12.92 (1 / 10 ^ 7 * 4) := by
          refine (is_1292.app.shift (d := 1 / 10 ^ 7 * 4) ?_).mono (by norm_num)
          rw [abs_le]; constructor <;> norm_num
        refine ((app_mul (B := 102 / 10) hU.app hs (A := 78 / 100) (C := 12.92) Ua
          (by rw [abs_of_nonneg] <;> norm_num) (by norm_num) (by norm_num) (by norm_num)).shift (d := 1 / 10 ^ 7) ?_).mono (by norm_num)
        rw [abs_le]; constructor <;> norm_num <;> linarith
      · simp only [encodeTransfer]
        rw [(cmp' _ (by norm_num) hU is_sdr_enc).1, if_pos (decide_eq_true (by linarith)), hf.mul]
        refine ((app_mul (B := 4) is_45.app hU.app (A := 45 / 10) (C := 78 / 100) (by
          push_cast; rw [abs_of_nonneg] <;> norm_num) Ua (by norm_num) (by norm_num) (by norm_num)).shift (d := 1 / 10 ^ 7) ?_).mono (by norm_num)
        push_cast
        rw [abs_le]; constructor <;> norm_num <;> linarith
    obtain ⟨v, hv, dv⟩ := h'.is
    have v1 := (abs_le.mp dv).1
    have v2 := (abs_le.mp dv).2
    norm_num at v1 v2
    exact ⟨v, hv, by norm_num; linarith, by norm_num; linarith⟩
  · have hh : HdrTransfer t := by
      revert ht hst; unfold HdrTransfer GammaTransfer SignedTransfer; cases t <;> simp
    obtain ⟨a, -⟩ := enc_steep_app he hf (.inl hh) hU hg (fun _ => U2) (by linarith)
    have b1 := enc_black he t (a := max 0 (U : ℝ)) (le_max_left _ _) (max_le (by norm_num) (by norm_num; linarith))
    have b0 : -1e-7 ≤ encodeTransfer (exactAr x) t (max 0 (U : ℝ)) := by
      rcases hh with rfl | rfl
      · have h0 := enc_hlg_mono he (le_max_left 0 (U : ℝ))
        have z : encodeTransfer (exactAr x) .BT2100HLG 0 = 0 := by rw [enc_hlg he]; norm_num
        rw [z] at h0
        linarith
      · refine le_trans (by norm_num) (enc_pq_range he (l := max 0 (U : ℝ)) (max_le (by norm_num) (by linarith))).1
    obtain ⟨v, hv, dv⟩ := a.is
    have v1 := (abs_le.mp dv).1
    have v2 := (abs_le.mp dv).2
    norm_num at v1 v2 b1 b0
    exact ⟨v, hv, by norm_num; linarith, by norm_num; linarith⟩

/-- The signal of a light of at most 1.0012 is at most 1.0016. -/
theorem enc_white_le {rr : Arith ℝ} (he : Exact rr) {t : ColorTransfer} (ht : t ≠ .BT2100PQ) {l : ℝ} (h0 : 0 ≤ l) (h1 : l ≤ 10012 / 10000) :
    encodeTransfer rr t l ≤ 10016 / 10000 := by
  have pw : ∀ Z : ℝ, 0 ≤ Z → Z ≤ 1 → l ^ Z ≤ 10012 / 10000 := fun Z h2 h3 =>
    ((Real.rpow_le_rpow h0 h1 h2).trans (Real.rpow_le_rpow_of_exponent_le (by norm_num) h3)).trans_eq (Real.rpow_one _)
  cases t with
  | Linear => simp only [encodeTransfer]; linarith
  | Gamma22 => rw [enc_gamma22 he]; have := pw (1 / 2.2) (by norm_num) (by norm_num); linarith
  | Gamma28 => rw [enc_gamma28 he]; have := pw (1 / 2.8) (by norm_num) (by norm_num); linarith
  | SRGB =>
    rw [enc_srgb he]
    have := pw (1 / 2.4) (by norm_num) (by norm_num)
    split <;> linarith
  | SDR =>
    rw [enc_sdr he]
    have := pw 0.45 (by norm_num) (by norm_num)
    split <;> linarith
  | BT2100PQ => exact absurd rfl ht
  | BT2100HLG =>
    rw [enc_hlg he, max_eq_left h0]
    split
    · rename_i h
      refine (Real.sqrt_le_sqrt (show l * 3 ≤ 1 ^ 2 by linarith)).trans ?_
      rw [Real.sqrt_sq (by norm_num)]; norm_num
    · rename_i h
      rw [not_le] at h
      have p0 : 0 < 12 * l - 0.28466892 := by linarith
      have h2 : Real.log ((12 * l - 0.28466892) ^ 9) ≤ Real.log (2 ^ 32) :=
        Real.log_le_log (by positivity) ((pow_le_pow_left₀ p0.le (show _ ≤ (11.7298 : ℝ) by linarith) 9).trans (by norm_num))
      rw [Real.log_pow, Real.log_pow] at h2
      have h3 := Real.log_two_lt_d9
      push_cast at h2
      linarith

/-- The signals of white. -/
theorem white_signal (ha : scalar.Accurate) {s t : ColorTransfer} (hs : s ≠ .BT2100PQ) (ht : t ≠ .BT2100PQ) (sp dp : ColorPrimaries) (w x : Nat)
    {c : Chan} (hc : c = .R ∨ c = .G ∨ c = .B) :
    let ar := columnArith (p.real scalar) w x
    let l := decodeTransfer ar s (ar.div (FOps.ofNat 255) (FOps.ofNat 255))
    ∃ v : ℚ, Is (encodeTransfer ar t (component (rowMul ar (rowMul ar (l, l, l) sp.rgbToXyzMat) dp.xyzToRgbMat) c)) v ∧
      4089 / 4096 ≤ (v : ℝ) ∧ (v : ℝ) ≤ 4103 / 4096 := by
  intro ar l
  have he := exactAr_exact x
  have hf : Floats ar := column_floats p ha w x
  obtain ⟨a, -, a1⟩ := light_app hf he hs (le_refl 255)
  have w0 : 999 / 1000 ≤ decodeTransfer (exactAr x) s (((255 : Nat) : ℝ) / 255) := by
    rw [show ((255 : Nat) : ℝ) / 255 = 1 by norm_num]
    exact white_light he hs
  obtain ⟨q, hq, dq⟩ := a.is
  have e1 := (abs_le.mp dq).1
  have e2 := (abs_le.mp dq).2
  generalize decodeTransfer (exactAr x) s (((255 : Nat) : ℝ) / 255) = L at *
  norm_num at e1 e2 w0 a1
  have q0 : (0 : ℝ) ≤ q := by linarith
  have q1 : (q : ℝ) ≤ ((10016 : ℚ) : ℝ) := by push_cast; linarith
  obtain ⟨X, hX, hg, dX⟩ := grey_mixed hf.toIsIeee sp dp hq (by exact_mod_cast q0) (by exact_mod_cast q1) hc
  rw [max_eq_right (by norm_num; linarith)] at dX
  have d1 := (abs_le.mp dX).1
  have d2 := (abs_le.mp dX).2
  norm_num at d1 d2
  have X1 : ((-1 : ℚ) : ℝ) ≤ X := by push_cast; linarith
  have X2 : (X : ℝ) ≤ ((2 : ℚ) : ℝ) := by push_cast; linarith
  obtain ⟨k, k0, dk, ek⟩ := enc_near hf he ht hX hg (by exact_mod_cast X1) (by exact_mod_cast X2)
  rw [max_eq_right (by linarith)] at dk
  have k1 := (abs_le.mp dk).1
  have k2 := (abs_le.mp dk).2
  norm_num at k1 k2
  have lo := Ezk.enc_white he ht (a := k) (by norm_num; linarith)
  have hi := enc_white_le he ht k0 (by norm_num; linarith)
  rcases ek with ⟨-, h⟩ | ⟨r, hr, -, -, hmax⟩
  · linarith
  · norm_num at lo hi
    have er : r = encodeTransfer (exactAr x) t k := by
      rw [max_eq_right (a := 0) (b := encodeTransfer (exactAr x) t k) (by linarith)] at hmax
      rcases max_cases 0 r with ⟨h, -⟩ | ⟨h, -⟩ <;> rw [h] at hmax <;> linarith
    obtain ⟨v, hv, dv⟩ := hr.is
    have v1 := (abs_le.mp dv).1
    have v2 := (abs_le.mp dv).2
    norm_num at v1 v2
    exact ⟨v, hv, by norm_num; linarith, by norm_num; linarith⟩

/-- Luma made from a pixel read as three equal signals, whether or not the transfer function or the primaries change. -/
theorem luma_pick (r : Run (p.real scalar) src dst sps dps m m') (hsame : ¬ (src.format = dst.format ∧ src.color = dst.color))
    (hd : isYuv dst.format = true) {j : YuvColorInfo} (hj : dst.color = .YUV j) (hm : isMatrix j.space = true)
    {x y : Nat} {g : F32} (hx : x < dst.width) (hy : y < dst.height)
    (hread : ∀ c, c = .R ∨ c = .G ∨ c = .B →
      readPic (columnArith (p.real scalar) dst.width) src.format src.color (shown src.format sps m) c x y = g) :
    let ar := columnArith (p.real scalar) dst.width x
    let u := if src.color.transfer = dst.color.transfer ∧ src.color.primaries = dst.color.primaries then (g, g, g)
      else changeRgb ar src.color.transfer src.color.primaries dst.color.transfer dst.color.primaries (g, g, g)
    sample dst.format dps m' .Y x y = some (stored p (p.libm scalar) scalar dst.width x (yuvStore dst.format)
      (ar.mul (compressLuma ar j.fullRange (rgbToYuv ar j.space j.transfer j.primaries u).1) (maxSample dst.format))) := by
  intro ar u
  have hV := shown_depicts (w := src.width) (h := src.height) r.returned.vsrc.fits.1 m
  obtain ⟨l, hl⟩ : ∃ l, sampleLoc dst.format .Y x y = some l := by
    revert hd; cases dst.format <;> simp [isYuv, sampleLoc]
  have hb : ¬ BadChroma src.format src.color dst.format dst.color := by
    rintro ⟨_, _, i', e1, e2⟩
    rw [hj] at e1; cases e1
    rw [hm] at e2; cases e2
  rw [r.depicts hb hV .Y x y l hx hy hl, converted, convertedF, if_neg hsame]
  have e2 : ∀ q : Pic F32, writePic (columnArith (p.real scalar) dst.width) dst.format dst.color q =
      encode (columnArith (p.real scalar) dst.width) dst.format j q := by
    intro q; rw [hj]; simp [writePic, hd]
  have e4 : ((adaptPic (columnArith (p.real scalar) dst.width) src.color dst.color
      (readPic (columnArith (p.real scalar) dst.width) src.format src.color (shown src.format sps m))) .R x y,
      (adaptPic (columnArith (p.real scalar) dst.width) src.color dst.color
      (readPic (columnArith (p.real scalar) dst.width) src.format src.color (shown src.format sps m))) .G x y,
      (adaptPic (columnArith (p.real scalar) dst.width) src.color dst.color
      (readPic (columnArith (p.real scalar) dst.width) src.format src.color (shown src.format sps m))) .B x y) = u := by
    rw [adaptPic]
    simp only [u]
    split
    · rw [hread .R (by simp), hread .G (by simp), hread .B (by simp)]
    · simp only [changeColor]
      rw [hread .R (by simp), hread .G (by simp), hread .B (by simp)]
  rw [e2]
  simp only [quantize, hd, yuvStore, encode, yuvAt]
  rw [if_neg (by simp), e4]
  split <;> rfl

/-- A grey pixel of an RGB image is read as three equal signals. -/
theorem grey_read (hs : isYuv src.format = false) {w x y n : Nat}
    (hn : ∀ c, c = .R ∨ c = .G ∨ c = .B → sample src.format sps m c x y = some n) {c : Chan} (hc : c = .R ∨ c = .G ∨ c = .B) :
    readPic (columnArith (p.real scalar) w) src.format src.color (shown src.format sps m) c x y =
      (columnArith (p.real scalar) w x).div (FOps.ofNat n) (FOps.ofNat 255) := by
  have e1 : readPic (columnArith (p.real scalar) w) src.format src.color (shown src.format sps m) =
      withAlpha src.format (Spec.normalize (columnArith (p.real scalar) w) src.format (shown src.format sps m)) := by
    cases src.color <;> simp [readPic, hs]
  rw [e1, withAlpha, if_neg (by rintro ⟨rfl, _⟩; simp at hc), Spec.normalize, maxSample, (rgb8 hs).2,
    show shown src.format sps m c x y = n by rw [shown, hn c hc]; rfl]

/-- The conversion of an RGB image to YUV is not a copy. -/
theorem not_copy (hs : isYuv src.format = false) (hd : isYuv dst.format = true) : ¬ (src.format = dst.format ∧ src.color = dst.color) := by
  rintro ⟨h, -⟩; rw [h, hd] at hs; cases hs

/-- The code stored for a value between two bounds. -/
theorem stored_between {w x : Nat} (simd scalar : Libm) (s : Store) {v : F32} {q A B : ℚ} (hv : Is v q) (hA : A ≤ q) (hB : q ≤ B)
    (hA0 : -1 / 2 ≤ A) (hBt : B < s.top + 1 / 2) :
    (Truncates p w x → A - 1 < stored p simd scalar w x s v ∧ (stored p simd scalar w x s v : ℚ) ≤ max 0 B) ∧
      (¬ Truncates p w x → A - 1 / 2 ≤ stored p simd scalar w x s v ∧ (stored p simd scalar w x s v : ℚ) ≤ B + 1 / 2) := by
  constructor
  · intro h
    have e0 : stored p simd scalar w x s v = min (trunc q).toNat s.top := by
      rw [stored_truncates h]
      obtain ⟨_, _, rfl, _, rfl⟩ := hv
      rfl
    rw [e0]
    by_cases hn : 0 ≤ q
    · rw [trunc_eq_floor hn]
      have f0 : 0 ≤ ⌊q⌋ := Int.floor_nonneg.mpr hn
      have f1 := Int.floor_le q
      have f2 := Int.lt_floor_add_one q
      have e2 : ((⌊q⌋.toNat : Nat) : ℚ) = (⌊q⌋ : ℚ) := by
        have : ((⌊q⌋.toNat : Int) : ℚ) = ((⌊q⌋ : Int) : ℚ) := by rw [Int.toNat_of_nonneg f0]
        push_cast at this ⊢
        exact this
      have ht : ⌊q⌋.toNat ≤ s.top := by
        have h3 : (⌊q⌋ : ℚ) < ((s.top + 1 : Int) : ℚ) := by push_cast; linarith
        have h4 : ⌊q⌋ < s.top + 1 := by exact_mod_cast h3
        omega
      rw [min_eq_left ht, e2]
      exact ⟨by linarith, le_max_of_le_right (by linarith)⟩
    · have : trunc q ≤ 0 := by
        rw [trunc_neg (not_le.mp hn)]; exact Int.ceil_le.mpr (by push_cast; linarith)
      have e1 : min (trunc q).toNat s.top = 0 := by omega
      rw [e1]
      push_cast
      exact ⟨by linarith [not_le.mp hn], le_max_left _ _⟩
  · intro h
    have q0 : -1 / 2 ≤ q := by linarith
    have q1 : q < s.top + 1 / 2 := by linarith
    rw [stored_rounds h simd scalar s hv (Or.inl ⟨q0, q1⟩)]
    have hb := rne_bounds q0 q1
    have e1 : min (rne q).toNat s.top = (rne q).toNat := by omega
    have e2 : (((rne q).toNat : Nat) : ℚ) = (rne q : ℚ) := by
      have : (((rne q).toNat : Int) : ℚ) = ((rne q : Int) : ℚ) := by rw [Int.toNat_of_nonneg hb.1]
      push_cast at this ⊢
      exact this
    rw [e1, e2]
    have hn := abs_le.mp (rne_near q)
    constructor <;> linarith [hn.1, hn.2]

/-- The code of a pixel whose signals lie between two bounds. -/
theorem luma_code (r : Run (p.real scalar) src dst sps dps m m') (hcopy : ¬ (src.format = dst.format ∧ src.color = dst.color))
    (hd : isYuv dst.format = true) {j : YuvColorInfo} (hj : dst.color = .YUV j) (hm : isMatrix j.space = true)
    {x y n : Nat} (hx : x < dst.width) (hy : y < dst.height)
    (hread : ∀ c, c = .R ∨ c = .G ∨ c = .B →
      readPic (columnArith (p.real scalar) dst.width) src.format src.color (shown src.format sps m) c x y =
        (columnArith (p.real scalar) dst.width x).div (FOps.ofNat n) (FOps.ofNat 255))
    {lo hi : F32} {a b : ℚ} (hlo : Is lo a) (hhi : Is hi b) (h0 : -64 ≤ a) (h1 : b ≤ 64) (ha : scalar.Accurate)
    (hsame : ∃ q : ℚ, Is (F32.div (FOps.ofNat n) (FOps.ofNat 255)) q ∧ (a : ℝ) ≤ q ∧ (q : ℝ) ≤ b)
    (hsig : ¬ (src.color.transfer = dst.color.transfer ∧ src.color.primaries = dst.color.primaries) →
      ∀ c, c = .R ∨ c = .G ∨ c = .B →
      let ar := columnArith (p.real scalar) dst.width x
      let l := decodeTransfer ar src.color.transfer (ar.div (FOps.ofNat n) (FOps.ofNat 255))
      ∃ v : ℚ, Is (encodeTransfer ar j.transfer (component (rowMul ar (rowMul ar (l, l, l) src.color.primaries.rgbToXyzMat)
        dst.color.primaries.xyzToRgbMat) c)) v ∧ (a : ℝ) ≤ v ∧ (v : ℝ) ≤ b)
    {A B A' B' : ℚ} (hA : between (greyLuma j.space dst.format j.fullRange lo) A A' = true)
    (hB : between (greyLuma j.space dst.format j.fullRange hi) B' B = true) (hA0 : -1 / 2 ≤ A) (hBt : B < (yuvStore dst.format).top + 1 / 2) :
    ∃ k : Nat, sample dst.format dps m' .Y x y = some k ∧ (Truncates p dst.width x → A - 1 < k ∧ (k : ℚ) ≤ max 0 B) ∧
      (¬ Truncates p dst.width x → A - 1 / 2 ≤ k ∧ (k : ℚ) ≤ B + 1 / 2) := by
  have hjt : dst.color.transfer = j.transfer := by rw [hj]; rfl
  have hf := column_floats p ha dst.width x
  refine ⟨_, luma_pick r hcopy hd hj hm hx hy hread, ?_⟩
  have ed : (columnArith (p.real scalar) dst.width x).div (FOps.ofNat n) (FOps.ofNat 255) = F32.div (FOps.ofNat n) (FOps.ofNat 255) := by rw [hf.div]
  have hu : ∀ u : C3 F32, u = (if src.color.transfer = dst.color.transfer ∧ src.color.primaries = dst.color.primaries then
        ((columnArith (p.real scalar) dst.width x).div (FOps.ofNat n) (FOps.ofNat 255),
          (columnArith (p.real scalar) dst.width x).div (FOps.ofNat n) (FOps.ofNat 255),
          (columnArith (p.real scalar) dst.width x).div (FOps.ofNat n) (FOps.ofNat 255))
      else changeRgb (columnArith (p.real scalar) dst.width x) src.color.transfer src.color.primaries dst.color.transfer dst.color.primaries
        ((columnArith (p.real scalar) dst.width x).div (FOps.ofNat n) (FOps.ofNat 255),
          (columnArith (p.real scalar) dst.width x).div (FOps.ofNat n) (FOps.ofNat 255),
          (columnArith (p.real scalar) dst.width x).div (FOps.ofNat n) (FOps.ofNat 255))) →
      (Ord 64 lo u.1 ∧ Ord 64 u.1 hi) ∧ (Ord 64 lo u.2.1 ∧ Ord 64 u.2.1 hi) ∧ Ord 64 lo u.2.2 ∧ Ord 64 u.2.2 hi := by
    intro u hu
    split at hu
    · subst hu
      obtain ⟨q, hq, q0, q1⟩ := hsame
      rw [ed]
      have := ord_bounds hlo hhi h0 h1 hq q0 q1
      exact ⟨this, this, this⟩
    · subst hu
      simp only [changeRgb, map3]
      rw [hjt]
      have hsig := hsig (by assumption)
      dsimp only at hsig
      obtain ⟨q, hq, q0, q1⟩ := hsig .R (by simp)
      obtain ⟨q', hq', q0', q1'⟩ := hsig .G (by simp)
      obtain ⟨q'', hq'', q0'', q1''⟩ := hsig .B (by simp)
      exact ⟨ord_bounds hlo hhi h0 h1 hq q0 q1, ord_bounds hlo hhi h0 h1 hq' q0' q1', ord_bounds hlo hhi h0 h1 hq'' q0'' q1''⟩
  obtain ⟨k1, k2, k3⟩ := hu _ rfl
  obtain ⟨a', b', c', ia, hab, hbc, ic, ib⟩ := luma_between hf.toIsIeee (j := j) hm dst.format ⟨k1.1, k2.1, k3.1⟩ ⟨k1.2, k2.2, k3.2⟩
  obtain ⟨a2, ia2, la, -⟩ := is_between hA
  obtain ⟨c2, ic2, -, lc⟩ := is_between hB
  obtain rfl := ia.unique ia2
  obtain rfl := ic.unique ic2
  exact stored_between _ _ _ ib (la.trans hab) (hbc.trans lc) hA0 hBt

theorem yuv_top {f : PixelFormat} : ((2 ^ sampleBits f - 1 : Nat) : ℚ) ≤ (yuvStore f).top ∧
    (sampleBits f ≠ 8 → (2 ^ sampleBits f - 1 : Nat) + 1000 ≤ (yuvStore f).top) ∧ 255 ≤ 2 ^ sampleBits f - 1 ∧ 2 ^ sampleBits f - 1 ≤ 4095 := by
  cases f <;> simp [yuvStore, sampleBits, sampleBytes, Store.top] <;> norm_num

/-- From bounds of the stored value to its code. -/
theorem code_near {T : Prop} {M k C : Nat} {d e : ℚ} (hC : C ≤ 255) (d0 : 0 ≤ d) (d1 : d < 1 / 2) (e0 : 0 ≤ e) (e1 : e < 1 / 2)
    (h1 : T → ((C : ℚ) - d) / 255 * M - 1 < k ∧ (k : ℚ) ≤ max 0 (((C : ℚ) + e) / 255 * M))
    (h2 : ¬ T → ((C : ℚ) - d) / 255 * M - 1 / 2 ≤ k ∧ (k : ℚ) ≤ ((C : ℚ) + e) / 255 * M + 1 / 2) :
    |(k : ℚ) - (C : ℚ) / 255 * M| < 1 + 2 / 1000 * M ∧ (M = 255 → k ≤ C ∧ C ≤ k + 1 ∧ (¬ T → k = C)) := by
  have M0 : (0 : ℚ) ≤ M := by positivity
  have pos : 0 ≤ ((C : ℚ) + e) / 255 * M := by positivity
  rw [max_eq_right pos] at h1
  have dM : d / 255 * M ≤ 2 / 1000 * M := mul_le_mul_of_nonneg_right (by linarith) M0
  have eM : e / 255 * M ≤ 2 / 1000 * M := mul_le_mul_of_nonneg_right (by linarith) M0
  have r1 : ((C : ℚ) - d) / 255 * M = C / 255 * M - d / 255 * M := by ring
  have r2 : ((C : ℚ) + e) / 255 * M = C / 255 * M + e / 255 * M := by ring
  constructor
  · rw [abs_lt]
    by_cases ht : T
    · have := h1 ht
      rw [r1, r2] at this
      constructor <;> linarith [this.1, this.2]
    · have := h2 ht
      rw [r1, r2] at this
      constructor <;> linarith [this.1, this.2]
  · rintro rfl
    have g1 : T → (C : ℚ) < ((k + 2 : Nat) : ℚ) ∧ (k : ℚ) < ((C + 1 : Nat) : ℚ) := fun ht => by
      have := h1 ht
      push_cast at this ⊢
      constructor <;> linarith [this.1, this.2]
    have g2 : ¬ T → (C : ℚ) < ((k + 1 : Nat) : ℚ) ∧ (k : ℚ) < ((C + 1 : Nat) : ℚ) := fun ht => by
      have := h2 ht
      push_cast at this ⊢
      constructor <;> linarith [this.1, this.2]
    by_cases ht : T
    · obtain ⟨a, b⟩ := g1 ht
      have a : C < k + 2 := by exact_mod_cast a
      have b : k < C + 1 := by exact_mod_cast b
      exact ⟨by omega, by omega, fun h => absurd ht h⟩
    · obtain ⟨a, b⟩ := g2 ht
      have a : C < k + 1 := by exact_mod_cast a
      have b : k < C + 1 := by exact_mod_cast b
      exact ⟨by omega, by omega, fun _ => by omega⟩

theorem depth_255 {f : PixelFormat} : sampleBits f = 8 → 2 ^ sampleBits f - 1 = 255 := fun h => by rw [h]; norm_num

/-- The luma of a pixel read as black. -/
theorem black_luma (r : Run (p.real scalar) src dst sps dps m m') (ha : scalar.Accurate) (hcopy : ¬ (src.format = dst.format ∧ src.color = dst.color))
    (hd : isYuv dst.format = true) {j : YuvColorInfo} (hj : dst.color = .YUV j) (hm : isMatrix j.space = true)
    (hg : ¬ (src.color.transfer = dst.color.transfer ∧ src.color.primaries = dst.color.primaries) → ¬ GammaTransfer j.transfer)
    {x y : Nat} (hx : x < dst.width) (hy : y < dst.height)
    (hread : ∀ c, c = .R ∨ c = .G ∨ c = .B →
      readPic (columnArith (p.real scalar) dst.width) src.format src.color (shown src.format sps m) c x y =
        (columnArith (p.real scalar) dst.width x).div (FOps.ofNat 0) (FOps.ofNat 255)) :
    ∃ k : Nat, sample dst.format dps m' .Y x y = some k ∧
      |(k : ℚ) - (if j.fullRange then 0 else 16) / 255 * (2 ^ sampleBits dst.format - 1 : Nat)| <
        1 + 2 / 1000 * (2 ^ sampleBits dst.format - 1 : Nat) ∧
      (sampleBits dst.format = 8 → k ≤ (if j.fullRange then 0 else 16) ∧ (if j.fullRange then 0 else 16) ≤ k + 1 ∧
        (¬ Truncates p dst.width x → k = if j.fullRange then 0 else 16)) := by
  obtain ⟨t1, t2, M0, M1⟩ := yuv_top (f := dst.format)
  have M0' : (255 : ℚ) ≤ (2 ^ sampleBits dst.format - 1 : Nat) := by exact_mod_cast M0
  have M1' : ((2 ^ sampleBits dst.format - 1 : Nat) : ℚ) ≤ 4095 := by exact_mod_cast M1
  obtain ⟨b1, b2⟩ := black_ends hm dst.format j.fullRange
  have bc : (0 : ℚ) ≤ blackCode j.fullRange ∧ (blackCode j.fullRange : ℚ) ≤ 16 := by unfold blackCode; split <;> norm_num
  have hA0 : -1 / 2 ≤ ((blackCode j.fullRange : ℚ) - 2 / 100) / 255 * ((2 ^ sampleBits dst.format - 1 : Nat) : ℚ) := by
    have := mul_le_mul_of_nonneg_right (show -(2 / 100 / 255) ≤ ((blackCode j.fullRange : ℚ) - 2 / 100) / 255 by linarith [bc.1])
      (show (0 : ℚ) ≤ (2 ^ sampleBits dst.format - 1 : Nat) by positivity)
    linarith
  have hB : ((blackCode j.fullRange : ℚ) + 49 / 100) / 255 * ((2 ^ sampleBits dst.format - 1 : Nat) : ℚ) < (yuvStore dst.format).top + 1 / 2 := by
    have := mul_le_mul_of_nonneg_right (show ((blackCode j.fullRange : ℚ) + 49 / 100) / 255 ≤ 1 by linarith [bc.2])
      (show (0 : ℚ) ≤ (2 ^ sampleBits dst.format - 1 : Nat) by positivity)
    linarith
  obtain ⟨k, hk, h1, h2⟩ := luma_code r hcopy hd hj hm hx hy hread (lo := fin true (1 / 16384)) (hi := fin false (31 / 16384)) (a := -(1 / 16384))
    (b := 31 / 16384) ⟨true, _, rfl, by norm_num, rfl⟩ ⟨false, _, rfl, by norm_num, rfl⟩ (by norm_num) (by norm_num) ha
    (by
      obtain ⟨q, hq, q0, q1⟩ := is_between (show between (F32.div (FOps.ofNat 0) (FOps.ofNat 255)) 0 0 = true by decide +kernel)
      obtain rfl := le_antisymm q0 q1
      exact ⟨0, hq, by norm_num, by norm_num⟩)
    (fun hne c hc => by
      obtain ⟨v, hv, v0, v1⟩ := black_signal (p := p) ha src.color.transfer (hg hne) src.color.primaries dst.color.primaries dst.width x hc
      exact ⟨v, hv, by push_cast; linarith, by push_cast; linarith⟩) b1 b2 hA0 hB
  refine ⟨k, hk, ?_⟩
  obtain ⟨c1, c2⟩ := code_near (C := blackCode j.fullRange) (by unfold blackCode; split <;> norm_num) (by norm_num) (by norm_num) (by norm_num)
    (by norm_num) h1 h2
  refine ⟨?_, fun h8 => c2 (depth_255 h8)⟩
  convert c1 using 5
  unfold blackCode; split <;> rfl

/-- **C74** for YUV destinations, black (partial: no ICtCp; gamma destinations of another transfer function or primaries are left out, in
which black is not a number, see `C50_gamma_yuv_black`). A black pixel gets the luma of black: with 8 bits the code 16 in limited
range, 0 in full range, where stores round, and at most one less elsewhere; with more bits up to one code and 0.2% of the range. -/
theorem C74_yuv_black_partial (r : Run (p.real scalar) src dst sps dps m m') (ha : scalar.Accurate) (hs : isYuv src.format = false)
    (hd : isYuv dst.format = true) {j : YuvColorInfo} (hj : dst.color = .YUV j) (hm : isMatrix j.space = true)
    (hg : ¬ (src.color.transfer = dst.color.transfer ∧ src.color.primaries = dst.color.primaries) → ¬ GammaTransfer j.transfer)
    {x y : Nat} (hx : x < dst.width) (hy : y < dst.height)
    (hn : ∀ c, c = .R ∨ c = .G ∨ c = .B → sample src.format sps m c x y = some 0) :
    ∃ k : Nat, sample dst.format dps m' .Y x y = some k ∧
      |(k : ℚ) - (if j.fullRange then 0 else 16) / 255 * (2 ^ sampleBits dst.format - 1 : Nat)| <
        1 + 2 / 1000 * (2 ^ sampleBits dst.format - 1 : Nat) ∧
      (sampleBits dst.format = 8 → k ≤ (if j.fullRange then 0 else 16) ∧ (if j.fullRange then 0 else 16) ≤ k + 1 ∧
        (¬ Truncates p dst.width x → k = if j.fullRange then 0 else 16)) :=
  black_luma r ha (not_copy hs hd) hd hj hm hg hx hy fun _ hc => grey_read hs hn hc

/-- The luma of a pixel read as white. -/
theorem white_luma (r : Run (p.real scalar) src dst sps dps m m') (ha : scalar.Accurate) (hcopy : ¬ (src.format = dst.format ∧ src.color = dst.color))
    (hd : isYuv dst.format = true) {j : YuvColorInfo} (hj : dst.color = .YUV j) (hcs : j.space = .BT601 ∨ j.space = .BT709)
    (hpq : ¬ (src.color.transfer = dst.color.transfer ∧ src.color.primaries = dst.color.primaries) →
      src.color.transfer ≠ .BT2100PQ ∧ j.transfer ≠ .BT2100PQ) {x y : Nat} (hx : x < dst.width) (hy : y < dst.height)
    (hread : ∀ c, c = .R ∨ c = .G ∨ c = .B →
      readPic (columnArith (p.real scalar) dst.width) src.format src.color (shown src.format sps m) c x y =
        (columnArith (p.real scalar) dst.width x).div (FOps.ofNat 255) (FOps.ofNat 255)) :
    ∃ k : Nat, sample dst.format dps m' .Y x y = some k ∧
      |(k : ℚ) - (if j.fullRange then 255 else 235) / 255 * (2 ^ sampleBits dst.format - 1 : Nat)| <
        1 + 2 / 1000 * (2 ^ sampleBits dst.format - 1 : Nat) ∧
      (sampleBits dst.format = 8 → k ≤ (if j.fullRange then 255 else 235) ∧ (if j.fullRange then 255 else 235) ≤ k + 1 ∧
        (¬ Truncates p dst.width x → k = if j.fullRange then 255 else 235)) := by
  obtain ⟨t1, t2, M0, M1⟩ := yuv_top (f := dst.format)
  have M1' : ((2 ^ sampleBits dst.format - 1 : Nat) : ℚ) ≤ 4095 := by exact_mod_cast M1
  have hm : isMatrix j.space = true := by rcases hcs with h | h <;> rw [h] <;> rfl
  obtain ⟨b1, b2⟩ := white_ends hcs dst.format j.fullRange
  have bc : (235 : ℚ) ≤ whiteCode j.fullRange ∧ (whiteCode j.fullRange : ℚ) ≤ 255 := by unfold whiteCode; split <;> norm_num
  have hA0 : -1 / 2 ≤ ((whiteCode j.fullRange : ℚ) - 45 / 100) / 255 * ((2 ^ sampleBits dst.format - 1 : Nat) : ℚ) := by
    have : 0 ≤ ((whiteCode j.fullRange : ℚ) - 45 / 100) / 255 * ((2 ^ sampleBits dst.format - 1 : Nat) : ℚ) :=
      mul_nonneg (by linarith [bc.1]) (by positivity)
    linarith
  have hB : ((whiteCode j.fullRange : ℚ) + 45 / 100) / 255 * ((2 ^ sampleBits dst.format - 1 : Nat) : ℚ) < (yuvStore dst.format).top + 1 / 2 := by
    have := mul_le_mul_of_nonneg_right (show ((whiteCode j.fullRange : ℚ) + 45 / 100) / 255 ≤ 1 + 45 / 100 / 255 by linarith [bc.2])
      (show (0 : ℚ) ≤ (2 ^ sampleBits dst.format - 1 : Nat) by positivity)
    by_cases h8 : sampleBits dst.format = 8
    · rw [depth_255 h8] at this t1 ⊢
      push_cast at this t1 ⊢
      linarith
    · have h3 : (((2 ^ sampleBits dst.format - 1) + 1000 : Nat) : ℚ) ≤ (yuvStore dst.format).top := by exact_mod_cast t2 h8
      push_cast at h3 this M1' ⊢
      linarith
  obtain ⟨k, hk, h1, h2⟩ := luma_code r hcopy hd hj hm hx hy hread (lo := fin false (4089 / 4096)) (hi := fin false (4103 / 4096)) (a := 4089 / 4096)
    (b := 4103 / 4096) ⟨false, _, rfl, by norm_num, rfl⟩ ⟨false, _, rfl, by norm_num, rfl⟩ (by norm_num) (by norm_num) ha
    (by
      obtain ⟨q, hq, q0, q1⟩ := is_between (show between (F32.div (FOps.ofNat 255) (FOps.ofNat 255)) 1 1 = true by decide +kernel)
      obtain rfl := le_antisymm q0 q1
      exact ⟨1, hq, by norm_num, by norm_num⟩)
    (fun hne c hc => by
      obtain ⟨v, hv, v0, v1⟩ := white_signal (p := p) ha (hpq hne).1 (hpq hne).2 src.color.primaries dst.color.primaries dst.width x hc
      exact ⟨v, hv, by push_cast; linarith, by push_cast; linarith⟩) b1 b2 hA0 hB
  refine ⟨k, hk, ?_⟩
  obtain ⟨c1, c2⟩ := code_near (C := whiteCode j.fullRange) (by unfold whiteCode; split <;> norm_num) (by norm_num) (by norm_num) (by norm_num)
    (by norm_num) h1 h2
  refine ⟨?_, fun h8 => c2 (depth_255 h8)⟩
  convert c1 using 5
  unfold whiteCode; split <;> rfl

/-- **C74** for YUV destinations, white (partial: BT.601 and BT.709, see `C74_yuv_white_false` for BT.2020; in a change neither the
source nor the destination in PQ). A white pixel gets the luma of white: with 8 bits the code 235 in limited range, 255 in full range, where stores
round, and at most one less elsewhere; with more bits up to one code and 0.2% of the range. -/
theorem C74_yuv_white_partial (r : Run (p.real scalar) src dst sps dps m m') (ha : scalar.Accurate) (hs : isYuv src.format = false)
    (hd : isYuv dst.format = true) {j : YuvColorInfo} (hj : dst.color = .YUV j) (hcs : j.space = .BT601 ∨ j.space = .BT709)
    (hpq : ¬ (src.color.transfer = dst.color.transfer ∧ src.color.primaries = dst.color.primaries) →
      src.color.transfer ≠ .BT2100PQ ∧ j.transfer ≠ .BT2100PQ) {x y : Nat} (hx : x < dst.width) (hy : y < dst.height)
    (hn : ∀ c, c = .R ∨ c = .G ∨ c = .B → sample src.format sps m c x y = some 255) :
    ∃ k : Nat, sample dst.format dps m' .Y x y = some k ∧
      |(k : ℚ) - (if j.fullRange then 255 else 235) / 255 * (2 ^ sampleBits dst.format - 1 : Nat)| <
        1 + 2 / 1000 * (2 ^ sampleBits dst.format - 1 : Nat) ∧
      (sampleBits dst.format = 8 → k ≤ (if j.fullRange then 255 else 235) ∧ (if j.fullRange then 255 else 235) ≤ k + 1 ∧
        (¬ Truncates p dst.width x → k = if j.fullRange then 255 else 235)) :=
  white_luma r ha (not_copy hs hd) hd hj hcs hpq hx hy fun _ hc => grey_read hs hn hc

/-- The luma of a pixel read as white, in BT.2020. -/
theorem white_luma_2020 (r : Run (p.real scalar) src dst sps dps m m') (ha : scalar.Accurate) (hcopy : ¬ (src.format = dst.format ∧ src.color = dst.color))
    (hd : isYuv dst.format = true) {j : YuvColorInfo} (hj : dst.color = .YUV j) (hcs : j.space = .BT2020)
    (hpq : ¬ (src.color.transfer = dst.color.transfer ∧ src.color.primaries = dst.color.primaries) →
      src.color.transfer ≠ .BT2100PQ ∧ j.transfer ≠ .BT2100PQ) {x y : Nat} (hx : x < dst.width) (hy : y < dst.height)
    (hread : ∀ c, c = .R ∨ c = .G ∨ c = .B →
      readPic (columnArith (p.real scalar) dst.width) src.format src.color (shown src.format sps m) c x y =
        (columnArith (p.real scalar) dst.width x).div (FOps.ofNat 255) (FOps.ofNat 255)) :
    ∃ k : Nat, sample dst.format dps m' .Y x y = some k ∧ (k : ℚ) ≤ 165 / 255 * (2 ^ sampleBits dst.format - 1 : Nat) + 1 / 2 := by
  obtain ⟨t1, -, M0, -⟩ := yuv_top (f := dst.format)
  have M0' : (255 : ℚ) ≤ (2 ^ sampleBits dst.format - 1 : Nat) := by exact_mod_cast M0
  have hm : isMatrix j.space = true := by rw [hcs]; rfl
  obtain ⟨b1, b2⟩ := bt2020_ends dst.format j.fullRange
  rw [← hcs] at b1 b2
  obtain ⟨k, hk, h1, h2⟩ := luma_code r hcopy hd hj hm hx hy hread (lo := fin false (4089 / 4096)) (hi := fin false (4103 / 4096)) (a := 4089 / 4096)
    (b := 4103 / 4096) ⟨false, _, rfl, by norm_num, rfl⟩ ⟨false, _, rfl, by norm_num, rfl⟩ (by norm_num) (by norm_num) ha
    (by
      obtain ⟨q, hq, q0, q1⟩ := is_between (show between (F32.div (FOps.ofNat 255) (FOps.ofNat 255)) 1 1 = true by decide +kernel)
      obtain rfl := le_antisymm q0 q1
      exact ⟨1, hq, by norm_num, by norm_num⟩)
    (fun hne c hc => by
      obtain ⟨v, hv, v0, v1⟩ := white_signal (p := p) ha (hpq hne).1 (hpq hne).2 src.color.primaries dst.color.primaries dst.width x hc
      exact ⟨v, hv, by push_cast; linarith, by push_cast; linarith⟩) b1 b2 (by norm_num) (by linarith)
  refine ⟨k, hk, ?_⟩
  by_cases ht : Truncates p dst.width x
  · have := (h1 ht).2
    rw [max_eq_right (by positivity)] at this
    linarith
  · exact (h2 ht).2

/-- C74 is false for YUV destinations in BT.2020, whose luma weights do not sum to 1: a white pixel always gets a grey luma, with 8 bits
at most 165 where white is 235 or 255. -/
theorem C74_yuv_white_false (r : Run (p.real scalar) src dst sps dps m m') (ha : scalar.Accurate) (hs : isYuv src.format = false)
    (hd : isYuv dst.format = true) {j : YuvColorInfo} (hj : dst.color = .YUV j) (hcs : j.space = .BT2020)
    (hpq : ¬ (src.color.transfer = dst.color.transfer ∧ src.color.primaries = dst.color.primaries) →
      src.color.transfer ≠ .BT2100PQ ∧ j.transfer ≠ .BT2100PQ) {x y : Nat} (hx : x < dst.width) (hy : y < dst.height)
    (hn : ∀ c, c = .R ∨ c = .G ∨ c = .B → sample src.format sps m c x y = some 255) :
    ∃ k : Nat, sample dst.format dps m' .Y x y = some k ∧ (k : ℚ) ≤ 165 / 255 * (2 ^ sampleBits dst.format - 1 : Nat) + 1 / 2 :=
  white_luma_2020 r ha (not_copy hs hd) hd hj hcs hpq hx hy fun _ hc => grey_read hs hn hc

/-! ## Examples -/

/-- A black image in PQ made an HLG image in 4:2:0 by AVX2. -/
example : ∃ (scalar : Libm) (mo : Mem), scalar.Accurate ∧
    sample .I420 [⟨⟨400, 64⟩, 32⟩, ⟨⟨500, 16⟩, 16⟩, ⟨⟨600, 16⟩, 16⟩] mo .Y 8 1 = some 16 := by
  obtain ⟨scalar, ha⟩ := libm_exists
  obtain ⟨mo, r⟩ := run_exists (c := Platform.avx2.real scalar) (platform_lawful .avx2 _ _)
    (src := .raw .RGB 32 2 [⟨⟨0, 200⟩, 96⟩] (.RGB ⟨.BT2100PQ, .BT709⟩))
    (dst := .raw .I420 32 2 [⟨⟨400, 64⟩, 32⟩, ⟨⟨500, 16⟩, 16⟩, ⟨⟨600, 16⟩, 16⟩] (.YUV ⟨.BT2100HLG, .BT2020, .BT2020, false⟩))
    (sps := [⟨⟨0, 200⟩, 96⟩]) (dps := [⟨⟨400, 64⟩, 32⟩, ⟨⟨500, 16⟩, 16⟩, ⟨⟨600, 16⟩, 16⟩]) rfl rfl
    (planesDisjoint_of (by decide)) (separate_of (by decide)) (uniform_of (by decide)) (by decide) fun _ => 0
  obtain ⟨k, hk, -, h⟩ := C74_yuv_black_partial r ha rfl rfl rfl rfl (by rintro - (h | h) <;> cases h) (x := 8) (y := 1) (by decide) (by decide)
    (by rintro c (rfl | rfl | rfl) <;> decide)
  refine ⟨scalar, mo, ha, hk.trans ?_⟩
  rw [(h rfl).2.2 (by
    rintro (h | h | h)
    · cases h
    · cases h
    · exact absurd (by decide) h)]
  rfl

/-- A white sRGB image: 235 in BT.709 with HLG, a grey of at most 165 in BT.2020. -/
example : ∃ (scalar : Libm) (mo mo' : Mem) (k : Nat), scalar.Accurate ∧
    sample .I420 [⟨⟨400, 64⟩, 32⟩, ⟨⟨500, 16⟩, 16⟩, ⟨⟨600, 16⟩, 16⟩] mo .Y 8 1 = some 235 ∧
    sample .I420 [⟨⟨400, 64⟩, 32⟩, ⟨⟨500, 16⟩, 16⟩, ⟨⟨600, 16⟩, 16⟩] mo' .Y 8 1 = some k ∧ k ≤ 165 := by
  obtain ⟨scalar, ha⟩ := libm_exists
  obtain ⟨mo, r⟩ := run_exists (c := Platform.avx2.real scalar) (platform_lawful .avx2 _ _)
    (src := .raw .RGB 32 2 [⟨⟨0, 200⟩, 96⟩] (.RGB ⟨.SRGB, .BT709⟩))
    (dst := .raw .I420 32 2 [⟨⟨400, 64⟩, 32⟩, ⟨⟨500, 16⟩, 16⟩, ⟨⟨600, 16⟩, 16⟩] (.YUV ⟨.BT2100HLG, .BT2020, .BT709, false⟩))
    (sps := [⟨⟨0, 200⟩, 96⟩]) (dps := [⟨⟨400, 64⟩, 32⟩, ⟨⟨500, 16⟩, 16⟩, ⟨⟨600, 16⟩, 16⟩]) rfl rfl
    (planesDisjoint_of (by decide)) (separate_of (by decide)) (uniform_of (by decide)) (by decide) fun _ => 255
  obtain ⟨mo', r'⟩ := run_exists (c := Platform.avx2.real scalar) (platform_lawful .avx2 _ _)
    (src := .raw .RGB 32 2 [⟨⟨0, 200⟩, 96⟩] (.RGB ⟨.SRGB, .BT709⟩))
    (dst := .raw .I420 32 2 [⟨⟨400, 64⟩, 32⟩, ⟨⟨500, 16⟩, 16⟩, ⟨⟨600, 16⟩, 16⟩] (.YUV ⟨.SDR, .BT2020, .BT2020, false⟩))
    (sps := [⟨⟨0, 200⟩, 96⟩]) (dps := [⟨⟨400, 64⟩, 32⟩, ⟨⟨500, 16⟩, 16⟩, ⟨⟨600, 16⟩, 16⟩]) rfl rfl
    (planesDisjoint_of (by decide)) (separate_of (by decide)) (uniform_of (by decide)) (by decide) fun _ => 255
  obtain ⟨k, hk, -, h⟩ := C74_yuv_white_partial r ha rfl rfl rfl (.inr rfl) (fun _ => ⟨nofun, nofun⟩) (x := 8) (y := 1) (by decide) (by decide)
    (by rintro c (rfl | rfl | rfl) <;> decide)
  obtain ⟨k', hk', h'⟩ := C74_yuv_white_false r' ha rfl rfl rfl rfl (fun _ => ⟨nofun, nofun⟩) (x := 8) (y := 1) (by decide) (by decide)
    (by rintro c (rfl | rfl | rfl) <;> decide)
  refine ⟨scalar, mo, mo', k', ha, hk.trans ?_, hk', ?_⟩
  · rw [(h rfl).2.2 (by
      rintro (h | h | h)
      · cases h
      · cases h
      · exact absurd (by decide) h)]
    rfl
  · have : (k' : ℚ) < ((166 : Nat) : ℚ) := by
      refine lt_of_le_of_lt h' ?_
      norm_num [sampleBits, Img.format]
    have : k' < 166 := by exact_mod_cast this
    omega

end Ezk.Props

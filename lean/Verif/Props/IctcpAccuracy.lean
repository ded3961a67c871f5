import Verif.Proofs.IctcpSignal
import Verif.Spec.IdealIctcp
import Verif.Props.Ictcp
import Verif.Props.ChangeToYuv

/-!
# C55: ICtCp images made from RGB images
-/

namespace Ezk.Props
open Ezk F32 Spec

variable {p : Platform} {scalar : Libm} {src dst : Img} {sps dps : List Plane} {m m' : Mem}

theorem asRead_rgb {f : PixelFormat} (hs : isYuv f = false) (ps : List Plane) (m : Mem) : asRead f ps m = shown f ps m := by
  funext c x y
  simp only [asRead, shown, sample, locAddr]
  cases hl : sampleLoc f c x y with
  | none => rfl
  | some l =>
    have h0 : l.plane = 0 := by
      revert hl hs; cases f <;> simp only [isYuv] <;> cases c <;> simp [sampleLoc] <;> rintro rfl <;> rfl
    have ha : locAddr ps l = ps[0]?.map fun p => p.slice.addr + l.row * p.stride + l.col := by
      simp only [locAddr, h0]
    simp only [h0, hs, Option.bind_some, ha]
    cases ps[0]? <;> simp

/-- What an RGB image becomes as an ICtCp image of the same transfer function and primaries. -/
theorem to_ictcp_pick (r : Run (p.real scalar) src dst sps dps m m') (hs : isYuv src.format = false) (hd : isYuv dst.format = true)
    {j : YuvColorInfo} (hj : dst.color = .YUV j) (ht : src.color.transfer = j.transfer) (hp : src.color.primaries = j.primaries)
    {c : Chan} (hc : c = .Y ∨ (c = .U ∨ c = .V) ∧ vsub dst.format = 1) {x y : Nat} (hx : x < dst.width) (hy : y < dst.height) :
    sample dst.format dps m' c x y = some (stored p (p.libm scalar) scalar dst.width x (yuvStore dst.format)
      ((columnArith (p.real scalar) dst.width x).mul (encode (columnArith (p.real scalar) dst.width) dst.format j
        (withAlpha src.format (Spec.normalize (columnArith (p.real scalar) dst.width) src.format (shown src.format sps m))) c x y)
        (maxSample dst.format))) := by
  obtain ⟨l, hl⟩ : ∃ l, sampleLoc dst.format c x y = some l := by
    revert hd; rcases hc with rfl | ⟨rfl | rfl, -⟩ <;> cases dst.format <;> simp [isYuv, sampleLoc]
  have h := C14_as_is r.done c x y l hx hy hl
  rw [C14_as_is_specified _ _ _ _ _ _ _ _ _ _ _ (by
    rcases hc with rfl | ⟨-, h⟩
    · left; simp
    · exact .inr (.inl h)), asRead_rgb hs] at h
  rw [h, converted, hj, converted_yuv hs hd ht hp]
  simp only [quantize, hd, yuvStore]
  rw [if_neg (by simp)]
  split <;> rfl

/-- The code of a value known up to `e`, from its scaled value `u`. -/
theorem store_code {ar : Arith F32} (hi : IsIeee ar) (f : PixelFormat) {q : F32 → Nat} {N : Nat} (hq : F32.Near N q) (hN : 2 ^ sampleBits f - 1 ≤ N)
    {u : F32} {U v T : ℝ} (hu : App u U (4 / 10 ^ 6)) (hU : |U| ≤ 4)
    (hv : |U * (2 ^ sampleBits f - 1 : Nat) - v| ≤ (T - 5 / 10 ^ 6) * (2 ^ sampleBits f - 1 : Nat))
    (h0 : T * (2 ^ sampleBits f - 1 : Nat) ≤ v + 49 / 100) (h1 : v + T * (2 ^ sampleBits f - 1 : Nat) ≤ (2 ^ sampleBits f - 1 : Nat) + 49 / 100) :
    |(q (ar.mul u (maxSample f)) : ℝ) - v| < 1 + T * (2 ^ sampleBits f - 1 : Nat) := by
  have hs := scale_app hi f hu (hU.trans (by norm_num)) (by norm_num)
  have happ := (hs.shift hv).mono (show _ ≤ T * (2 ^ sampleBits f - 1 : Nat) by
    rw [← add_mul]
    exact mul_le_mul_of_nonneg_right (by norm_num; linarith) (by positivity))
  exact hq.near hN happ h0 h1

/-- The chroma of an image of a format that keeps all rows. -/
theorem mean_app {ar : Nat → Arith F32} (hi : ∀ x, IsIeee (ar x)) {f : PixelFormat} (hv : vsub f = 1) {j : YuvColorInfo} {q : Pic F32}
    {std : Nat → Nat → ℝ × ℝ × ℝ} {e1 e2 : ℝ} (x y : Nat)
    (h : ∀ x y, App (yuvAt ar j q x y).2.1 (std x y).2.1 e1 ∧ App (yuvAt ar j q x y).2.2 (std x y).2.2 e2 ∧
      |(std x y).2.1| ≤ 10 ∧ |(std x y).2.2| ≤ 10) (h1 : e1 ≤ 1) (h2 : e2 ≤ 1) :
    App (chromaOf ar f j q x y).1 (cellMean f (fun x y => (std x y).2.1) x y) (e1 + 2 / 10 ^ 6) ∧
    App (chromaOf ar f j q x y).2 (cellMean f (fun x y => (std x y).2.2) x y) (e2 + 2 / 10 ^ 6) := by
  have two : Is (FOps.lit 2.0 : F32) 2 := by
    have := lit_is (q := 2.0) (by decide +kernel); norm_num at this ⊢; exact this
  have hf : hsub f = 1 ∨ hsub f = 2 := by cases f <;> simp [hsub]
  rcases hf with hh | hh
  · obtain ⟨a1, a2, -⟩ := h x y
    simp only [chromaOf, hh, cellMean, hv, if_pos]
    simp only [Finset.sum_range_one, Nat.div_one, mul_one, add_zero, Nat.cast_one, div_one]
    exact ⟨a1.mono (by norm_num), a2.mono (by norm_num)⟩
  · simp only [chromaOf, hh, cellMean, hv, if_pos, chroma422]
    simp only [Finset.sum_range_succ, Finset.sum_range_zero, Nat.div_one, mul_one, add_zero, zero_add, Nat.cast_one]
    rw [if_neg (by norm_num), (hi x).div, (hi x).add]
    obtain ⟨a1, a2, b1, b2⟩ := h (x / 2 * 2) y
    obtain ⟨c1, c2, d1, d2⟩ := h (x / 2 * 2 + 1) y
    have key : ∀ {u v : F32} {U V e : ℝ}, App u U e → App v V e → |U| ≤ 10 → |V| ≤ 10 → e ≤ 1 →
        App (F32.div (F32.add u v) (FOps.lit 2.0)) ((U + V) / ((2 : Nat) : ℝ)) (e + 2 / 10 ^ 6) := by
      intro u v U V e hu hv hU hV he
      have t := abs_add_le U V
      have e0 := hu.nonneg
      have s := app_add (B := 22) hu hv (by linarith) (by norm_num) (by norm_num)
      have d := app_div_const (B := 12) s two (by norm_num) (by
        push_cast; norm_num; linarith) (by norm_num) (by norm_num)
      push_cast at d ⊢
      refine d.mono ?_
      norm_num; linarith
    exact ⟨key a1 c1 b1 d1 h1, key a2 c2 b2 d2 h2⟩

/-- The codes of an ICtCp image, if the colour of each pixel is known up to `e`. -/
theorem ictcp_codes (r : Run (p.real scalar) src dst sps dps m m') (hs : isYuv src.format = false)
    (hd : isYuv dst.format = true) {j : YuvColorInfo} (hj : dst.color = .YUV j) (ht : src.color.transfer = j.transfer)
    (hp : src.color.primaries = j.primaries) {e1 e2 e3 : ℝ} (he1 : e1 ≤ 1 / 100) (he2 : e2 ≤ 1 / 100) (he3 : e3 ≤ 1 / 100)
    (hpix : ∀ x' y',
      let v := rgbToYuv (columnArith (p.real scalar) dst.width x') j.space j.transfer j.primaries
        ((columnArith (p.real scalar) dst.width x').div (FOps.ofNat (shown src.format sps m .R x' y')) (FOps.ofNat 255),
          (columnArith (p.real scalar) dst.width x').div (FOps.ofNat (shown src.format sps m .G x' y')) (FOps.ofNat 255),
          (columnArith (p.real scalar) dst.width x').div (FOps.ofNat (shown src.format sps m .B x' y')) (FOps.ofNat 255))
      let s := pixelIctcp j.transfer (shown src.format sps m) x' y'
      App v.1 s.1 e1 ∧ App v.2.1 s.2.1 e2 ∧ App v.2.2 s.2.2 e3 ∧ |s.2.1| ≤ 10 ∧ |s.2.2| ≤ 10)
    {c : Chan} (hc : c = .Y ∨ (c = .U ∨ c = .V) ∧ vsub dst.format = 1) {x y : Nat} (hx : x < dst.width) (hy : y < dst.height) {T : ℝ}
    (hT : T ≤ 1 / 100) (hTc : (match c with | .U => e2 | .V => e3 | _ => e1) + 8 / 10 ^ 6 ≤ T) :
    let M : Nat := 2 ^ sampleBits dst.format - 1
    let v := idealIctcp j.transfer dst.format j.fullRange (shown src.format sps m) c x y
    T * M ≤ v + 49 / 100 → v + T * M ≤ M + 49 / 100 →
    ∃ n : Nat, sample dst.format dps m' c x y = some n ∧ |(n : ℝ) - v| < 1 + T * M := by
  intro M v h0 h1
  have hcol := column_ieee p (p.libm scalar) scalar dst.width
  refine ⟨_, to_ictcp_pick r hs hd hj ht hp hc hx hy, ?_⟩
  set q := withAlpha src.format (Spec.normalize (columnArith (p.real scalar) dst.width) src.format (shown src.format sps m)) with hq
  have e3' : ∀ c x y, c ≠ .A → q c x y =
      (columnArith (p.real scalar) dst.width x).div (FOps.ofNat (shown src.format sps m c x y)) (FOps.ofNat 255) := by
    intro c x y h
    rw [hq, withAlpha, if_neg (by rintro ⟨rfl, _⟩; exact h rfl), Spec.normalize, maxSample, (rgb8 hs).2]
  have pix : ∀ x' y', App (yuvAt (columnArith (p.real scalar) dst.width) j q x' y').1 (pixelIctcp j.transfer (shown src.format sps m) x' y').1 e1 ∧
      App (yuvAt (columnArith (p.real scalar) dst.width) j q x' y').2.1 (pixelIctcp j.transfer (shown src.format sps m) x' y').2.1 e2 ∧
      App (yuvAt (columnArith (p.real scalar) dst.width) j q x' y').2.2 (pixelIctcp j.transfer (shown src.format sps m) x' y').2.2 e3 ∧
      |(pixelIctcp j.transfer (shown src.format sps m) x' y').2.1| ≤ 10 ∧ |(pixelIctcp j.transfer (shown src.format sps m) x' y').2.2| ≤ 10 := by
    intro x' y'
    rw [yuvAt, e3' .R _ _ nofun, e3' .G _ _ nofun, e3' .B _ _ nofun]
    exact hpix x' y'
  have hM : 255 ≤ M ∧ M ≤ 4095 := by
    simp only [M]; cases dst.format <;> simp [sampleBits]
  have hM8 : sampleBytes dst.format = 1 → M ≤ 255 := by
    simp only [M]; cases dst.format <;> simp [sampleBytes, sampleBits]
  have hM1 : (255 : ℝ) ≤ M := by exact_mod_cast hM.1
  have Mp : (0 : ℝ) < M := by linarith
  -- from the scaled value
  suffices ∃ (U : ℝ), App (encode (columnArith (p.real scalar) dst.width) dst.format j q c x y) U (4 / 10 ^ 6) ∧ |U| ≤ 4 ∧
      |U * M - v| ≤ (T - 5 / 10 ^ 6) * M by
    obtain ⟨U, hU, bU, dU⟩ := this
    unfold yuvStore
    split
    · rename_i h8
      exact store_code (hcol x) dst.format (hcol x).q8 (hM8 h8) hU bU dU h0 h1
    · exact store_code (hcol x) dst.format (hcol x).q16 (hM.2.trans (by norm_num)) hU bU dU h0 h1
  have he := exactAr_exact x
  -- luma and chroma
  have luma : ∀ {u : F32} {L e : ℝ}, App u L e → e + 8 / 10 ^ 6 ≤ T → T * M ≤ lumaCode j.fullRange M L + 49 / 100 →
      lumaCode j.fullRange M L + T * M ≤ M + 49 / 100 → ∃ U, App (compressLuma (columnArith (p.real scalar) dst.width x) j.fullRange u) U (4 / 10 ^ 6) ∧
        |U| ≤ 4 ∧ |U * M - lumaCode j.fullRange M L| ≤ (T - 5 / 10 ^ 6) * M := by
    intro u L e hu heT b0 b1
    have e0 := hu.nonneg
    obtain ⟨X, iX, dX⟩ := hu.is
    have TM : 0 ≤ T * M := mul_nonneg (by norm_num at heT; linarith) Mp.le
    have bL : |L| ≤ 2 := by
      have hcase : lumaCode j.fullRange M L = M * L ∨ lumaCode j.fullRange M L = M * ((16 + 219 * L) / 255) := by
        cases j.fullRange <;> simp [lumaCode]
      rw [abs_le]
      constructor
      · by_contra hlt
        rw [not_le] at hlt
        have := mul_lt_mul_of_pos_left hlt Mp
        rcases hcase with h | h <;> rw [h] at b0 <;> linarith
      · by_contra hlt
        rw [not_le] at hlt
        have := mul_lt_mul_of_pos_left hlt Mp
        rcases hcase with h | h <;> rw [h] at b1 <;> linarith
    have bX : |(X : ℝ)| ≤ 3 := by
      have := abs_sub_abs_le_abs_sub (X : ℝ) L
      norm_num at heT hT
      linarith
    obtain ⟨a, b⟩ := compressLuma_app (hcol x) he j.fullRange (iX.app.mono (by norm_num)) bX
    refine ⟨_, a, b, ?_⟩
    have hdif : compressLuma (exactAr x) j.fullRange X * M - lumaCode j.fullRange M L =
        (X - L) * (if j.fullRange then 1 else 219 / 255) * M := by
      cases j.fullRange
      · rw [compressLuma_real he, lumaCode, if_neg (by simp)]; simp; ring
      · simp [compressLuma, lumaCode]; ring
    rw [hdif, abs_mul, abs_mul, abs_of_pos Mp]
    refine mul_le_mul_of_nonneg_right ?_ Mp.le
    have k : |if j.fullRange = true then (1 : ℝ) else 219 / 255| ≤ 1 := by split <;> norm_num [abs_le]
    have := mul_le_mul dX k (abs_nonneg _) e0
    norm_num at heT ⊢
    linarith
  have chroma : ∀ {u : F32} {L e : ℝ}, App u L e → e + 6 / 10 ^ 6 ≤ T → T * M ≤ chromaCode j.fullRange M L + 49 / 100 →
      chromaCode j.fullRange M L + T * M ≤ M + 49 / 100 → ∃ U, App (compressChroma (columnArith (p.real scalar) dst.width x) j.fullRange u) U (4 / 10 ^ 6) ∧
        |U| ≤ 4 ∧ |U * M - chromaCode j.fullRange M L| ≤ (T - 5 / 10 ^ 6) * M := by
    intro u L e hu heT b0 b1
    have e0 := hu.nonneg
    obtain ⟨X, iX, dX⟩ := hu.is
    have TM : 0 ≤ T * M := mul_nonneg (by norm_num at heT; linarith) Mp.le
    have bL : |L| ≤ 2 := by
      have hcase : chromaCode j.fullRange M L = M * (L + 1 / 2) ∨ chromaCode j.fullRange M L = M * ((128 + 224 * L) / 255) := by
        cases j.fullRange <;> simp [chromaCode]
      rw [abs_le]
      constructor
      · by_contra hlt
        rw [not_le] at hlt
        have := mul_lt_mul_of_pos_left hlt Mp
        rcases hcase with h | h <;> rw [h] at b0 <;> linarith
      · by_contra hlt
        rw [not_le] at hlt
        have := mul_lt_mul_of_pos_left hlt Mp
        rcases hcase with h | h <;> rw [h] at b1 <;> linarith
    have bX : |(X : ℝ)| ≤ 3 := by
      have := abs_sub_abs_le_abs_sub (X : ℝ) L
      norm_num at heT hT
      linarith
    obtain ⟨a, b⟩ := compressChroma_app (hcol x) he j.fullRange (iX.app.mono (by norm_num)) bX
    refine ⟨_, a, b, ?_⟩
    have hdif : compressChroma (exactAr x) j.fullRange X * M - chromaCode j.fullRange M L =
        (X - L) * (if j.fullRange then 1 else 224 / 255) * M := by
      cases j.fullRange
      · rw [compressChroma_real he, chromaCode, if_neg (by simp)]; simp; ring
      · rw [compressChroma_full he, chromaCode]; simp; ring
    rw [hdif, abs_mul, abs_mul, abs_of_pos Mp]
    refine mul_le_mul_of_nonneg_right ?_ Mp.le
    have k : |if j.fullRange = true then (1 : ℝ) else 224 / 255| ≤ 1 := by split <;> norm_num [abs_le]
    have := mul_le_mul dX k (abs_nonneg _) e0
    norm_num at heT ⊢
    linarith
  rcases hc with rfl | ⟨hc, hvs⟩
  · exact luma (pix x y).1 hTc h0 h1
  · have mean := mean_app hcol hvs x y (fun x y => (pix x y).2) (he2.trans (by norm_num)) (he3.trans (by norm_num))
    rcases hc with rfl | rfl
    · exact chroma mean.1 (by norm_num at hTc ⊢; linarith) h0 h1
    · exact chroma mean.2 (by norm_num at hTc ⊢; linarith) h0 h1

/-- The error of ICtCp codes, as a share of the range of codes. -/
noncomputable def ictcpTolerance : ColorTransfer → Chan → ℝ
  | .BT2100HLG, .U => 45 / 10 ^ 5
  | .BT2100HLG, .V => 57 / 10 ^ 5
  | .BT2100HLG, _ => 13 / 10 ^ 5
  | _, .U => 121 / 10 ^ 5
  | _, .V => 159 / 10 ^ 5
  | _, _ => 19 / 10 ^ 5

theorem ictcpOfPq_small {L M S : ℝ} (hL : |L| ≤ 11 / 10) (hM : |M| ≤ 11 / 10) (hS : |S| ≤ 11 / 10) :
    |(Standard.ictcpOfPq (L, M, S)).2.1| ≤ 10 ∧ |(Standard.ictcpOfPq (L, M, S)).2.2| ≤ 10 := by
  rw [abs_le] at hL hM hS
  simp only [Standard.ictcpOfPq]
  refine ⟨?_, ?_⟩ <;> rw [abs_le] <;> constructor <;> linarith [hL.1, hL.2, hM.1, hM.2, hS.1, hS.2]

theorem ictcpOfHlg_small {L M S : ℝ} (hL : |L| ≤ 11 / 10) (hM : |M| ≤ 11 / 10) (hS : |S| ≤ 11 / 10) :
    |(Standard.ictcpOfHlg (L, M, S)).2.1| ≤ 10 ∧ |(Standard.ictcpOfHlg (L, M, S)).2.2| ≤ 10 := by
  rw [abs_le] at hL hM hS
  simp only [Standard.ictcpOfHlg]
  refine ⟨?_, ?_⟩ <;> rw [abs_le] <;> constructor <;> linarith [hL.1, hL.2, hM.1, hM.2, hS.1, hS.2]

/-- **C55** (partial: chroma only of formats that keep all rows, see C14 for the others; not if the ideal code is none of the
destination's).  The codes of the ICtCp image differ by less than one, plus a small share of the range, from those BT.2100
gives for the bytes of the RGB image. -/
theorem C55_partial (r : Run (p.real scalar) src dst sps dps m m') (ha : scalar.Accurate) (hs : isYuv src.format = false)
    (hd : isYuv dst.format = true) {j : YuvColorInfo} (hj : dst.color = .YUV j) (ht : src.color.transfer = j.transfer)
    (hp : src.color.primaries = j.primaries) (hprim : j.primaries = .BT2020)
    (hsys : j.space = .ICtCpPQ ∧ j.transfer = .BT2100PQ ∨ j.space = .ICtCpHLG ∧ j.transfer = .BT2100HLG)
    {c : Chan} (hc : c = .Y ∨ (c = .U ∨ c = .V) ∧ vsub dst.format = 1) {x y : Nat} (hx : x < dst.width) (hy : y < dst.height) :
    let M : Nat := 2 ^ sampleBits dst.format - 1
    let T := ictcpTolerance j.transfer c * M
    let v := idealIctcp j.transfer dst.format j.fullRange (shown src.format sps m) c x y
    T ≤ v + 49 / 100 → v + T ≤ M + 49 / 100 →
    ∃ n : Nat, sample dst.format dps m' c x y = some n ∧ |(n : ℝ) - v| < 1 + T := by
  have hle := shown_le (rgb8 hs).1 sps m
  rcases hsys with ⟨h1, h2⟩ | ⟨h1, h2⟩
  · refine ictcp_codes r hs hd hj ht hp (e1 := 181 / 10 ^ 6) (e2 := 120 / 10 ^ 5) (e3 := 158 / 10 ^ 5) (by norm_num) (by norm_num)
      (by norm_num) ?_ hc hx hy (T := ictcpTolerance j.transfer c) ?_ ?_
    · intro x' y'
      rw [h1, h2, hprim]
      have hf := column_floats p ha dst.width x'
      have he := exactAr_exact x'
      obtain ⟨a, b, d⟩ := pixel_pq he hf (hle .R x' y') (hle .G x' y') (hle .B x' y')
      obtain ⟨-, l1, u1, -⟩ := light_pq_std he hf (hle .R x' y')
      obtain ⟨-, l2, u2, -⟩ := light_pq_std he hf (hle .G x' y')
      obtain ⟨-, l3, u3, -⟩ := light_pq_std he hf (hle .B x' y')
      obtain ⟨⟨a1, b1⟩, ⟨a2, b2⟩, a3, b3⟩ := lms_range l1 l2 l3 u1 u2 u3
      exact ⟨a, b, d, ictcpOfPq_small (toSignal_pq_range a1 b1) (toSignal_pq_range a2 b2) (toSignal_pq_range a3 b3)⟩
    · rw [h2]; rcases hc with rfl | ⟨rfl | rfl, -⟩ <;> norm_num [ictcpTolerance]
    · rw [h2]; rcases hc with rfl | ⟨rfl | rfl, -⟩ <;> norm_num [ictcpTolerance]
  · refine ictcp_codes r hs hd hj ht hp (e1 := 121 / 10 ^ 6) (e2 := 44 / 10 ^ 5) (e3 := 56 / 10 ^ 5) (by norm_num) (by norm_num)
      (by norm_num) ?_ hc hx hy (T := ictcpTolerance j.transfer c) ?_ ?_
    · intro x' y'
      rw [h1, h2, hprim]
      have hf := column_floats p ha dst.width x'
      have he := exactAr_exact x'
      obtain ⟨a, b, d⟩ := pixel_hlg he hf (hle .R x' y') (hle .G x' y') (hle .B x' y')
      obtain ⟨-, l1, u1, -⟩ := light_hlg_std he hf (hle .R x' y')
      obtain ⟨-, l2, u2, -⟩ := light_hlg_std he hf (hle .G x' y')
      obtain ⟨-, l3, u3, -⟩ := light_hlg_std he hf (hle .B x' y')
      obtain ⟨⟨a1, b1⟩, ⟨a2, b2⟩, a3, b3⟩ := lms_range l1 l2 l3 u1 u2 u3
      exact ⟨a, b, d, ictcpOfHlg_small (toSignal_hlg_range he a1 b1) (toSignal_hlg_range he a2 b2) (toSignal_hlg_range he a3 b3)⟩
    · rw [h2]; rcases hc with rfl | ⟨rfl | rfl, -⟩ <;> norm_num [ictcpTolerance]
    · rw [h2]; rcases hc with rfl | ⟨rfl | rfl, -⟩ <;> norm_num [ictcpTolerance]

/-- The intensity of a pixel. -/
theorem intensity_unit {t : ColorTransfer} (ht : t = .BT2100PQ ∨ t = .BT2100HLG) {V : Pic Nat} (hV : ∀ c x y, V c x y ≤ 255) (x y : Nat) :
    0 ≤ (pixelIctcp t V x y).1 ∧ (pixelIctcp t V x y).1 ≤ 1 := by
  have n0 : ∀ c, (0 : ℝ) ≤ (V c x y : ℝ) / 255 := fun c => by positivity
  have n1 : ∀ c, (V c x y : ℝ) / 255 ≤ 1 := fun c => by rw [div_le_one (by norm_num)]; exact_mod_cast hV c x y
  rcases ht with rfl | rfl
  · have l : ∀ c, 0 ≤ Standard.toLight .BT2100PQ ((V c x y : ℝ) / 255) ∧ Standard.toLight .BT2100PQ ((V c x y : ℝ) / 255) ≤ 10000 := by
      intro c
      exact toLight_pq_le (n0 c) (n1 c)
    obtain ⟨⟨a1, b1⟩, ⟨a2, b2⟩, -⟩ := lms_range (l .R).1 (l .G).1 (l .B).1 (l .R).2 (l .G).2 (l .B).2
    obtain ⟨c1, d1⟩ := toSignal_pq_unit a1 b1
    obtain ⟨c2, d2⟩ := toSignal_pq_unit a2 b2
    simp only [pixelIctcp, Standard.ictcpPq, Standard.ictcpOfPq]
    constructor <;> linarith
  · have l := fun c => toLight_hlg_le (n0 c) (n1 c)
    obtain ⟨⟨a1, b1⟩, ⟨a2, b2⟩, -⟩ := lms_range (l .R).1 (l .G).1 (l .B).1 (l .R).2 (l .G).2 (l .B).2
    obtain ⟨c1, d1⟩ := toSignal_hlg_unit a1 b1
    obtain ⟨c2, d2⟩ := toSignal_hlg_unit a2 b2
    simp only [pixelIctcp, Standard.ictcpHlg, Standard.ictcpOfHlg]
    constructor <;> linarith

/-- **C55** for the intensity: of 8- and 10-bit images, and of limited range at 12 bits, whatever the picture. -/
theorem C55_intensity (r : Run (p.real scalar) src dst sps dps m m') (ha : scalar.Accurate) (hs : isYuv src.format = false)
    (hd : isYuv dst.format = true) {j : YuvColorInfo} (hj : dst.color = .YUV j) (ht : src.color.transfer = j.transfer)
    (hp : src.color.primaries = j.primaries) (hprim : j.primaries = .BT2020)
    (hsys : j.space = .ICtCpPQ ∧ j.transfer = .BT2100PQ ∨ j.space = .ICtCpHLG ∧ j.transfer = .BT2100HLG)
    (hbits : sampleBits dst.format ≤ 10 ∨ j.fullRange = false) {x y : Nat} (hx : x < dst.width) (hy : y < dst.height) :
    let M : Nat := 2 ^ sampleBits dst.format - 1
    ∃ n : Nat, sample dst.format dps m' .Y x y = some n ∧
      |(n : ℝ) - idealIctcp j.transfer dst.format j.fullRange (shown src.format sps m) .Y x y| < 1 + 19 / 10 ^ 5 * M := by
  intro M
  obtain ⟨i0, i1⟩ := intensity_unit (t := j.transfer) (by rcases hsys with h | h <;> simp [h.2]) (shown_le (rgb8 hs).1 sps m) x y
  have hM : (255 : ℝ) ≤ M ∧ (M : ℝ) ≤ 4095 ∧ (sampleBits dst.format ≤ 10 → (M : ℝ) ≤ 1023) := by
    simp only [M]; cases dst.format <;> norm_num [sampleBits]
  obtain ⟨M1, M2, M3⟩ := hM
  have T0 : ictcpTolerance j.transfer .Y ≤ 19 / 10 ^ 5 := by
    rcases hsys with h | h <;> rw [h.2] <;> norm_num [ictcpTolerance]
  have TM := mul_le_mul_of_nonneg_right T0 (show (0 : ℝ) ≤ M by linarith)
  have hv : idealIctcp j.transfer dst.format j.fullRange (shown src.format sps m) .Y x y =
      lumaCode j.fullRange M (pixelIctcp j.transfer (shown src.format sps m) x y).1 := rfl
  have key : ictcpTolerance j.transfer .Y * M ≤ lumaCode j.fullRange M (pixelIctcp j.transfer (shown src.format sps m) x y).1 + 49 / 100 ∧
      lumaCode j.fullRange M (pixelIctcp j.transfer (shown src.format sps m) x y).1 + ictcpTolerance j.transfer .Y * M ≤ M + 49 / 100 := by
    generalize (pixelIctcp j.transfer (shown src.format sps m) x y).1 = I at *
    have p0 := mul_nonneg (show (0 : ℝ) ≤ M by linarith) i0
    have p1 := mul_le_mul_of_nonneg_left i1 (show (0 : ℝ) ≤ M by linarith)
    cases hfr : j.fullRange
    · simp only [lumaCode]
      norm_num at TM ⊢
      constructor <;> linarith
    · have := M3 (by rcases hbits with h | h; exact h; rw [hfr] at h; cases h)
      simp only [lumaCode, if_true]
      norm_num at TM ⊢
      constructor <;> linarith
  obtain ⟨n, h1, h2⟩ := C55_partial r ha hs hd hj ht hp hprim hsys (.inl rfl) hx hy (by rw [hv]; exact key.1) (by rw [hv]; exact key.2)
  exact ⟨n, h1, h2.trans_le (by linarith)⟩

/-! ## Greys -/

/-- Greys have no chroma. -/
theorem pixelIctcp_grey (t : ColorTransfer) {V : Pic Nat} {x y : Nat} (h1 : V .R x y = V .G x y) (h2 : V .B x y = V .G x y) :
    (pixelIctcp t V x y).2 = (0, 0) := by
  have hl : ∀ l : ℝ, Standard.lms (l, l, l) = (l, l, l) := by
    intro l; simp only [Standard.lms]; refine Prod.ext ?_ (Prod.ext ?_ ?_) <;> ring
  simp only [pixelIctcp, h1, h2]
  split
  · simp only [Standard.ictcpHlg, Standard.ictcpOfHlg, hl]
    refine Prod.ext ?_ ?_ <;> ring
  · simp only [Standard.ictcpPq, Standard.ictcpOfPq, hl]
    refine Prod.ext ?_ ?_ <;> ring

/-- **C55** for greys: their chroma is neutral, whatever else the picture shows. -/
theorem C55_grey (r : Run (p.real scalar) src dst sps dps m m') (ha : scalar.Accurate) (hs : isYuv src.format = false)
    (hd : isYuv dst.format = true) {j : YuvColorInfo} (hj : dst.color = .YUV j) (ht : src.color.transfer = j.transfer)
    (hp : src.color.primaries = j.primaries) (hprim : j.primaries = .BT2020)
    (hsys : j.space = .ICtCpPQ ∧ j.transfer = .BT2100PQ ∨ j.space = .ICtCpHLG ∧ j.transfer = .BT2100HLG)
    {c : Chan} (hc : c = .U ∨ c = .V) (hv : vsub dst.format = 1) {x y : Nat} (hx : x < dst.width) (hy : y < dst.height)
    (hgrey : ∀ x' y', SameCell dst.format x y x' y' → shown src.format sps m .R x' y' = shown src.format sps m .G x' y' ∧
      shown src.format sps m .B x' y' = shown src.format sps m .G x' y') :
    let M : Nat := 2 ^ sampleBits dst.format - 1
    ∃ n : Nat, sample dst.format dps m' c x y = some n ∧
      |(n : ℝ) - chromaCode j.fullRange M 0| < 1 + ictcpTolerance j.transfer c * M := by
  intro M
  have hpix : ∀ x' y', SameCell dst.format x y x' y' → (pixelIctcp j.transfer (shown src.format sps m) x' y').2 = (0, 0) :=
    fun x' y' h => pixelIctcp_grey _ (hgrey x' y' h).1 (hgrey x' y' h).2
  have zero : ∀ g : Nat → Nat → ℝ, (∀ x' y', SameCell dst.format x y x' y' → g x' y' = 0) → cellMean dst.format g x y = 0 := by
    intro g hg
    have := cellMean_lip dst.format (g := g) (g' := fun _ _ => 0) (x := x) (y := y) (d := 0)
      (fun x' y' ex ey => by rw [hg x' y' ⟨ex, ey⟩]; simp)
    have := abs_nonpos_iff.mp this
    rw [sub_eq_zero] at this
    rw [this]; simp [cellMean]
  have e : idealIctcp j.transfer dst.format j.fullRange (shown src.format sps m) c x y = chromaCode j.fullRange M 0 := by
    rcases hc with rfl | rfl
    · simp only [idealIctcp]
      rw [zero _ fun x' y' h => by rw [hpix x' y' h]]
    · simp only [idealIctcp]
      rw [zero _ fun x' y' h => by rw [hpix x' y' h]]
  have M1 : (255 : ℝ) ≤ M := by
    simp only [M]; cases dst.format <;> norm_num [sampleBits]
  have T0 : ictcpTolerance j.transfer c ≤ 2 / 10 ^ 3 := by
    rcases hsys with h | h <;> rw [h.2] <;> rcases hc with rfl | rfl <;> norm_num [ictcpTolerance]
  have TM := mul_le_mul_of_nonneg_right T0 (show (0 : ℝ) ≤ M by linarith)
  have key : ictcpTolerance j.transfer c * M ≤ chromaCode j.fullRange M 0 + 49 / 100 ∧
      chromaCode j.fullRange M 0 + ictcpTolerance j.transfer c * M ≤ M + 49 / 100 := by
    cases j.fullRange <;> simp only [chromaCode] <;> norm_num at TM ⊢ <;> constructor <;> linarith
  have := C55_partial r ha hs hd hj ht hp hprim hsys (.inr ⟨hc, hv⟩) hx hy
  simp only [e] at this
  exact this key.1 key.2

/-! ## Examples -/

/-- A PQ picture as 4:2:0 ICtCp of limited range and 12 bits, on NEON. -/
example (m : Mem) : ∃ m' : Mem, ∃ n : Nat, sample .I012 [⟨⟨100, 64⟩, 32⟩, ⟨⟨200, 16⟩, 16⟩, ⟨⟨300, 16⟩, 16⟩] m' .Y 5 1 = some n ∧
    |(n : ℝ) - idealIctcp .BT2100PQ .I012 false (shown .RGB [⟨⟨0, 96⟩, 48⟩] m) .Y 5 1| < 1 + 8 / 10 := by
  obtain ⟨scalar, ha⟩ := libm_exists
  obtain ⟨m', r⟩ := run_exists (c := Platform.neon.real scalar) (platform_lawful .neon _ _)
    (src := .raw .RGB 16 2 [⟨⟨0, 96⟩, 48⟩] (.RGB ⟨.BT2100PQ, .BT2020⟩))
    (dst := .raw .I012 16 2 [⟨⟨100, 64⟩, 32⟩, ⟨⟨200, 16⟩, 16⟩, ⟨⟨300, 16⟩, 16⟩] (.YUV ⟨.BT2100PQ, .BT2020, .ICtCpPQ, false⟩))
    (sps := [⟨⟨0, 96⟩, 48⟩]) (dps := [⟨⟨100, 64⟩, 32⟩, ⟨⟨200, 16⟩, 16⟩, ⟨⟨300, 16⟩, 16⟩]) rfl rfl
    (planesDisjoint_of (by decide)) (separate_of (by decide)) (uniform_of (by decide)) (by decide) m
  obtain ⟨n, h1, h2⟩ := C55_intensity r ha rfl rfl rfl rfl rfl rfl (.inl ⟨rfl, rfl⟩) (.inr rfl) (x := 5) (y := 1) (by decide) (by decide)
  refine ⟨m', n, h1, h2.trans_le ?_⟩
  change 1 + 19 / 10 ^ 5 * ((2 ^ sampleBits .I012 - 1 : Nat) : ℝ) ≤ _
  norm_num [sampleBits]

/-- A grey HLG picture as 4:2:2 ICtCp of limited range and 8 bits, on AVX2: its chroma is 127, 128 or 129. -/
example : ∃ m' : Mem, ∃ n : Nat, sample .I422 [⟨⟨100, 32⟩, 16⟩, ⟨⟨200, 16⟩, 8⟩, ⟨⟨300, 16⟩, 8⟩] m' .V 5 1 = some n ∧ 127 ≤ n ∧ n ≤ 129 := by
  obtain ⟨scalar, ha⟩ := libm_exists
  obtain ⟨m', r⟩ := run_exists (c := Platform.avx2.real scalar) (platform_lawful .avx2 _ _)
    (src := .raw .RGB 16 2 [⟨⟨0, 96⟩, 48⟩] (.RGB ⟨.BT2100HLG, .BT2020⟩))
    (dst := .raw .I422 16 2 [⟨⟨100, 32⟩, 16⟩, ⟨⟨200, 16⟩, 8⟩, ⟨⟨300, 16⟩, 8⟩] (.YUV ⟨.BT2100HLG, .BT2020, .ICtCpHLG, false⟩))
    (sps := [⟨⟨0, 96⟩, 48⟩]) (dps := [⟨⟨100, 32⟩, 16⟩, ⟨⟨200, 16⟩, 8⟩, ⟨⟨300, 16⟩, 8⟩]) rfl rfl
    (planesDisjoint_of (by decide)) (separate_of (by decide)) (uniform_of (by decide)) (by decide) (fun a => UInt8.ofNat (a / 3 * 5))
  obtain ⟨n, h1, h2⟩ := C55_grey r ha rfl rfl rfl rfl rfl rfl (.inr ⟨rfl, rfl⟩) (.inr rfl) rfl (c := .V) (x := 5) (y := 1) (by decide)
    (by decide) (by
      rintro x' y' ⟨ex, ey⟩
      have ex : x' / 2 = 2 := by simpa [hsub, Img.format] using ex
      obtain rfl : y' = 1 := by simpa [vsub, Img.format] using ey
      obtain rfl | rfl : x' = 4 ∨ x' = 5 := by omega
      · decide
      · decide)
  refine ⟨m', n, h1, ?_⟩
  have h3 : |(n : ℝ) - 128| < 1 + 1 / 2 := by
    refine lt_of_lt_of_le (b := 1 + 57 / 10 ^ 5 * ((2 ^ sampleBits .I422 - 1 : Nat) : ℝ)) ?_ ?_
    · have e : chromaCode false (2 ^ sampleBits .I422 - 1) 0 = 128 := by norm_num [chromaCode, sampleBits]
      rw [← e]; exact h2
    · norm_num [sampleBits]
  rw [abs_lt] at h3
  have n1 : ((126 : Nat) : ℝ) < n := by push_cast; linarith [h3.1]
  have n2 : (n : ℝ) < ((130 : Nat) : ℝ) := by push_cast; linarith [h3.2]
  have n1 : 126 < n := by exact_mod_cast n1
  have n2 : n < 130 := by exact_mod_cast n2
  omega

/-- The `CT` codes of a PQ picture as 4:4:4 ICtCp of full range and 8 bits, on AVX-512. -/
example (m : Mem) : ∃ m' : Mem,
    let v := idealIctcp .BT2100PQ .I444 true (shown .RGB [⟨⟨0, 96⟩, 48⟩] m) .U 5 1
    0 ≤ v → v ≤ 255 → ∃ n : Nat, sample .I444 [⟨⟨100, 32⟩, 16⟩, ⟨⟨200, 32⟩, 16⟩, ⟨⟨300, 32⟩, 16⟩] m' .U 5 1 = some n ∧
      |(n : ℝ) - v| < 1 + 31 / 100 := by
  obtain ⟨scalar, ha⟩ := libm_exists
  obtain ⟨m', r⟩ := run_exists (c := Platform.avx512.real scalar) (platform_lawful .avx512 _ _)
    (src := .raw .RGB 16 2 [⟨⟨0, 96⟩, 48⟩] (.RGB ⟨.BT2100PQ, .BT2020⟩))
    (dst := .raw .I444 16 2 [⟨⟨100, 32⟩, 16⟩, ⟨⟨200, 32⟩, 16⟩, ⟨⟨300, 32⟩, 16⟩] (.YUV ⟨.BT2100PQ, .BT2020, .ICtCpPQ, true⟩))
    (sps := [⟨⟨0, 96⟩, 48⟩]) (dps := [⟨⟨100, 32⟩, 16⟩, ⟨⟨200, 32⟩, 16⟩, ⟨⟨300, 32⟩, 16⟩]) rfl rfl
    (planesDisjoint_of (by decide)) (separate_of (by decide)) (uniform_of (by decide)) (by decide) m
  refine ⟨m', fun h0 h1 => ?_⟩
  have e : ictcpTolerance .BT2100PQ .U * ((2 ^ sampleBits .I444 - 1 : Nat) : ℝ) ≤ 31 / 100 := by
    norm_num [ictcpTolerance, sampleBits]
  have e2 : (255 : ℝ) = ((2 ^ sampleBits .I444 - 1 : Nat) : ℝ) := by norm_num [sampleBits]
  obtain ⟨n, h2, h3⟩ := C55_partial r ha rfl rfl rfl rfl rfl rfl (.inl ⟨rfl, rfl⟩) (c := .U) (.inr ⟨.inl rfl, rfl⟩) (x := 5) (y := 1)
    (by decide) (by decide) (by
      refine e.trans (le_trans (by norm_num) (add_le_add_left h0 _))) (by
      refine le_trans (add_le_add h1 e) (le_trans (by norm_num) (add_le_add_left e2.le _)))
  exact ⟨n, h2, h3.trans_le (add_le_add_right e 1)⟩

end Ezk.Props

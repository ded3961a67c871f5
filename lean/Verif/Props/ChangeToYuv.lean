import Verif.Proofs.EncodeSigned
import Verif.Props.ChangeYuv
import Verif.Props.Recode

/-!
# C53: YUV images from images in another transfer function or with other primaries
-/

namespace Ezk.Props
open Ezk F32 Spec

variable {p : Platform} {scalar : Libm} {src dst : Img} {sps dps : List Plane} {m m' : Mem}

/-- What an image becomes as a YUV image in another transfer function or with other primaries. -/
theorem to_yuv_pick (r : Run (p.real scalar) src dst sps dps m m') (hd : isYuv dst.format = true) {j : YuvColorInfo}
    (hj : dst.color = .YUV j) (hm : isMatrix j.space = true)
    (hne : ¬ (src.color.transfer = dst.color.transfer ∧ src.color.primaries = dst.color.primaries))
    {c : Chan} (hc : c = .Y ∨ c = .U ∨ c = .V) {x y : Nat} (hx : x < dst.width) (hy : y < dst.height) :
    sample dst.format dps m' c x y = some (stored p (p.libm scalar) scalar dst.width x (yuvStore dst.format)
      ((columnArith (p.real scalar) dst.width x).mul (encode (columnArith (p.real scalar) dst.width) dst.format j
        (changeColor (columnArith (p.real scalar) dst.width) src.color dst.color
          (readPic (columnArith (p.real scalar) dst.width) src.format src.color (shown src.format sps m))) c x y)
        (maxSample dst.format))) := by
  have hV := shown_depicts (w := src.width) (h := src.height) r.returned.vsrc.fits.1 m
  obtain ⟨l, hl⟩ : ∃ l, sampleLoc dst.format c x y = some l := by
    revert hd; rcases hc with rfl | rfl | rfl <;> cases dst.format <;> simp [isYuv, sampleLoc]
  have hb : ¬ BadChroma src.format src.color dst.format dst.color := by
    rintro ⟨_, _, i', e1, e2⟩
    rw [hj] at e1; cases e1
    rw [hm] at e2; cases e2
  rw [r.depicts hb hV c x y l hx hy hl, converted, convertedF, if_neg (fun h => hne ⟨by rw [h.2], by rw [h.2]⟩), adaptPic,
    if_neg hne]
  have e2 : ∀ q : Pic F32, writePic (columnArith (p.real scalar) dst.width) dst.format dst.color q =
      encode (columnArith (p.real scalar) dst.width) dst.format j q := by
    intro q; rw [hj]; simp [writePic, hd]
  rw [e2]
  simp only [quantize, hd, yuvStore]
  rw [if_neg (by simp)]
  split <;> rfl

/-- The codes, if the signals of the pixels are known up to `D`. -/
theorem to_yuv_signals (r : Run (p.real scalar) src dst sps dps m m') (hd : isYuv dst.format = true)
    {j : YuvColorInfo} (hj : dst.color = .YUV j)
    (hne : ¬ (src.color.transfer = dst.color.transfer ∧ src.color.primaries = dst.color.primaries))
    {k : ℝ × ℝ × ℝ} (hk : IsStandard j.space k)
    {c : Chan} (hc : c = .Y ∨ c = .U ∨ c = .V) {x y : Nat} (hx : x < dst.width) (hy : y < dst.height) {E : Pic ℝ} {D T : ℝ}
    (hDT : D + 606 / 10 ^ 7 ≤ T) (hT2 : T ≤ 1 / 100)
    (hsig : ∀ c, (c = .R ∨ c = .G ∨ c = .B) → ∀ x' y', x' < dst.width → y' < dst.height → x' / hsub dst.format = x / hsub dst.format →
      y' / vsub dst.format = y / vsub dst.format →
      App (changeColor (columnArith (p.real scalar) dst.width) src.color dst.color
          (readPic (columnArith (p.real scalar) dst.width) src.format src.color (shown src.format sps m)) c x' y') (E c x' y') D ∧
      |E c x' y'| ≤ 1006 / 100)
    (h0 : T * (2 ^ sampleBits dst.format - 1 : Nat) ≤ idealCodes k dst.format j.fullRange E c x y + 49 / 100)
    (h1 : idealCodes k dst.format j.fullRange E c x y +
      T * (2 ^ sampleBits dst.format - 1 : Nat) ≤ (2 ^ sampleBits dst.format - 1 : Nat) + 49 / 100) :
    ∃ n : Nat, sample dst.format dps m' c x y = some n ∧
      |(n : ℝ) - idealCodes k dst.format j.fullRange E c x y| < 1 + T * (2 ^ sampleBits dst.format - 1 : Nat) := by
  have hcol := column_ieee p (p.libm scalar) scalar dst.width
  set S := changeColor (columnArith (p.real scalar) dst.width) src.color dst.color
    (readPic (columnArith (p.real scalar) dst.width) src.format src.color (shown src.format sps m)) with hS
  -- the signals
  have sig : ∀ c, (c = .R ∨ c = .G ∨ c = .B) → ∀ x' y', x' / hsub dst.format = x / hsub dst.format →
      y' / vsub dst.format = y / vsub dst.format → App (S c x' y') (E c x' y') D ∧ |E c x' y'| ≤ 1006 / 100 := by
    intro c hc x' y' ex ey
    have hw : x' < dst.width := by
      have := r.returned.evenW
      have hh : hsub dst.format = 1 ∨ hsub dst.format = 2 := by cases dst.format <;> simp [hsub]
      rcases hh with h | h <;> rw [h] at ex <;> omega
    have hh : y' < dst.height := by
      have := r.returned.evenH
      have hh : vsub dst.format = 1 ∨ vsub dst.format = 2 := by cases dst.format <;> simp [vsub]
      rcases hh with h | h <;> rw [h] at ey <;> omega
    exact hsig c hc x' y' hw hh ex ey
  have hpos : 0 ≤ D := (sig .R (by simp) x y rfl rfl).1.nonneg
  -- their values
  have val : ∀ c, (c = .R ∨ c = .G ∨ c = .B) → ∀ x' y', x' / hsub dst.format = x / hsub dst.format →
      y' / vsub dst.format = y / vsub dst.format → App (S c x' y') ((S c x' y').toReal) 0 ∧ |(S c x' y').toReal - E c x' y'| ≤ D := by
    intro c hc x' y' ex ey
    obtain ⟨Y, hY, hYd⟩ := (sig c hc x' y' ex ey).1.is
    rw [hY.toReal]
    exact ⟨hY.app, hYd⟩
  have hcell : CellApp dst.format S (fun c x y => (S c x y).toReal) x y := by
    intro c hc x' y' ex ey
    obtain ⟨a, b⟩ := val c hc x' y' ex ey
    refine ⟨a.mono (by norm_num), ?_⟩
    have h2 := (sig c hc x' y' ex ey).2
    have h3 := abs_sub_abs_le_abs_sub (S c x' y').toReal (E c x' y')
    norm_num at hT2 hDT
    linarith
  obtain ⟨a1, -⟩ := encode_wide hcol exactAr_exact dst.format hk.isMatrix hcell hc
  have lip := idealCodes_lip hk dst.format j.fullRange (E := fun c x y => (S c x y).toReal) (E' := E)
    (fun c hc x' y' ex ey => (val c hc x' y' ex ey).2) c
  rw [← encode_codes exactAr_exact hk dst.format (fun c x y => (S c x y).toReal) hc] at lip
  have hM : 255 ≤ 2 ^ sampleBits dst.format - 1 ∧ 2 ^ sampleBits dst.format - 1 ≤ 4095 := by
    cases dst.format <;> simp [sampleBits]
  have hT8 : sampleBytes dst.format = 1 → 2 ^ sampleBits dst.format - 1 ≤ 255 := by
    cases dst.format <;> simp [sampleBytes, sampleBits]
  have hM1 : (255 : ℝ) ≤ (2 ^ sampleBits dst.format - 1 : Nat) := by exact_mod_cast hM.1
  have hTM : D * (2 ^ sampleBits dst.format - 1 : Nat) + 606 / 10 ^ 7 * (2 ^ sampleBits dst.format - 1 : Nat) ≤
      T * (2 ^ sampleBits dst.format - 1 : Nat) := by
    rw [← add_mul]; exact mul_le_mul_of_nonneg_right hDT (by linarith)
  have hTM2 : T * (2 ^ sampleBits dst.format - 1 : Nat) ≤ 1 / 100 * (2 ^ sampleBits dst.format - 1 : Nat) :=
    mul_le_mul_of_nonneg_right hT2 (by linarith)
  have small : |encode exactAr dst.format j (fun c x y => (S c x y).toReal) c x y| ≤ 10 := by
    rw [abs_le] at lip ⊢
    obtain ⟨p1, p2⟩ := lip
    norm_num at hTM hTM2
    generalize ((2 ^ sampleBits dst.format - 1 : Nat) : ℝ) = M at *
    generalize encode exactAr dst.format j (fun c x y => (S c x y).toReal) c x y = z at *
    constructor
    · by_contra h
      have : (z + 10) * M < 0 := mul_neg_of_neg_of_pos (by linarith) (by linarith)
      nlinarith
    · by_contra h
      have : 0 < (z - 10) * M := mul_pos (by linarith) (by linarith)
      nlinarith
  have hs := scale_app (hcol x) dst.format a1 small (by norm_num)
  have total : ∀ M : ℝ, 255 ≤ M → D * M + 606 / 10 ^ 7 * M ≤ T * M → (5 / 10 ^ 5 + 61 / 10 ^ 8) * M + D * M ≤ T * M := by
    intro M a b
    norm_num at b ⊢
    linarith
  have happ := (hs.shift lip).mono (total _ hM1 hTM)
  refine ⟨_, to_yuv_pick r hd hj hk.isMatrix hne hc hx hy, ?_⟩
  unfold yuvStore
  split
  · rename_i h8
    exact (hcol x).q8.near (hT8 h8) happ h0 h1
  · exact (hcol x).q16.near (by omega) happ h0 h1

/-- The codes, if the light of the pixels is known up to `e`. -/
theorem to_yuv_codes (r : Run (p.real scalar) src dst sps dps m m') (ha : scalar.Accurate) (hd : isYuv dst.format = true)
    {j : YuvColorInfo} (hj : dst.color = .YUV j)
    (hne : ¬ (src.color.transfer = dst.color.transfer ∧ src.color.primaries = dst.color.primaries))
    {k : ℝ × ℝ × ℝ} (hk : IsStandard j.space k) (ht : SignedTransfer j.transfer)
    {c : Chan} (hc : c = .Y ∨ c = .U ∨ c = .V) {x y : Nat} (hx : x < dst.width) (hy : y < dst.height) {L : Pic ℝ} {e T : ℝ}
    (he : e ≤ 2 / 10 ^ 4) (hT : 63 / 10 ^ 6 + encodeSlope j.transfer * e + encodeJump j.transfer + 6 / 10 ^ 7 ≤ T)
    (hT2 : T ≤ 1 / 100)
    (hL : ∀ c, (c = .R ∨ c = .G ∨ c = .B) → ∀ x' y', x' < dst.width → y' < dst.height → x' / hsub dst.format = x / hsub dst.format →
      y' / vsub dst.format = y / vsub dst.format →
      (∃ (v : F32) (X : ℚ), Is v X ∧ Good v ∧ |(X : ℝ) - L c x' y'| ≤ e ∧
        changeColor (columnArith (p.real scalar) dst.width) src.color dst.color
          (readPic (columnArith (p.real scalar) dst.width) src.format src.color (shown src.format sps m)) c x' y' =
        encodeTransfer (columnArith (p.real scalar) dst.width x') dst.color.transfer v) ∧
      -778 / 1000 ≤ L c x' y' ∧ L c x' y' ≤ 195 / 100 ∧
      (Magnitudes p dst.width x' → j.transfer ≠ .Linear → -29 / 10 ^ 4 ≤ L c x' y'))
    (h0 : T * (2 ^ sampleBits dst.format - 1 : Nat) ≤ idealCodes k dst.format j.fullRange
      (fun c x y => encodeTransfer (exactAr x) j.transfer (L c x y)) c x y + 49 / 100)
    (h1 : idealCodes k dst.format j.fullRange (fun c x y => encodeTransfer (exactAr x) j.transfer (L c x y)) c x y +
      T * (2 ^ sampleBits dst.format - 1 : Nat) ≤ (2 ^ sampleBits dst.format - 1 : Nat) + 49 / 100) :
    ∃ n : Nat, sample dst.format dps m' c x y = some n ∧
      |(n : ℝ) - idealCodes k dst.format j.fullRange (fun c x y => encodeTransfer (exactAr x) j.transfer (L c x y)) c x y| <
        1 + T * (2 ^ sampleBits dst.format - 1 : Nat) := by
  have hjt : dst.color.transfer = j.transfer := by rw [hj]; rfl
  refine to_yuv_signals r hd hj hne hk hc hx hy (D := encodeSlope j.transfer * e + encodeJump j.transfer + 3 / 10 ^ 6)
    (by norm_num at hT ⊢; linarith) hT2 (fun c hc x' y' hw hh ex ey => ?_) h0 h1
  obtain ⟨⟨v, X, hX, hg, hdX, ev⟩, l0, l1, l2⟩ := hL c hc x' y' hw hh ex ey
  have hd' := abs_le.mp hdX
  have hd1 := hd'.1
  have hd2 := hd'.2
  norm_num at he
  have X0 : ((-78 / 100 : ℚ) : ℝ) ≤ X := by push_cast; linarith
  have X1 : (X : ℝ) ≤ ((2 : ℚ) : ℝ) := by push_cast; linarith
  refine ⟨?_, enc_bound (exactAr_exact x') ht l0 l1⟩
  rw [ev, hjt]
  refine enc_signed_app (exactAr_exact x') (column_floats p ha dst.width x') ht hX hg (by exact_mod_cast X0) (by exact_mod_cast X1)
    hdX fun hneg hlin => ?_
  have cmp : ∀ b : ℚ, 31 / 10 ^ 4 < b → Compares (columnArith (p.real scalar) dst.width x') X b := by
    intro b hb
    refine column_compares p (by norm_num at hb; linarith) fun hmag => ?_
    have h3 := l2 hmag hlin
    norm_num at h3
    have h4 : ((-31 / 10 ^ 4 : ℚ) : ℝ) ≤ X := by push_cast; norm_num; linarith
    have h5 : (-31 / 10 ^ 4 : ℚ) ≤ X := by exact_mod_cast h4
    rw [abs_of_neg hneg]
    norm_num at hb h5
    linarith
  exact ⟨cmp _ (by norm_num), cmp _ (by norm_num)⟩

/-- The light of RGB images. -/
theorem rgb_light (r : Run (p.real scalar) src dst sps dps m m') (ha : scalar.Accurate) (hs : isYuv src.format = false)
    (hst : src.color.transfer ≠ .BT2100PQ) {c : Chan} (hc : c = .R ∨ c = .G ∨ c = .B) (x y : Nat) :
    (∃ (v : F32) (X : ℚ), Is v X ∧ Good v ∧ |(X : ℝ) - lightIn src.color dst.color (shown src.format sps m) c x y| ≤ 12 / 10 ^ 6 ∧
      changeColor (columnArith (p.real scalar) dst.width) src.color dst.color
        (readPic (columnArith (p.real scalar) dst.width) src.format src.color (shown src.format sps m)) c x y =
      encodeTransfer (columnArith (p.real scalar) dst.width x) dst.color.transfer v) ∧
    -778 / 1000 ≤ lightIn src.color dst.color (shown src.format sps m) c x y ∧
    lightIn src.color dst.color (shown src.format sps m) c x y ≤ 195 / 100 := by
  have hf := column_floats p ha dst.width x
  have he := exactAr_exact x
  have hle := shown_le (rgb8 hs).1 sps m
  have e1 : readPic (columnArith (p.real scalar) dst.width) src.format src.color (shown src.format sps m) =
      withAlpha src.format (Spec.normalize (columnArith (p.real scalar) dst.width) src.format (shown src.format sps m)) := by
    cases src.color <;> simp [readPic, hs]
  have e3 : ∀ c x y, c ≠ .A → withAlpha src.format (Spec.normalize (columnArith (p.real scalar) dst.width) src.format
      (shown src.format sps m)) c x y =
      (columnArith (p.real scalar) dst.width x).div (FOps.ofNat (shown src.format sps m c x y)) (FOps.ofNat 255) := by
    intro c x y h
    rw [withAlpha, if_neg (by rintro ⟨rfl, _⟩; exact h rfl), Spec.normalize, maxSample, (rgb8 hs).2]
  have l1 := light_app hf he hst (hle .R x y)
  have l2 := light_app hf he hst (hle .G x y)
  have l3 := light_app hf he hst (hle .B x y)
  obtain ⟨m1, m2, m3⟩ := mix_app he hf.toIsIeee src.color.primaries dst.color.primaries
    (p := (_, _, _)) (q := (_, _, _)) l1.1 l2.1 l3.1 l1.2 l2.2 l3.2
  obtain ⟨b1, b2, b3⟩ := mix_range he src.color.primaries dst.color.primaries (p := (_, _, _)) l1.2 l2.2 l3.2
  obtain ⟨a1, a2, a3⟩ := mix_low he src.color.primaries dst.color.primaries (p := (_, _, _)) l1.2 l2.2 l3.2
  simp only [e1, changeColor]
  rw [e3 .R _ _ nofun, e3 .G _ _ nofun, e3 .B _ _ nofun]
  have key : ∀ {v : F32} {L : ℝ}, App v L (11 / 10 ^ 6) → ∃ X : ℚ, Is v X ∧ |(X : ℝ) - L| ≤ 12 / 10 ^ 6 := by
    intro v L hv
    obtain ⟨X, hX, hd1⟩ := hv.is
    exact ⟨X, hX, hd1.trans (by norm_num)⟩
  rcases hc with rfl | rfl | rfl
  · obtain ⟨X, h1, h2⟩ := key m1
    exact ⟨⟨_, X, h1, good_dot hf.toIsIeee, h2, rfl⟩, a1, b1.2.trans (by norm_num)⟩
  · obtain ⟨X, h1, h2⟩ := key m2
    exact ⟨⟨_, X, h1, good_dot hf.toIsIeee, h2, rfl⟩, a2, b2.2.trans (by norm_num)⟩
  · obtain ⟨X, h1, h2⟩ := key m3
    exact ⟨⟨_, X, h1, good_dot hf.toIsIeee, h2, rfl⟩, a3, b3.2.trans (by norm_num)⟩

/-- The pixels `(x', y')` whose chroma is that of `(x, y)`. -/
def SameCell (f : PixelFormat) (x y x' y' : Nat) : Prop := x' / hsub f = x / hsub f ∧ y' / vsub f = y / vsub f

/-- The error of codes made from RGB images, as a share of the range of codes. -/
noncomputable def rgbTolerance : ColorTransfer → ℝ
  | .Linear => 8 / 10 ^ 5
  | .SRGB => 22 / 10 ^ 5
  | _ => 39 / 10 ^ 5

/-- The error of codes made from YUV images, as a share of the range of codes. -/
noncomputable def yuvTolerance : ColorTransfer → ℝ
  | .Linear => 2 / 10 ^ 4
  | .SRGB => 18 / 10 ^ 4
  | _ => 10 / 10 ^ 4

/-- Codes that 8 bits suffice to keep apart from those that do not exist. -/
theorem code_room {f : PixelFormat} {T v : ℝ} (hT : T ≤ 19 / 10 ^ 4) (h0 : 0 ≤ v) (h1 : v ≤ (2 ^ sampleBits f - 1 : Nat))
    (h : sampleBits f = 8 ∨ T * (2 ^ sampleBits f - 1 : Nat) ≤ v ∧ v + T * (2 ^ sampleBits f - 1 : Nat) ≤ (2 ^ sampleBits f - 1 : Nat)) :
    T * (2 ^ sampleBits f - 1 : Nat) ≤ v + 49 / 100 ∧ v + T * (2 ^ sampleBits f - 1 : Nat) ≤ (2 ^ sampleBits f - 1 : Nat) + 49 / 100 := by
  rcases h with h | ⟨h2, h3⟩
  · rw [h] at h1 ⊢
    norm_num at hT h1 ⊢
    constructor <;> linarith
  · constructor <;> linarith

/-- **C53** for RGB sources (partial: matrices BT.601 and BT.709; destination transfer functions that are defined below 0; not
PQ sources; NEON, whose vector code compares magnitudes, only for light of at least -0.0029 if the destination is not linear; not
if the ideal code is none of the destination's).  The code of the luma or chroma of a pixel differs by less than one, plus a
small share of the range, from the one of the exact formulas: the light of the pixels in the primaries of the destination, its
signals, their luma or the mean of their chroma. -/
theorem C53_rgb_partial (r : Run (p.real scalar) src dst sps dps m m') (ha : scalar.Accurate) (hs : isYuv src.format = false)
    (hd : isYuv dst.format = true) {j : YuvColorInfo} (hj : dst.color = .YUV j)
    (hne : ¬ (src.color.transfer = dst.color.transfer ∧ src.color.primaries = dst.color.primaries))
    (hst : src.color.transfer ≠ .BT2100PQ) (ht : j.transfer = .Linear ∨ j.transfer = .SRGB ∨ j.transfer = .SDR)
    (hcs : j.space = .BT601 ∨ j.space = .BT709) {k : ℝ × ℝ × ℝ} (hk : lumaWeights j.space = some k)
    {c : Chan} (hc : c = .Y ∨ c = .U ∨ c = .V) {x y : Nat} (hx : x < dst.width) (hy : y < dst.height)
    (hneon : p = .neon → j.transfer ≠ .Linear → ∀ x' y', SameCell dst.format x y x' y' → x' < dst.width - dst.width % 8 →
      ∀ c, c = .R ∨ c = .G ∨ c = .B → -29 / 10 ^ 4 ≤ lightIn src.color dst.color (shown src.format sps m) c x' y') :
    let T := rgbTolerance j.transfer * (2 ^ sampleBits dst.format - 1 : Nat)
    let v := idealCodes k dst.format j.fullRange (fun c x y => encodeTransfer (exactAr x) j.transfer
      (lightIn src.color dst.color (shown src.format sps m) c x y)) c x y
    0 ≤ v → v ≤ (2 ^ sampleBits dst.format - 1 : Nat) →
    sampleBits dst.format = 8 ∨ T ≤ v ∧ v + T ≤ (2 ^ sampleBits dst.format - 1 : Nat) →
    ∃ n : Nat, sample dst.format dps m' c x y = some n ∧ |(n : ℝ) - v| < 1 + T := by
  intro T v h0 h1 h8
  obtain ⟨r0, r1⟩ := code_room (by rcases ht with h | h | h <;> rw [h] <;> norm_num [rgbTolerance]) h0 h1 h8
  refine to_yuv_codes r ha hd hj hne ⟨hcs, hk⟩ ht hc hx hy (e := 12 / 10 ^ 6) (by norm_num) ?_ ?_ ?_ r0 r1
  · rcases ht with h | h | h <;> rw [h]
    · norm_num [encodeSlope, encodeJump, rgbTolerance]
    · norm_num [encodeSlope, encodeJump, rgbTolerance]
    · rw [show encodeSlope .SDR = 5 from rfl, show encodeJump .SDR = 26 / 10 ^ 5 from rfl,
        show rgbTolerance .SDR = 39 / 10 ^ 5 from rfl]
      norm_num
  · rcases ht with h | h | h <;> rw [h] <;> norm_num [rgbTolerance]
  · intro c hc x' y' hx' hy' ex ey
    obtain ⟨a, b, d⟩ := rgb_light r ha hs hst hc x' y'
    exact ⟨a, b, d, fun hm hl => hneon hm.1 hl x' y' ⟨ex, ey⟩ hm.2 c hc⟩

/-- **C53** for YUV sources (partial: as for RGB sources; moreover signals as `Decodable` says, and light in the range that RGB
images can have). -/
theorem C53_yuv_partial (r : Run (p.real scalar) src dst sps dps m m') (ha : scalar.Accurate) (hs : isYuv src.format = true)
    (hd : isYuv dst.format = true) {i j : YuvColorInfo} (hi : src.color = .YUV i) (hj : dst.color = .YUV j)
    (hne : ¬ (src.color.transfer = dst.color.transfer ∧ src.color.primaries = dst.color.primaries))
    (ht' : j.transfer = .Linear ∨ j.transfer = .SRGB ∨ j.transfer = .SDR)
    (hcs : i.space = .BT601 ∨ i.space = .BT709) (hcs' : j.space = .BT601 ∨ j.space = .BT709)
    {k k' : ℝ × ℝ × ℝ} (hk : lumaWeights i.space = some k) (hk' : lumaWeights j.space = some k')
    {c : Chan} (hc : c = .Y ∨ c = .U ∨ c = .V) {x y : Nat} (hx : x < dst.width) (hy : y < dst.height)
    (hV : InDepth src.format src.width src.height (shown src.format sps m))
    (hsig : ∀ x' y', SameCell dst.format x y x' y' →
      Decodable p dst.width x' i.transfer (signalsOf k src.format i.fullRange (shown src.format sps m) x' y'))
    (hneon : p = .neon → j.transfer ≠ .Linear → ∀ x' y', SameCell dst.format x y x' y' → x' < dst.width - dst.width % 8 →
      ∀ c, c = .R ∨ c = .G ∨ c = .B →
      -29 / 10 ^ 4 ≤ lightOf src.color dst.color x' (signalsOf k src.format i.fullRange (shown src.format sps m) x' y') c)
    (hL : ∀ x' y', SameCell dst.format x y x' y' → ∀ c, c = .R ∨ c = .G ∨ c = .B →
      -778 / 1000 ≤ lightOf src.color dst.color x' (signalsOf k src.format i.fullRange (shown src.format sps m) x' y') c ∧
      lightOf src.color dst.color x' (signalsOf k src.format i.fullRange (shown src.format sps m) x' y') c ≤ 195 / 100) :
    let T := yuvTolerance j.transfer * (2 ^ sampleBits dst.format - 1 : Nat)
    let v := idealCodes k' dst.format j.fullRange (fun c x y => encodeTransfer (exactAr x) j.transfer
      (lightOf src.color dst.color x (signalsOf k src.format i.fullRange (shown src.format sps m) x y) c)) c x y
    0 ≤ v → v ≤ (2 ^ sampleBits dst.format - 1 : Nat) →
    sampleBits dst.format = 8 ∨ T ≤ v ∧ v + T ≤ (2 ^ sampleBits dst.format - 1 : Nat) →
    ∃ n : Nat, sample dst.format dps m' c x y = some n ∧ |(n : ℝ) - v| < 1 + T := by
  intro T v h0 h1 h8
  obtain ⟨r0, r1⟩ := code_room (by rcases ht' with h | h | h <;> rw [h] <;> norm_num [yuvTolerance]) h0 h1 h8
  refine to_yuv_codes r ha hd hj hne ⟨hcs', hk'⟩ ht' hc hx hy (e := 133 / 10 ^ 6)
    (L := fun c x y => lightOf src.color dst.color x (signalsOf k src.format i.fullRange (shown src.format sps m) x y) c)
    (by norm_num) ?_ ?_ ?_ r0 r1
  · rcases ht' with h | h | h <;> rw [h]
    · norm_num [encodeSlope, encodeJump, yuvTolerance]
    · norm_num [encodeSlope, encodeJump, yuvTolerance]
    · rw [show encodeSlope .SDR = 5 from rfl, show encodeJump .SDR = 26 / 10 ^ 5 from rfl,
        show yuvTolerance .SDR = 10 / 10 ^ 4 from rfl]
      norm_num
  · rcases ht' with h | h | h <;> rw [h] <;> norm_num [yuvTolerance]
  · intro c hc x' y' hx' hy' ex ey
    obtain ⟨v, X, a1, a2, a3, -, a4⟩ := yuv_light r ha hs hi ⟨hcs, hk⟩ hc hx' hy' hV (hsig x' y' ⟨ex, ey⟩)
    have e1 : readPic (columnArith (p.real scalar) dst.width) src.format src.color (shown src.format sps m) =
        decode (columnArith (p.real scalar) dst.width) i
          (Spec.normalize (columnArith (p.real scalar) dst.width) src.format (shown src.format sps m)) := by
      rw [hi]; simp only [readPic, hs, if_true]
    rw [e1]
    exact ⟨⟨v, X, a1, a2, a3, a4⟩, (hL x' y' ⟨ex, ey⟩ c hc).1, (hL x' y' ⟨ex, ey⟩ c hc).2,
      fun hm hl => hneon hm.1 hl x' y' ⟨ex, ey⟩ hm.2 c hc⟩

/-! ## Where it fails: NEON -/

/-- The luma of pure green of a linear BT.2020 image in an SDR BT.709 image, times 255, as computed by the vector code of
NEON. -/
def neonLuma : F32 :=
  let ar : Arith F32 := (Platform.neon.real x86Libm).vec.ar
  F32.mul (encode (fun _ => ar) .I444 ⟨.SDR, .BT709, .BT709, true⟩ (changeColor (fun _ => ar) (.RGB ⟨.Linear, .BT2020⟩)
    (.YUV ⟨.SDR, .BT709, .BT709, true⟩) (fun c _ _ => F32.div (FOps.ofNat (match c with | .G => 255 | _ => 0)) (FOps.ofNat 255)))
    .Y 0 0) (FOps.ofNat 255)

theorem neonLuma_code : asUnsigned 255 neonLuma = 186 := by decide +kernel

theorem neonLuma_ideal (x : Nat) {f : PixelFormat} (hb : sampleBits f = 8) {V : Pic Nat} {y : Nat} (hR : V .R x y = 0)
    (hG : V .G x y = 255) (hB : V .B x y = 0) :
    idealCodes (0.2126, 0.7152, 0.0722) f true (fun c x y => encodeTransfer (exactAr x) .SDR
      (lightIn (.RGB ⟨.Linear, .BT2020⟩) (.YUV ⟨.SDR, .BT709, .BT709, true⟩) V c x y)) .Y x y ≤ 43 := by
  have he := exactAr_exact x
  have e1 : lightIn (.RGB ⟨.Linear, .BT2020⟩) (.YUV ⟨.SDR, .BT709, .BT709, true⟩) V .R x y ≤ -587 / 1000 := by
    simp only [lightIn, component, show (ColorInfo.RGB ⟨.Linear, .BT2020⟩).transfer = .Linear from rfl,
      show (ColorInfo.RGB ⟨.Linear, .BT2020⟩).primaries = .BT2020 from rfl,
      show (ColorInfo.YUV ⟨.SDR, .BT709, .BT709, true⟩).primaries = .BT709 from rfl, decodeTransfer, rowMul, dot, he.add, he.mul,
      ColorPrimaries.rgbToXyzMat, ColorPrimaries.xyzToRgbMat, BT2020_RGB_TO_XYZ, BT709_XYZ_TO_RGB, lit_real, hR, hG, hB]
    norm_num [Rat.cast_ofScientific]
  have e2 : 1 ≤ lightIn (.RGB ⟨.Linear, .BT2020⟩) (.YUV ⟨.SDR, .BT709, .BT709, true⟩) V .G x y ∧
      lightIn (.RGB ⟨.Linear, .BT2020⟩) (.YUV ⟨.SDR, .BT709, .BT709, true⟩) V .G x y ≤ 1134 / 1000 := by
    simp only [lightIn, component, show (ColorInfo.RGB ⟨.Linear, .BT2020⟩).transfer = .Linear from rfl,
      show (ColorInfo.RGB ⟨.Linear, .BT2020⟩).primaries = .BT2020 from rfl,
      show (ColorInfo.YUV ⟨.SDR, .BT709, .BT709, true⟩).primaries = .BT709 from rfl, decodeTransfer, rowMul, dot, he.add, he.mul,
      ColorPrimaries.rgbToXyzMat, ColorPrimaries.xyzToRgbMat, BT2020_RGB_TO_XYZ, BT709_XYZ_TO_RGB, lit_real, hR, hG, hB]
    norm_num [Rat.cast_ofScientific]
  have e3 : lightIn (.RGB ⟨.Linear, .BT2020⟩) (.YUV ⟨.SDR, .BT709, .BT709, true⟩) V .B x y ≤ -100 / 1000 := by
    simp only [lightIn, component, show (ColorInfo.RGB ⟨.Linear, .BT2020⟩).transfer = .Linear from rfl,
      show (ColorInfo.RGB ⟨.Linear, .BT2020⟩).primaries = .BT2020 from rfl,
      show (ColorInfo.YUV ⟨.SDR, .BT709, .BT709, true⟩).primaries = .BT709 from rfl, decodeTransfer, rowMul, dot, he.add, he.mul,
      ColorPrimaries.rgbToXyzMat, ColorPrimaries.xyzToRgbMat, BT2020_RGB_TO_XYZ, BT709_XYZ_TO_RGB, lit_real, hR, hG, hB]
    norm_num [Rat.cast_ofScientific]
  simp only [idealCodes, standardYuv, lumaCode, if_true, hb]
  generalize lightIn (.RGB ⟨.Linear, .BT2020⟩) (.YUV ⟨.SDR, .BT709, .BT709, true⟩) V .R x y = a at *
  generalize lightIn (.RGB ⟨.Linear, .BT2020⟩) (.YUV ⟨.SDR, .BT709, .BT709, true⟩) V .G x y = b at *
  generalize lightIn (.RGB ⟨.Linear, .BT2020⟩) (.YUV ⟨.SDR, .BT709, .BT709, true⟩) V .B x y = d at *
  rw [enc_sdr he, enc_sdr he, enc_sdr he, if_pos (by norm_num; linarith), if_neg (by norm_num; linarith [e2.1]),
    if_pos (by norm_num; linarith)]
  have hp : b ^ (0.45 : ℝ) ≤ 1059 / 1000 := by
    refine le_trans (Real.rpow_le_rpow (by linarith [e2.1]) e2.2 (by norm_num)) (le_of_lt ?_)
    rw [rpow_lt_iff (m := 9) (n := 20) (by norm_num) (by norm_num) (by norm_num) (by norm_num)]
    norm_num
  generalize b ^ (0.45 : ℝ) = z at *
  norm_num at *
  linarith

/-- The vector code of NEON compares magnitudes, so the light -0.587 of red is not taken for a small one. It stores the luma 186
where at most 43 is right. -/
theorem C53_neon_false (r : Run (Platform.neon.real scalar) src dst sps dps m m') (hs : isYuv src.format = false)
    (hb : sampleBits dst.format = 8) (hd : isYuv dst.format = true) (hi : src.color = .RGB ⟨.Linear, .BT2020⟩)
    (hj : dst.color = .YUV ⟨.SDR, .BT709, .BT709, true⟩) {x y : Nat} (hx : x < dst.width - dst.width % 8) (hy : y < dst.height)
    (hR : shown src.format sps m .R x y = 0) (hG : shown src.format sps m .G x y = 255) (hB : shown src.format sps m .B x y = 0) :
    sample dst.format dps m' .Y x y = some 186 ∧
      idealCodes (0.2126, 0.7152, 0.0722) dst.format true (fun c x y => encodeTransfer (exactAr x) .SDR
        (lightIn src.color dst.color (shown src.format sps m) c x y)) .Y x y ≤ 43 := by
  have hx' : x < dst.width := by omega
  constructor
  · have h8 : (yuvStore dst.format).top = 255 := by
      have : sampleBytes dst.format = 1 := by revert hb; cases dst.format <;> simp [sampleBits, sampleBytes]
      rw [yuvStore, if_pos this]; rfl
    rw [to_yuv_pick r hd hj rfl (by rw [hi, hj]; decide) (.inl rfl) hx' hy, stored_truncates (.inr (.inl rfl)), h8]
    have hA : columnArith (Platform.neon.real scalar) dst.width x = (Platform.neon.real x86Libm).vec.ar := by
      unfold columnArith
      rw [if_pos (by exact hx)]
      rfl
    have max8 : (maxSample dst.format : F32) = FOps.ofNat 255 := by rw [maxSample, hb]
    have e1 : readPic (columnArith (Platform.neon.real scalar) dst.width) src.format src.color (shown src.format sps m) =
        withAlpha src.format (Spec.normalize (columnArith (Platform.neon.real scalar) dst.width) src.format (shown src.format sps m)) := by
      cases src.color <;> simp [readPic, hs]
    have e3 : ∀ c, c ≠ .A → withAlpha src.format (Spec.normalize (columnArith (Platform.neon.real scalar) dst.width) src.format
        (shown src.format sps m)) c x y = F32.div (FOps.ofNat (shown src.format sps m c x y)) (FOps.ofNat 255) := by
      intro c h
      rw [withAlpha, if_neg (by rintro ⟨rfl, _⟩; exact h rfl), Spec.normalize, maxSample, (rgb8 hs).2, hA]
      rfl
    rw [← neonLuma_code, e1, hi, hj, max8]
    congr 2
    simp only [encode, yuvAt, changeColor, hA, e3 .R nofun, e3 .G nofun, e3 .B nofun, hR, hG, hB]
    rfl
  · rw [hi, hj]
    exact neonLuma_ideal x hb hR hG hB

/-! ## Examples -/

/-- A linear BT.709 image becomes an sRGB image with 4:2:0 chroma and limited range of 8 bits, on AVX-512. -/
example (m : Mem) : ∃ m' : Mem,
    let v := idealCodes (0.2126, 0.7152, 0.0722) .NV12 false (fun c x y => encodeTransfer (exactAr x) .SRGB
      (lightIn (.RGB ⟨.Linear, .BT709⟩) (.YUV ⟨.SRGB, .BT709, .BT709, false⟩) (shown .RGB [⟨⟨0, 96⟩, 48⟩] m) c x y)) .V 5 1
    0 ≤ v → v ≤ 255 → ∃ n : Nat, sample .NV12 [⟨⟨100, 32⟩, 16⟩, ⟨⟨200, 16⟩, 16⟩] m' .V 5 1 = some n ∧ |(n : ℝ) - v| < 1 + 6 / 100 := by
  obtain ⟨scalar, ha⟩ := libm_exists
  obtain ⟨m', r⟩ := run_exists (c := Platform.avx512.real scalar) (platform_lawful .avx512 _ _)
    (src := .raw .RGB 16 2 [⟨⟨0, 96⟩, 48⟩] (.RGB ⟨.Linear, .BT709⟩))
    (dst := .raw .NV12 16 2 [⟨⟨100, 32⟩, 16⟩, ⟨⟨200, 16⟩, 16⟩] (.YUV ⟨.SRGB, .BT709, .BT709, false⟩))
    (sps := [⟨⟨0, 96⟩, 48⟩]) (dps := [⟨⟨100, 32⟩, 16⟩, ⟨⟨200, 16⟩, 16⟩]) rfl rfl
    (planesDisjoint_of (by decide)) (separate_of (by decide)) (uniform_of (by decide)) (by decide) m
  refine ⟨m', fun h0 h1 => ?_⟩
  obtain ⟨n, h2, h3⟩ := C53_rgb_partial r ha rfl rfl rfl (by decide) nofun (.inr (.inl rfl)) (.inr rfl)
    (k := (0.2126, 0.7152, 0.0722)) rfl (c := .V) (by simp) (x := 5) (y := 1) (by decide) (by decide) nofun h0
    (h1.trans (by norm_num [Img.format, sampleBits])) (.inl rfl)
  refine ⟨n, h2, h3.trans_le ?_⟩
  change 1 + 22 / 10 ^ 5 * ((2 ^ sampleBits .NV12 - 1 : Nat) : ℝ) ≤ _
  norm_num [sampleBits]

/-- Pure green of `C53_neon_false` in an image of 16 columns. -/
example : ∃ m' : Mem, sample .I444 [⟨⟨100, 32⟩, 16⟩, ⟨⟨200, 32⟩, 16⟩, ⟨⟨300, 32⟩, 16⟩] m' .Y 5 1 = some 186 := by
  obtain ⟨m', r⟩ := run_exists (c := Platform.neon.real x86Libm) (platform_lawful .neon _ _)
    (src := .raw .RGB 16 2 [⟨⟨0, 96⟩, 48⟩] (.RGB ⟨.Linear, .BT2020⟩))
    (dst := .raw .I444 16 2 [⟨⟨100, 32⟩, 16⟩, ⟨⟨200, 32⟩, 16⟩, ⟨⟨300, 32⟩, 16⟩] (.YUV ⟨.SDR, .BT709, .BT709, true⟩))
    (sps := [⟨⟨0, 96⟩, 48⟩]) (dps := [⟨⟨100, 32⟩, 16⟩, ⟨⟨200, 32⟩, 16⟩, ⟨⟨300, 32⟩, 16⟩]) rfl rfl
    (planesDisjoint_of (by decide)) (separate_of (by decide)) (uniform_of (by decide)) (by decide)
    (fun a => if a % 3 = 1 then 255 else 0)
  exact ⟨m', (C53_neon_false r rfl rfl rfl rfl rfl (x := 5) (y := 1) (by decide) (by decide) (by decide) (by decide) (by decide)).1⟩

/-- The grey of the next example: light and luma. -/
theorem grey_light {V : Pic Nat} (h1 : V .Y 5 1 = 128) (h2 : V .U 5 1 = 128) (h3 : V .V 5 1 = 128) {c : Chan}
    (hc : c = .R ∨ c = .G ∨ c = .B) :
    1275 / 2550 ≤ lightOf (.YUV ⟨.Linear, .BT709, .BT601, true⟩) (.YUV ⟨.Linear, .BT2020, .BT709, true⟩) 5
      (signalsOf (0.299, 0.587, 0.114) .I444 true V 5 1) c ∧
    lightOf (.YUV ⟨.Linear, .BT709, .BT601, true⟩) (.YUV ⟨.Linear, .BT2020, .BT709, true⟩) 5
      (signalsOf (0.299, 0.587, 0.114) .I444 true V 5 1) c ≤ 1290 / 2550 := by
  have he := exactAr_exact 5
  rcases hc with rfl | rfl | rfl <;>
  · simp only [lightOf, component, signalsOf, idealRgb, standardRgb, lumaOf, chromaOfCode, sampleBits, h1, h2, h3, if_true,
      show (ColorInfo.YUV ⟨.Linear, .BT709, .BT601, true⟩).transfer = .Linear from rfl,
      show (ColorInfo.YUV ⟨.Linear, .BT709, .BT601, true⟩).primaries = .BT709 from rfl,
      show (ColorInfo.YUV ⟨.Linear, .BT2020, .BT709, true⟩).primaries = .BT2020 from rfl, decodeTransfer, rowMul, dot, he.add, he.mul,
      ColorPrimaries.rgbToXyzMat, ColorPrimaries.xyzToRgbMat, BT709_RGB_TO_XYZ, BT2020_XYZ_TO_RGB, lit_real]
    norm_num [Rat.cast_ofScientific]

/-- The grey `(128, 128, 128)` of a linear BT.709 image in BT.2020, on AVX2: the luma is between 127 and 130. -/
example : ∃ m' : Mem, ∃ n : Nat, sample .I444 [⟨⟨300, 32⟩, 16⟩, ⟨⟨400, 32⟩, 16⟩, ⟨⟨500, 32⟩, 16⟩] m' .Y 5 1 = some n ∧
    127 ≤ n ∧ n ≤ 130 := by
  obtain ⟨scalar, ha⟩ := libm_exists
  obtain ⟨m', r⟩ := run_exists (c := Platform.avx2.real scalar) (platform_lawful .avx2 _ _)
    (src := .raw .I444 16 2 [⟨⟨0, 32⟩, 16⟩, ⟨⟨100, 32⟩, 16⟩, ⟨⟨200, 32⟩, 16⟩] (.YUV ⟨.Linear, .BT709, .BT601, true⟩))
    (dst := .raw .I444 16 2 [⟨⟨300, 32⟩, 16⟩, ⟨⟨400, 32⟩, 16⟩, ⟨⟨500, 32⟩, 16⟩] (.YUV ⟨.Linear, .BT2020, .BT709, true⟩))
    (sps := [⟨⟨0, 32⟩, 16⟩, ⟨⟨100, 32⟩, 16⟩, ⟨⟨200, 32⟩, 16⟩]) (dps := [⟨⟨300, 32⟩, 16⟩, ⟨⟨400, 32⟩, 16⟩, ⟨⟨500, 32⟩, 16⟩]) rfl rfl
    (planesDisjoint_of (by decide)) (separate_of (by decide)) (uniform_of (by decide)) (by decide) (fun _ => 128)
  have h1 : shown .I444 [⟨⟨0, 32⟩, 16⟩, ⟨⟨100, 32⟩, 16⟩, ⟨⟨200, 32⟩, 16⟩] (fun _ => 128) .Y 5 1 = 128 := by decide
  have h2 : shown .I444 [⟨⟨0, 32⟩, 16⟩, ⟨⟨100, 32⟩, 16⟩, ⟨⟨200, 32⟩, 16⟩] (fun _ => 128) .U 5 1 = 128 := by decide
  have h3 : shown .I444 [⟨⟨0, 32⟩, 16⟩, ⟨⟨100, 32⟩, 16⟩, ⟨⟨200, 32⟩, 16⟩] (fun _ => 128) .V 5 1 = 128 := by decide
  have c53 := C53_yuv_partial r ha rfl rfl rfl rfl (by decide) (.inl rfl) (.inl rfl) (.inr rfl)
    (k := (0.299, 0.587, 0.114)) (k' := (0.2126, 0.7152, 0.0722)) rfl rfl (c := .Y) (by simp) (x := 5) (y := 1) (by decide) (by decide)
    (fun c x y l _ _ _ => shown_le rfl _ _ c x y) (fun _ _ _ => nofun) nofun (by
      rintro x' y' ⟨ex, ey⟩ c hc
      obtain rfl : x' = 5 := by simpa [hsub, Img.format] using ex
      obtain rfl : y' = 1 := by simpa [vsub, Img.format] using ey
      obtain ⟨a, b⟩ := grey_light h1 h2 h3 hc
      exact ⟨le_trans (by norm_num) a, b.trans (by norm_num)⟩)
  have l1 := grey_light h1 h2 h3 (c := .R) (by simp)
  have l2 := grey_light h1 h2 h3 (c := .G) (by simp)
  have l3 := grey_light h1 h2 h3 (c := .B) (by simp)
  obtain ⟨v, v0, v1, hv⟩ : ∃ v : ℝ, 127.5 ≤ v ∧ v ≤ 129 ∧ (0 ≤ v → v ≤ 255 → ∃ n : Nat,
      sample .I444 [⟨⟨300, 32⟩, 16⟩, ⟨⟨400, 32⟩, 16⟩, ⟨⟨500, 32⟩, 16⟩] m' .Y 5 1 = some n ∧ |(n : ℝ) - v| < 1 + 6 / 100) := by
    refine ⟨idealCodes (0.2126, 0.7152, 0.0722) .I444 true (fun c x y => lightOf (.YUV ⟨.Linear, .BT709, .BT601, true⟩)
      (.YUV ⟨.Linear, .BT2020, .BT709, true⟩) x (signalsOf (0.299, 0.587, 0.114) .I444 true
        (shown .I444 [⟨⟨0, 32⟩, 16⟩, ⟨⟨100, 32⟩, 16⟩, ⟨⟨200, 32⟩, 16⟩] (fun _ => 128)) x y) c) .Y 5 1, ?_, ?_, fun h0 h1 => ?_⟩
    · simp only [idealCodes, standardYuv, lumaCode, if_true, sampleBits]
      norm_num at l1 l2 l3 ⊢
      linarith [l1.1, l2.1, l3.1]
    · simp only [idealCodes, standardYuv, lumaCode, if_true, sampleBits]
      norm_num at l1 l2 l3 ⊢
      linarith [l1.2, l2.2, l3.2]
    · obtain ⟨n, e, hn⟩ := c53 h0 (h1.trans (by norm_num [Img.format, sampleBits])) (.inl rfl)
      refine ⟨n, e, hn.trans_le ?_⟩
      change 1 + 2 / 10 ^ 4 * ((2 ^ sampleBits .I444 - 1 : Nat) : ℝ) ≤ _
      norm_num [sampleBits]
  norm_num at v0
  obtain ⟨n, e, hn⟩ := hv (by linarith) (by linarith)
  refine ⟨m', n, e, ?_⟩
  rw [abs_lt] at hn
  norm_num at hn
  have n1 : ((126 : Nat) : ℝ) < n := by push_cast; linarith [hn.1]
  have n2 : (n : ℝ) < ((131 : Nat) : ℝ) := by push_cast; linarith [hn.2]
  have n1 : 126 < n := by exact_mod_cast n1
  have n2 : n < 131 := by exact_mod_cast n2
  omega

end Ezk.Props

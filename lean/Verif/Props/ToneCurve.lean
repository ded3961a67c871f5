import Verif.Proofs.ToneCurve
import Verif.Props.GreyOrder

/-!
# C79: a change of the transfer function alone is a tone curve
-/

namespace Ezk.Props
open Ezk Ezk.F32 Ezk.Spec

attribute [local instance] ratOps

variable {p : Platform} {scalar : Libm} {src dst : Img} {sps dps : List Plane} {m m' : Mem}

/-- The tone curve from one transfer function to another: the code, not yet rounded, that the code `n` of a channel becomes.
Exact arithmetic with the numbers of the source code. -/
noncomputable def toneCurve (x : Nat) (s d : ColorTransfer) (n : Nat) : ℝ :=
  clamp255 (encodeTransfer (exactAr x) d (decodeTransfer (exactAr x) s ((n : ℝ) / 255)) * 255)

/-- With equal primaries the light of a channel is that of its own code, up to the rounding of the numbers of the matrices. -/
theorem lightIn_channel {sc dc : ColorInfo} (hp : sc.primaries = dc.primaries) (ht : sc.transfer ≠ .BT2100PQ) {V : Pic Nat} {c : Chan}
    (hc : c = .R ∨ c = .G ∨ c = .B) {x y : Nat} (hV : ∀ c, V c x y ≤ 255) {scalar : Libm} (ha : scalar.Accurate) :
    |lightIn sc dc V c x y - decodeTransfer (exactAr x) sc.transfer ((V c x y : ℝ) / 255)| ≤ 11 / 10 ^ 7 := by
  have hf := column_floats .scalar ha 0 x
  have bound := fun c => (light_app hf (exactAr_exact x) ht (hV c)).2
  have h := primaries_inverse (exactAr_exact x) sc.primaries (decodeTransfer (exactAr x) sc.transfer ((V .R x y : ℝ) / 255),
    decodeTransfer (exactAr x) sc.transfer ((V .G x y : ℝ) / 255), decodeTransfer (exactAr x) sc.transfer ((V .B x y : ℝ) / 255))
  have hsup : sup3 (decodeTransfer (exactAr x) sc.transfer ((V .R x y : ℝ) / 255),
      decodeTransfer (exactAr x) sc.transfer ((V .G x y : ℝ) / 255), decodeTransfer (exactAr x) sc.transfer ((V .B x y : ℝ) / 255)) ≤
      1001 / 1000 := by
    refine max_le ?_ (max_le ?_ ?_)
    · rw [abs_of_nonneg (bound .R).1]; exact (bound .R).2
    · rw [abs_of_nonneg (bound .G).1]; exact (bound .G).2
    · rw [abs_of_nonneg (bound .B).1]; exact (bound .B).2
  rw [lightIn, ← hp]
  dsimp only at h ⊢
  have e : ∀ {z : ℝ}, z ≤ 1e-6 * sup3 (decodeTransfer (exactAr x) sc.transfer ((V .R x y : ℝ) / 255),
      decodeTransfer (exactAr x) sc.transfer ((V .G x y : ℝ) / 255), decodeTransfer (exactAr x) sc.transfer ((V .B x y : ℝ) / 255)) →
      z ≤ 11 / 10 ^ 7 := by
    intro z hz
    norm_num at hz hsup ⊢
    linarith
  rcases hc with rfl | rfl | rfl
  · exact e h.1
  · exact e h.2.1
  · exact e h.2.2

/-- What is stored of a channel if only the transfer function changes. -/
theorem channel_stored (r : Run (p.real scalar) src dst sps dps m m') (ha : scalar.Accurate) (hs : isYuv src.format = false)
    (hd : isYuv dst.format = false) (hp : src.color.primaries = dst.color.primaries) (hne : src.color.transfer ≠ dst.color.transfer)
    (hst : src.color.transfer ≠ .BT2100PQ) {c : Chan} (hc : c = .R ∨ c = .G ∨ c = .B) {x y n : Nat} (hx : x < dst.width)
    (hy : y < dst.height) (hn : sample src.format sps m c x y = some n) :
    n ≤ 255 ∧ ∃ (v : F32) (X : ℚ), Is v X ∧ Good v ∧ |(X : ℝ) - decodeTransfer (exactAr x) src.color.transfer ((n : ℝ) / 255)| ≤ 131 / 10 ^ 7 ∧
      sample dst.format dps m' c x y = some (stored p (p.libm scalar) scalar dst.width x .interleaved8
        ((columnArith (p.real scalar) dst.width x).mul
          (encodeTransfer (columnArith (p.real scalar) dst.width x) dst.color.transfer v) (maxSample dst.format))) := by
  have hV : ∀ c, shown src.format sps m c x y ≤ 255 := fun c => shown_le (rgb8 hs).1 sps m c x y
  have e : shown src.format sps m c x y = n := by rw [shown, hn]; rfl
  obtain ⟨v, X, hX, hg, -, -, -, -, hL, hv⟩ := change_stored r ha hs hd (fun h => hne h.1) hc hx hy
  refine ⟨e ▸ hV c, v, X, hX, hg, ?_, hv⟩
  have h1 := lightIn_channel hp hst hc hV ha
  rw [e] at h1
  rw [changeTolerance, if_neg hst] at hL
  have h2 := abs_sub_le (X : ℝ) (lightIn src.color dst.color (shown src.format sps m) c x y)
    (decodeTransfer (exactAr x) src.color.transfer ((n : ℝ) / 255))
  norm_num at h1 hL ⊢
  linarith

/-- The code of a channel if only the transfer function changes: that of the encoding of nearly its own light. -/
theorem channel_code (r : Run (p.real scalar) src dst sps dps m m') (ha : scalar.Accurate) (hs : isYuv src.format = false)
    (hd : isYuv dst.format = false) (hp : src.color.primaries = dst.color.primaries) (hne : src.color.transfer ≠ dst.color.transfer)
    (hst : src.color.transfer ≠ .BT2100PQ) {c : Chan} (hc : c = .R ∨ c = .G ∨ c = .B) {x y n : Nat} (hx : x < dst.width)
    (hy : y < dst.height) (hn : sample src.format sps m c x y = some n) :
    ∃ (k : Nat) (a : ℝ), sample dst.format dps m' c x y = some k ∧ 0 ≤ a ∧
      |a - decodeTransfer (exactAr x) src.color.transfer ((n : ℝ) / 255)| ≤ 132 / 10 ^ 7 ∧
      CodeOf p dst.width x (1 / 50) k (clamp255 (encodeTransfer (exactAr x) dst.color.transfer a * 255)) := by
  obtain ⟨h255, v, X, hX, hg, dX, hv⟩ := channel_stored r ha hs hd hp hne hst hc hx hy hn
  have hf := column_floats p ha dst.width x
  obtain ⟨-, l0, l1⟩ := light_app hf (exactAr_exact x) hst h255
  generalize decodeTransfer (exactAr x) src.color.transfer ((n : ℝ) / 255) = L at *
  obtain ⟨d1, d2⟩ := abs_le.mp dX
  norm_num at d1 d2 l1
  have X1 : ((-19900 : ℚ) : ℝ) ≤ X := by push_cast; linarith
  have X2 : (X : ℝ) ≤ ((19900 : ℚ) : ℝ) := by push_cast; linarith
  obtain ⟨a, a0, da, ea⟩ := enc_any (exactAr_exact x) hf dst.color.transfer hX hg (by exact_mod_cast X1) (by exact_mod_cast X2)
  have far : |a - L| ≤ 132 / 10 ^ 7 := by
    have h1 : |max 0 (X : ℝ) - max 0 L| ≤ |(X : ℝ) - L| := by
      rw [max_comm 0, max_comm 0]; exact abs_max_sub_max_le_abs _ _ 0
    rw [max_eq_right l0] at h1
    have h2 := abs_sub_le a (max 0 (X : ℝ)) L
    norm_num at da dX ⊢
    linarith
  refine ⟨_, a, hv, a0, far, codeOf_encodes ea p _ _ _ _ hd fun _ => .inl ?_⟩
  have := (abs_le.mp far).2
  norm_num at this
  linarith

/-- **C79** (partial: PQ sources are left out, and `Gamma22`, `Gamma28`, HLG and PQ destinations, where the traces that other
channels leave in the dark are magnified). If the images differ in the transfer function, but not in the primaries, the code of
every channel is that of the tone curve at its own code, up to 0.13 codes and the rounding of the store, whatever the other
channels are. -/
theorem C79_curve_partial (r : Run (p.real scalar) src dst sps dps m m') (ha : scalar.Accurate) (hs : isYuv src.format = false)
    (hd : isYuv dst.format = false) (hp : src.color.primaries = dst.color.primaries) (hne : src.color.transfer ≠ dst.color.transfer)
    (hst : src.color.transfer ≠ .BT2100PQ) (hdt : dst.color.transfer = .Linear ∨ dst.color.transfer = .SRGB ∨ dst.color.transfer = .SDR)
    {c : Chan} (hc : c = .R ∨ c = .G ∨ c = .B) {x y n : Nat} (hx : x < dst.width) (hy : y < dst.height)
    (hn : sample src.format sps m c x y = some n) :
    ∃ k, sample dst.format dps m' c x y = some k ∧
      CodeOf p dst.width x (13 / 100) k (toneCurve x src.color.transfer dst.color.transfer n) := by
  obtain ⟨k, a, hk, -, da, hcode⟩ := channel_code r ha hs hd hp hne hst hc hx hy hn
  refine ⟨k, hk, ?_⟩
  have h1 := enc_lip (exactAr_exact x) (t := dst.color.transfer) hdt a (decodeTransfer (exactAr x) src.color.transfer ((n : ℝ) / 255))
  have h2 := clamp_lipschitz (encodeTransfer (exactAr x) dst.color.transfer a * 255) (encodeTransfer (exactAr x) dst.color.transfer
    (decodeTransfer (exactAr x) src.color.transfer ((n : ℝ) / 255)) * 255)
  rw [← sub_mul, abs_mul, abs_of_nonneg (show (0 : ℝ) ≤ 255 by norm_num)] at h2
  have h3 : encodeSlope dst.color.transfer * |a - decodeTransfer (exactAr x) src.color.transfer ((n : ℝ) / 255)| +
      encodeJump dst.color.transfer ≤ 42 / 10 ^ 5 := by
    rcases hdt with h | h | h <;> rw [h] <;> simp only [encodeSlope, encodeJump] <;> norm_num at da ⊢ <;> linarith
  have h4 : |clamp255 (encodeTransfer (exactAr x) dst.color.transfer a * 255) -
      toneCurve x src.color.transfer dst.color.transfer n| ≤ 11 / 100 := by
    rw [toneCurve]
    norm_num at h3 ⊢
    linarith
  generalize clamp255 (encodeTransfer (exactAr x) dst.color.transfer a * 255) = A at *
  generalize toneCurve x src.color.transfer dst.color.transfer n = B at *
  obtain ⟨b1, b2⟩ := abs_le.mp h4
  norm_num at b1 b2
  refine ⟨fun ht => ?_, fun ht => ?_⟩
  · obtain ⟨c1, c2⟩ := abs_le.mp (hcode.1 ht)
    norm_num at c1 c2
    rw [abs_le]
    constructor <;> norm_num <;> linarith
  · obtain ⟨c1, c2⟩ := hcode.2 ht
    norm_num at c1 c2
    constructor <;> norm_num <;> linarith

/-- **C79**, separation (partial as `C79_curve_partial`). Pixels with the same code in a channel get codes in that channel that
differ by one at most, whatever their other channels and their columns are. -/
theorem C79_separate_partial (r : Run (p.real scalar) src dst sps dps m m') (ha : scalar.Accurate) (hs : isYuv src.format = false)
    (hd : isYuv dst.format = false) (hp : src.color.primaries = dst.color.primaries) (hst : src.color.transfer ≠ .BT2100PQ)
    (hdt : dst.color.transfer = .Linear ∨ dst.color.transfer = .SRGB ∨ dst.color.transfer = .SDR) {c : Chan}
    (hc : c = .R ∨ c = .G ∨ c = .B) {x y x' y' n : Nat} (hx : x < dst.width) (hy : y < dst.height) (hx' : x' < dst.width)
    (hy' : y' < dst.height) (hn : sample src.format sps m c x y = some n) (hn' : sample src.format sps m c x' y' = some n) :
    ∃ k k', sample dst.format dps m' c x y = some k ∧ sample dst.format dps m' c x' y' = some k' ∧ k ≤ k' + 1 := by
  by_cases hne : src.color.transfer = dst.color.transfer
  · obtain ⟨h1, h2⟩ := rgb_locs hs hd hc x y
    obtain ⟨h3, h4⟩ := rgb_locs hs hd hc x' y'
    exact ⟨n, n, (C24_same_light r hs hd hne hp hx hy h1 h2).trans hn,
      (C24_same_light r hs hd hne hp hx' hy' h3 h4).trans hn', by omega⟩
  obtain ⟨k, hk, c1⟩ := C79_curve_partial r ha hs hd hp hne hst hdt hc hx hy hn
  obtain ⟨k', hk', c2⟩ := C79_curve_partial r ha hs hd hp hne hst hdt hc hx' hy' hn'
  refine ⟨k, k', hk, hk', ?_⟩
  have e : toneCurve x' src.color.transfer dst.color.transfer n = toneCurve x src.color.transfer dst.color.transfer n := rfl
  rw [e] at c2
  generalize toneCurve x src.color.transfer dst.color.transfer n = A at *
  have up : (k : ℝ) ≤ A + 63 / 100 := by
    by_cases ht : Truncates p dst.width x
    · have := (c1.2 ht).1; norm_num at this ⊢; linarith
    · have := (abs_le.mp (c1.1 ht)).2; norm_num at this ⊢; linarith
  have low : A - 113 / 100 < (k' : ℝ) := by
    by_cases ht : Truncates p dst.width x'
    · have := (c2.2 ht).2; norm_num at this ⊢; linarith
    · have := (abs_le.mp (c2.1 ht)).1; norm_num at this ⊢; linarith
  have : (k : ℝ) < ((k' + 2 : Nat) : ℝ) := by push_cast; linarith
  have : k < k' + 2 := by exact_mod_cast this
  omega

/-- The steps of the light of `Linear`, `SRGB` and `SDR`. -/
theorem light_star {rr : Arith ℝ} (he : Exact rr) {t : ColorTransfer} (ht : t = .Linear ∨ t = .SRGB ∨ t = .SDR) {n n' : Nat} (hlt : n ≤ n') :
    303 / 10 ^ 6 * (n : ℝ) ≤ decodeTransfer rr t ((n : ℝ) / 255) ∧
      decodeTransfer rr t ((n : ℝ) / 255) * n' ≤ decodeTransfer rr t ((n' : ℝ) / 255) * n := by
  rcases ht with rfl | rfl | rfl
  · exact star_linear he
  · exact star_srgb he hlt
  · exact star_sdr he hlt

/-- **C79**, order (partial: PQ destinations are left out, and `Gamma22`, `Gamma28`, HLG and PQ sources, whose darkest codes
stand for less light than the traces that other channels leave). If the primaries are the same, of two pixels of an RGB image the
one with the larger code in a channel does not get the smaller one, whatever the other channels of the two pixels are, unless it
is in a column whose stores truncate and the other in one whose stores round. -/
theorem C79_order_partial (r : Run (p.real scalar) src dst sps dps m m') (ha : scalar.Accurate) (hs : isYuv src.format = false)
    (hd : isYuv dst.format = false) (hp : src.color.primaries = dst.color.primaries)
    (hst : src.color.transfer = .Linear ∨ src.color.transfer = .SRGB ∨ src.color.transfer = .SDR) (hdt : dst.color.transfer ≠ .BT2100PQ)
    {c : Chan} (hc : c = .R ∨ c = .G ∨ c = .B) {x y x' y' n n' : Nat} (hx : x < dst.width) (hy : y < dst.height) (hx' : x' < dst.width)
    (hy' : y' < dst.height) (ht : Truncates p dst.width x' → Truncates p dst.width x)
    (hn : sample src.format sps m c x y = some n) (hn' : sample src.format sps m c x' y' = some n') (hlt : n < n') :
    ∃ k k', sample dst.format dps m' c x y = some k ∧ sample dst.format dps m' c x' y' = some k' ∧ k ≤ k' := by
  by_cases hne : src.color.transfer = dst.color.transfer
  · obtain ⟨h1, h2⟩ := rgb_locs hs hd hc x y
    obtain ⟨h3, h4⟩ := rgb_locs hs hd hc x' y'
    exact ⟨n, n', (C24_same_light r hs hd hne hp hx hy h1 h2).trans hn,
      (C24_same_light r hs hd hne hp hx' hy' h3 h4).trans hn', hlt.le⟩
  have hpq : src.color.transfer ≠ .BT2100PQ := by rintro h; rw [h] at hst; simp at hst
  have hf := column_floats p ha dst.width x
  have hf' := column_floats p ha dst.width x'
  have e : ∀ n : ℕ, decodeTransfer (exactAr x') src.color.transfer ((n : ℝ) / 255) = decodeTransfer (exactAr x) src.color.transfer ((n : ℝ) / 255) :=
    fun _ => rfl
  obtain ⟨l1, l2⟩ := light_star (exactAr_exact x) hst hlt.le
  have l1' := (light_star (exactAr_exact x) hst (le_refl n')).1
  rcases Nat.eq_zero_or_pos n with rfl | h1
  · obtain ⟨k, a, hk, a0, da, ck⟩ := channel_code r ha hs hd hp hne hpq hc hx hy hn
    obtain ⟨k', a', hk', a0', da', ck'⟩ := channel_code r ha hs hd hp hne hpq hc hx' hy' hn'
    refine ⟨k, k', hk, hk', ?_⟩
    have z : decodeTransfer (exactAr x) src.color.transfer (((0 : ℕ) : ℝ) / 255) = 0 := by
      have n1 : (1 : ℝ) ≤ n' := by exact_mod_cast hlt
      push_cast at l1 l2 ⊢
      nlinarith
    rw [z, sub_zero, abs_of_nonneg a0] at da
    rw [e] at da'
    have n1 : (1 : ℝ) ≤ n' := by exact_mod_cast hlt
    obtain ⟨g1, g2⟩ := enc_apart (exactAr_exact x) hdt (a' := a') a0 (by norm_num at da ⊢; linarith) (by
      have := (abs_le.mp da').1
      norm_num at this l1' ⊢; linarith)
    have e' : encodeTransfer (exactAr x') dst.color.transfer a' = encodeTransfer (exactAr x) dst.color.transfer a' := rfl
    rw [e'] at ck'
    have hC : clamp255 (encodeTransfer (exactAr x) dst.color.transfer a * 255) + 6 / 100 ≤
        clamp255 (encodeTransfer (exactAr x) dst.color.transfer a' * 255) ∨ clamp255 (encodeTransfer (exactAr x) dst.color.transfer a * 255) = 0 := by
      generalize encodeTransfer (exactAr x) dst.color.transfer a = A at *
      generalize encodeTransfer (exactAr x) dst.color.transfer a' = B at *
      norm_num at g1 g2
      unfold clamp255
      rcases le_or_gt A 0 with hA | hA
      · right
        rw [max_eq_left]
        exact min_le_of_right_le (by linarith)
      · left
        rw [min_eq_right (by linarith : A * 255 ≤ 255), max_eq_right (by linarith : 0 ≤ A * 255)]
        refine le_max_of_le_right (le_min ?_ ?_) <;> linarith
    generalize clamp255 (encodeTransfer (exactAr x) dst.color.transfer a * 255) = A at *
    generalize clamp255 (encodeTransfer (exactAr x) dst.color.transfer a' * 255) = B at *
    rcases hC with hC | rfl
    · have : (k : ℝ) < ((k' + 1 : Nat) : ℝ) := by
        push_cast
        by_cases ht1 : Truncates p dst.width x
        · have h3 := (ck.2 ht1).1
          by_cases ht2 : Truncates p dst.width x'
          · have h4 := (ck'.2 ht2).2; norm_num at h3 h4 hC; linarith
          · have h4 := (abs_le.mp (ck'.1 ht2)).1; norm_num at h3 h4 hC; linarith
        · have h3 := (abs_le.mp (ck.1 ht1)).2
          have h4 := (abs_le.mp (ck'.1 fun h => ht1 (ht h))).1
          norm_num at h3 h4 hC; linarith
      have : k < k' + 1 := by exact_mod_cast this
      omega
    · have : (k : ℝ) < ((1 : Nat) : ℝ) := by
        push_cast
        by_cases ht1 : Truncates p dst.width x
        · have h3 := (ck.2 ht1).1; norm_num at h3; linarith
        · have h3 := (abs_le.mp (ck.1 ht1)).2; norm_num at h3; linarith
      have : k < 1 := by exact_mod_cast this
      omega
  obtain ⟨-, v, X, hX, hg, dX, hv⟩ := channel_stored r ha hs hd hp hne hpq hc hx hy hn
  obtain ⟨h255, v', X', hX', hg', dX', hv'⟩ := channel_stored r ha hs hd hp hne hpq hc hx' hy' hn'
  refine ⟨_, _, hv, hv', ?_⟩
  rw [e] at dX'
  have top := (light_app hf (exactAr_exact x) hpq h255).2.2
  have hb := brighter_channel h1 hlt h255 l1 l2 top (dX.trans (by norm_num)) (dX'.trans (by norm_num))
  have X2 : (X' : ℝ) ≤ ((2 : ℚ) : ℝ) := by
    have := (abs_le.mp dX').2
    norm_num at this top ⊢
    linarith
  have ho := order_encode hf hf' hX hg hX' hg' hb (by exact_mod_cast X2) hdt
  have hmax : Is (maxSample dst.format : F32) 255 := by
    rw [maxSample, (rgb8 hd).2]; exact ⟨false, 255, ofNat_eq (by norm_num), by norm_num, rfl⟩
  have hs := ord_mul (K := 255) (C := 2040) ho hmax (by norm_num) (by norm_num) (by norm_num) (by norm_num) (by norm_num)
  rw [hf.mul, hf'.mul]
  obtain ⟨a, b, ia, ib, ba, bb, hab⟩ := hs
  refine stored_mono ht _ _ _ _ .interleaved8 ia ib (.inr ⟨rfl, ?_, ?_⟩) (.inr ⟨rfl, ?_, ?_⟩) hab
  · linarith [(abs_le.mp ba).1]
  · linarith [(abs_le.mp ba).2]
  · linarith [(abs_le.mp bb).1]
  · linarith [(abs_le.mp bb).2]

/-- A run that changes sRGB to linear light, in which the pixels `(8, 1)` and `(9, 1)` have the same green, 79, and different reds
and blues, and `(10, 1)` has more green. -/
example : ∃ (scalar : Libm) (mo : Mem) (k k' k'' : Nat), scalar.Accurate ∧ sample .RGBA [⟨⟨400, 256⟩, 128⟩] mo .G 8 1 = some k ∧
    CodeOf .avx2 32 8 (13 / 100) k (toneCurve 8 .SRGB .Linear 79) ∧
    sample .RGBA [⟨⟨400, 256⟩, 128⟩] mo .G 9 1 = some k' ∧ k ≤ k' + 1 ∧ sample .RGBA [⟨⟨400, 256⟩, 128⟩] mo .G 10 1 = some k'' ∧ k ≤ k'' := by
  obtain ⟨scalar, ha⟩ := libm_exists
  obtain ⟨mo, r⟩ := run_exists (c := Platform.avx2.real scalar) (platform_lawful .avx2 _ _)
    (src := .raw .RGB 32 2 [⟨⟨0, 200⟩, 96⟩] (.RGB ⟨.SRGB, .BT709⟩)) (dst := .raw .RGBA 32 2 [⟨⟨400, 256⟩, 128⟩] (.RGB ⟨.Linear, .BT709⟩))
    (sps := [⟨⟨0, 200⟩, 96⟩]) (dps := [⟨⟨400, 256⟩, 128⟩]) rfl rfl
    (planesDisjoint_of (by decide)) (separate_of (by decide)) (uniform_of (by decide)) (by decide)
    fun a => if a = 124 then 79 else UInt8.ofNat (a * 7)
  obtain ⟨k, hk, hcurve⟩ := C79_curve_partial r ha rfl rfl rfl nofun nofun (.inl rfl) (c := .G) (by simp) (x := 8) (y := 1) (n := 79)
    (by decide) (by decide) (by decide +kernel)
  obtain ⟨k1, k', h1, h2, h3⟩ := C79_separate_partial r ha rfl rfl rfl nofun (.inl rfl) (c := .G) (by simp) (x := 8) (y := 1) (x' := 9) (y' := 1)
    (n := 79) (by decide) (by decide) (by decide) (by decide) (by decide +kernel) (by decide +kernel)
  obtain ⟨k2, k'', g1, g2, g3⟩ := C79_order_partial r ha rfl rfl rfl (.inr (.inl rfl)) nofun (c := .G) (by simp) (x := 8) (y := 1)
    (x' := 10) (y' := 1) (n := 79) (n' := 121) (by decide) (by decide) (by decide) (by decide) (by
      rintro (h | h | h)
      · cases h
      · cases h
      · exact absurd (by decide) h) (by decide +kernel) (by decide +kernel) (by decide)
  obtain rfl := Option.some.inj (h1.symm.trans hk)
  obtain rfl := Option.some.inj (g1.symm.trans hk)
  exact ⟨scalar, mo, _, k', k'', ha, hk, hcurve, h2, h3, g2, g3⟩

end Ezk.Props

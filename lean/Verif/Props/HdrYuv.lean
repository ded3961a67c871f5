import Verif.Props.ChangeToYuv

/-!
# C53: YUV images in the transfer functions HLG, PQ and gamma

The encoders of HLG and PQ take light below 0 for 0, so light of any sign has a signal on every platform; those of gamma are
applied to light that is not below 0 only.  They are steep at black.  The error is therefore stated as one of light, and in codes
where that is possible.
-/

namespace Ezk.Props
open Ezk F32 Spec

variable {p : Platform} {scalar : Libm} {src dst : Img} {sps dps : List Plane} {m m' : Mem}

/-- HLG and PQ. -/
def HdrTransfer (t : ColorTransfer) : Prop := t = .BT2100HLG ∨ t = .BT2100PQ

/-- The gamma transfer functions. -/
def GammaTransfer (t : ColorTransfer) : Prop := t = .Gamma22 ∨ t = .Gamma28

/-- Light below 0 counts as 0. -/
theorem enc_hdr_max {rr : Arith ℝ} (he : Exact rr) {t : ColorTransfer} (ht : HdrTransfer t) (l : ℝ) :
    encodeTransfer rr t (max 0 l) = encodeTransfer rr t l := by
  have e : max (max 0 l) 0 = max l 0 := by rw [max_comm 0 l, max_assoc, max_self]
  rcases ht with rfl | rfl
  · rw [enc_hlg he, enc_hlg he, e]
  · rw [enc_pqF he, enc_pqF he, e]

/-- The signal of light of any sign. -/
theorem enc_hdr_app {ar : Arith F32} {rr : Arith ℝ} (he : Exact rr) (hf : Floats ar) {t : ColorTransfer} (ht : HdrTransfer t) {v : F32}
    {X : ℚ} (hX : Is v X) (hg : Good v) (h1 : t = .BT2100HLG → X ≤ 2) (h2 : X ≤ 10000) :
    App (encodeTransfer ar t v) (encodeTransfer rr t X) (5 / 10 ^ 5) ∧ |encodeTransfer rr t X| ≤ 10 := by
  rcases ht with rfl | rfl
  · obtain ⟨h3, h4⟩ := max_is hf hX hg
    have h5 := enc_hlg_max hf h3 h4 (le_max_right _ _) (max_le (h1 rfl) (by norm_num))
    have e : ((max X 0 : ℚ) : ℝ) = max (X : ℝ) 0 := by push_cast; rfl
    rw [e, ← enc_hlg he] at h5
    refine ⟨h5.mono (by norm_num), ?_⟩
    have h6 := enc_bounds he (t := .BT2100HLG) nofun (l := max 0 (X : ℝ)) (le_max_left _ _)
      (max_le (by norm_num) (by exact_mod_cast h1 rfl))
    rw [enc_hdr_max he (.inl rfl)] at h6
    rw [abs_le]
    refine ⟨?_, h6.1⟩
    rw [enc_hlg he]
    clear h5 h6
    generalize max (X : ℝ) 0 = q
    split
    · linarith [Real.sqrt_nonneg (q * 3)]
    · rename_i h
      have h8 : Real.log (1 / 2) ≤ Real.log (12 * q - 0.28466892) := by
        refine Real.log_le_log (by norm_num) ?_
        norm_num at h ⊢
        linarith
      have h9 : -1 ≤ Real.log (1 / 2) := by
        have := Real.one_sub_inv_le_log_of_pos (x := 1 / 2) (by norm_num)
        norm_num at this ⊢
        linarith
      generalize Real.log (12 * q - 0.28466892) = z at *
      generalize Real.log (1 / 2) = w at *
      norm_num at *
      linarith
  · have h3 := enc_pq_range he (l := (X : ℝ)) (by exact_mod_cast h2)
    refine ⟨enc_pq_near he hf hX hg h2, ?_⟩
    rw [abs_of_nonneg h3.1]
    linarith [h3.2]

/-- The same for gamma, if the light is not below 0. -/
theorem enc_steep_app {ar : Arith F32} {rr : Arith ℝ} (he : Exact rr) (hf : Floats ar) {t : ColorTransfer}
    {v : F32} {X : ℚ} (ht : HdrTransfer t ∨ GammaTransfer t ∧ 0 ≤ X) (hX : Is v X) (hg : Good v) (h1 : t ≠ .BT2100PQ → X ≤ 2)
    (h2 : X ≤ 10000) :
    App (encodeTransfer ar t v) (encodeTransfer rr t (max 0 (X : ℝ))) (5 / 10 ^ 5) ∧ |encodeTransfer rr t (max 0 (X : ℝ))| ≤ 10 := by
  rcases ht with ht | ⟨ht, h0⟩
  · rw [enc_hdr_max he ht]
    exact enc_hdr_app he hf ht hX hg (fun h => h1 (by rw [h]; nofun)) h2
  · have h0' : (0 : ℝ) ≤ X := by exact_mod_cast h0
    rw [max_eq_right h0']
    have hne : t ≠ .BT2100PQ := by rcases ht with rfl | rfl <;> nofun
    have h3 : (X : ℝ) ≤ 2 := by exact_mod_cast h1 hne
    have h4 := enc_bounds he hne h0' h3
    have h5 : 0 ≤ encodeTransfer rr t (X : ℝ) := by
      rcases ht with rfl | rfl
      · rw [enc_gamma22 he]; positivity
      · rw [enc_gamma28 he]; positivity
    refine ⟨?_, by rw [abs_of_nonneg h5]; exact h4.1⟩
    rcases ht with rfl | rfl
    · rw [enc_gamma22 he]; exact (enc_gamma22_app hf hX hg h0 (h1 hne)).mono (by norm_num)
    · rw [enc_gamma28 he]; exact (enc_gamma28_app hf hX hg h0 (h1 hne)).mono (by norm_num)

/-- The error of codes in HLG, PQ and gamma, as a share of the range of codes. -/
noncomputable def hdrTolerance : ℝ := 12 / 10 ^ 5

/-- The codes, if the light of the pixels is known up to `e`. -/
theorem to_yuv_hdr (r : Run (p.real scalar) src dst sps dps m m') (ha : scalar.Accurate) (hd : isYuv dst.format = true)
    {j : YuvColorInfo} (hj : dst.color = .YUV j)
    (hne : ¬ (src.color.transfer = dst.color.transfer ∧ src.color.primaries = dst.color.primaries))
    {k : ℝ × ℝ × ℝ} (hk : IsStandard j.space k)
    {c : Chan} (hc : c = .Y ∨ c = .U ∨ c = .V) {x y : Nat} (hx : x < dst.width) (hy : y < dst.height) {L : Pic ℝ} {e : Nat → Nat → ℝ}
    (hL : ∀ c, (c = .R ∨ c = .G ∨ c = .B) → ∀ x' y', x' < dst.width → y' < dst.height → SameCell dst.format x y x' y' →
      ∃ (v : F32) (X : ℚ), Is v X ∧ Good v ∧ |(X : ℝ) - L c x' y'| ≤ e x' y' ∧
        (HdrTransfer j.transfer ∨ GammaTransfer j.transfer ∧ 0 ≤ X) ∧ (j.transfer ≠ .BT2100PQ → X ≤ 2) ∧ X ≤ 10000 ∧
        changeColor (columnArith (p.real scalar) dst.width) src.color dst.color
          (readPic (columnArith (p.real scalar) dst.width) src.format src.color (shown src.format sps m)) c x' y' =
        encodeTransfer (columnArith (p.real scalar) dst.width x') dst.color.transfer v) :
    ∃ (n : Nat) (l : Pic ℝ), sample dst.format dps m' c x y = some n ∧
      (∀ c, (c = .R ∨ c = .G ∨ c = .B) → ∀ x' y', x' < dst.width → y' < dst.height → SameCell dst.format x y x' y' →
        0 ≤ l c x' y' ∧ |l c x' y' - max 0 (L c x' y')| ≤ e x' y') ∧
      (let T := hdrTolerance * (2 ^ sampleBits dst.format - 1 : Nat)
       let v := idealCodes k dst.format j.fullRange (fun c x y => encodeTransfer (exactAr x) j.transfer (l c x y)) c x y
       0 ≤ v → v ≤ (2 ^ sampleBits dst.format - 1 : Nat) →
       sampleBits dst.format = 8 ∨ T ≤ v ∧ v + T ≤ (2 ^ sampleBits dst.format - 1 : Nat) → |(n : ℝ) - v| < 1 + T) := by
  have hjt : dst.color.transfer = j.transfer := by rw [hj]; rfl
  have key : ∀ c x' y', ∃ l : ℝ, (c = .R ∨ c = .G ∨ c = .B) → x' < dst.width → y' < dst.height → SameCell dst.format x y x' y' →
      0 ≤ l ∧ |l - max 0 (L c x' y')| ≤ e x' y' ∧
      App (changeColor (columnArith (p.real scalar) dst.width) src.color dst.color
          (readPic (columnArith (p.real scalar) dst.width) src.format src.color (shown src.format sps m)) c x' y')
        (encodeTransfer (exactAr x') j.transfer l) (5 / 10 ^ 5) ∧ |encodeTransfer (exactAr x') j.transfer l| ≤ 1006 / 100 := by
    intro c x' y'
    by_cases h : (c = .R ∨ c = .G ∨ c = .B) ∧ x' < dst.width ∧ y' < dst.height ∧ SameCell dst.format x y x' y'
    · obtain ⟨v, X, h1, h2, h3, ht, h4, h5, h6⟩ := hL c h.1 x' y' h.2.1 h.2.2.1 h.2.2.2
      refine ⟨max 0 (X : ℝ), fun _ _ _ _ => ⟨le_max_left _ _, ?_, ?_⟩⟩
      · refine le_trans ?_ h3
        rw [max_comm 0, max_comm 0]; exact abs_max_sub_max_le_abs _ _ 0
      · rw [h6, hjt]
        obtain ⟨a, b⟩ := enc_steep_app (exactAr_exact x') (column_floats p ha dst.width x') ht h1 h2 h4 h5
        exact ⟨a, b.trans (by norm_num)⟩
    · exact ⟨0, fun h1 h2 h3 h4 => absurd ⟨h1, h2, h3, h4⟩ h⟩
  choose l hl using key
  have hpick := to_yuv_pick r hd hj hk.isMatrix hne hc hx hy
  refine ⟨_, l, hpick, fun c hc x' y' hx' hy' h => ⟨(hl c x' y' hc hx' hy' h).1, (hl c x' y' hc hx' hy' h).2.1⟩, ?_⟩
  intro T v h0 h1 h8
  obtain ⟨r0, r1⟩ := code_room (T := hdrTolerance) (by norm_num [hdrTolerance]) h0 h1 h8
  obtain ⟨n, hn, hd'⟩ := to_yuv_signals r hd hj hne hk hc hx hy (E := fun c x y => encodeTransfer (exactAr x) j.transfer (l c x y))
    (D := 5 / 10 ^ 5) (T := hdrTolerance) (by norm_num [hdrTolerance]) (by norm_num [hdrTolerance])
    (fun c hc x' y' hx' hy' ex ey => (hl c x' y' hc hx' hy' ⟨ex, ey⟩).2.2) r0 r1
  rw [hpick] at hn
  cases hn
  exact hd'

/-- The light of RGB images in PQ. -/
theorem rgb_light_pq (r : Run (p.real scalar) src dst sps dps m m') (ha : scalar.Accurate) (hs : isYuv src.format = false)
    (hst : src.color.transfer = .BT2100PQ) {c : Chan} (hc : c = .R ∨ c = .G ∨ c = .B) (x y : Nat) :
    ∃ (v : F32) (X : ℚ), Is v X ∧ Good v ∧
      |(X : ℝ) - lightIn src.color dst.color (shown src.format sps m) c x y| ≤ changeTolerance src.color (shown src.format sps m) x y ∧
      changeColor (columnArith (p.real scalar) dst.width) src.color dst.color
        (readPic (columnArith (p.real scalar) dst.width) src.format src.color (shown src.format sps m)) c x y =
      encodeTransfer (columnArith (p.real scalar) dst.width x) dst.color.transfer v := by
  have hf := column_floats p ha dst.width x
  have he := exactAr_exact x
  have hle := shown_le (rgb8 hs).1 sps m
  have e1 : readPic (columnArith (p.real scalar) dst.width) src.format src.color (shown src.format sps m) =
      withAlpha src.format (Spec.normalize (columnArith (p.real scalar) dst.width) src.format (shown src.format sps m)) := by
    cases src.color <;> simp [readPic, hs]
  have e3 : ∀ c x y, c ≠ .A → withAlpha src.format (Spec.normalize (columnArith (p.real scalar) dst.width) src.format
      (shown src.format sps m)) c x y =
      (columnArith (p.real scalar) dst.width x).div (FOps.ofNat (shown src.format sps m c x y)) (FOps.ofNat 255) := by
    intro c x y h
    rw [withAlpha, if_neg (by rintro ⟨rfl, _⟩; exact h rfl), Spec.normalize, maxSample, (rgb8 hs).2]
  have l1 := light_pq_app he hf (hle .R x y)
  have l2 := light_pq_app he hf (hle .G x y)
  have l3 := light_pq_app he hf (hle .B x y)
  rw [← hst] at l1 l2 l3
  rw [changeTolerance, if_pos hst]
  set S : ℝ := max (1 / 10 ^ 3) (brightest src.color (shown src.format sps m) x y) with hS
  have hS0 : 1 / 10 ^ 3 ≤ S := le_max_left _ _
  have hS1 : 1 / 10 ^ 4 ≤ S := le_trans (by norm_num) hS0
  have b1 : decodeTransfer (exactAr x) src.color.transfer ((shown src.format sps m .R x y : ℝ) / 255) ≤ S :=
    le_max_of_le_right (le_max_left _ _)
  have b2 : decodeTransfer (exactAr x) src.color.transfer ((shown src.format sps m .G x y : ℝ) / 255) ≤ S :=
    le_max_of_le_right (le_max_of_le_right (le_max_left _ _))
  have b3 : decodeTransfer (exactAr x) src.color.transfer ((shown src.format sps m .B x y : ℝ) / 255) ≤ S :=
    le_max_of_le_right (le_max_of_le_right (le_max_right _ _))
  have hS2 : S ≤ 10000 := max_le (by norm_num) (max_le l1.2.2 (max_le l2.2.2 l3.2.2))
  have err : ∀ {q : ℝ}, q ≤ S → 56 / 10 ^ 5 * q + 2 / 10 ^ 10 ≤ 57 / 10 ^ 5 * S := by
    intro q hq
    norm_num at hS1 ⊢
    linarith
  obtain ⟨m1, m2, m3⟩ := mix_app_scaled he hf.toIsIeee src.color.primaries dst.color.primaries hS1 (hS2.trans (by norm_num))
    (p := (_, _, _)) (q := (_, _, _)) (l1.1.mono (err b1)) (l2.1.mono (err b2)) (l3.1.mono (err b3)) ⟨l1.2.1, b1⟩ ⟨l2.2.1, b2⟩ ⟨l3.2.1, b3⟩
  simp only [e1, changeColor]
  rw [e3 .R _ _ nofun, e3 .G _ _ nofun, e3 .B _ _ nofun]
  have key : ∀ {v : F32} {L : ℝ}, App v L (149 / 10 ^ 5 * S) → ∃ X : ℚ, Is v X ∧ |(X : ℝ) - L| ≤ 15 / 10 ^ 4 * S := by
    intro v L hv
    obtain ⟨X, hX, hd1⟩ := hv.is
    refine ⟨X, hX, hd1.trans ?_⟩
    norm_num at hS0 ⊢
    linarith
  rcases hc with rfl | rfl | rfl
  · obtain ⟨X, h1, h2⟩ := key m1
    exact ⟨_, X, h1, good_dot hf.toIsIeee, h2, rfl⟩
  · obtain ⟨X, h1, h2⟩ := key m2
    exact ⟨_, X, h1, good_dot hf.toIsIeee, h2, rfl⟩
  · obtain ⟨X, h1, h2⟩ := key m3
    exact ⟨_, X, h1, good_dot hf.toIsIeee, h2, rfl⟩

/-- The brightest light of which the error of the encoder is known. -/
noncomputable def hdrLimit : ColorTransfer → ℝ
  | .BT2100PQ => 10000
  | _ => 2

/-- **C53** for RGB sources and the transfer functions HLG, PQ and gamma (partial: matrices BT.601 and BT.709; for PQ sources no
light beyond `hdrLimit`; for gamma no light near or below 0, for which it is false; not if the ideal code is none of the
destination's).  The code of the luma or chroma of a pixel differs by less
than one, plus 0.012% of the range, from the one of the exact formulas for a light that differs from the exact one by at most
1.2·10⁻⁵ of reference white or, for PQ sources, 0.15% of the brightest component; light below 0 counts as 0. -/
theorem C53_light_partial (r : Run (p.real scalar) src dst sps dps m m') (ha : scalar.Accurate) (hs : isYuv src.format = false)
    (hd : isYuv dst.format = true) {j : YuvColorInfo} (hj : dst.color = .YUV j)
    (hne : ¬ (src.color.transfer = dst.color.transfer ∧ src.color.primaries = dst.color.primaries))
    (ht : j.transfer ≠ .Linear ∧ j.transfer ≠ .SRGB ∧ j.transfer ≠ .SDR)
    (hcs : j.space = .BT601 ∨ j.space = .BT709) {k : ℝ × ℝ × ℝ} (hk : lumaWeights j.space = some k)
    {c : Chan} (hc : c = .Y ∨ c = .U ∨ c = .V) {x y : Nat} (hx : x < dst.width) (hy : y < dst.height)
    (hmax : src.color.transfer = .BT2100PQ → ∀ x' y', x' < dst.width → y' < dst.height → SameCell dst.format x y x' y' →
      ∀ c, c = .R ∨ c = .G ∨ c = .B → lightIn src.color dst.color (shown src.format sps m) c x' y' +
        changeTolerance src.color (shown src.format sps m) x' y' ≤ hdrLimit j.transfer)
    (hmin : j.transfer = .Gamma22 ∨ j.transfer = .Gamma28 → ∀ x' y', x' < dst.width → y' < dst.height →
      SameCell dst.format x y x' y' → ∀ c, c = .R ∨ c = .G ∨ c = .B → changeTolerance src.color (shown src.format sps m) x' y' ≤
        lightIn src.color dst.color (shown src.format sps m) c x' y') :
    ∃ (n : Nat) (l : Pic ℝ), sample dst.format dps m' c x y = some n ∧
      (∀ c, (c = .R ∨ c = .G ∨ c = .B) → ∀ x' y', x' < dst.width → y' < dst.height → SameCell dst.format x y x' y' → 0 ≤ l c x' y' ∧
        |l c x' y' - max 0 (lightIn src.color dst.color (shown src.format sps m) c x' y')| ≤
          changeTolerance src.color (shown src.format sps m) x' y') ∧
      (let T := 12 / 10 ^ 5 * ((2 ^ sampleBits dst.format - 1 : Nat) : ℝ)
       let v := idealCodes k dst.format j.fullRange (fun c x y => encodeTransfer (exactAr x) j.transfer (l c x y)) c x y
       0 ≤ v → v ≤ (2 ^ sampleBits dst.format - 1 : Nat) →
       sampleBits dst.format = 8 ∨ T ≤ v ∧ v + T ≤ (2 ^ sampleBits dst.format - 1 : Nat) → |(n : ℝ) - v| < 1 + T) := by
  refine to_yuv_hdr r ha hd hj hne ⟨hcs, hk⟩ hc hx hy fun c hc x' y' hx' hy' hcell => ?_
  have kinds : HdrTransfer j.transfer ∨ GammaTransfer j.transfer := by
    revert ht; unfold HdrTransfer GammaTransfer; cases j.transfer <;> simp
  have pos : ∀ {X : ℚ}, |(X : ℝ) - lightIn src.color dst.color (shown src.format sps m) c x' y'| ≤
      changeTolerance src.color (shown src.format sps m) x' y' → HdrTransfer j.transfer ∨ GammaTransfer j.transfer ∧ 0 ≤ X := by
    intro X h
    refine kinds.imp_right fun hg => ⟨hg, ?_⟩
    have h1 := hmin hg x' y' hx' hy' hcell c hc
    have h2 := (abs_le.mp h).1
    have : (0 : ℝ) ≤ X := by linarith
    exact_mod_cast this
  by_cases hst : src.color.transfer = .BT2100PQ
  · obtain ⟨v, X, h1, h2, h3, h4⟩ := rgb_light_pq (dst := dst) r ha hs hst hc x' y'
    have h5 := hmax hst x' y' hx' hy' hcell c hc
    have h6 := (abs_le.mp h3).2
    refine ⟨v, X, h1, h2, h3, pos h3, fun h => ?_, ?_, h4⟩
    · have h7 : hdrLimit j.transfer = 2 := by revert h; cases j.transfer <;> simp [hdrLimit]
      rw [h7] at h5
      have : (X : ℝ) ≤ ((2 : ℚ) : ℝ) := by push_cast; linarith
      exact_mod_cast this
    · have h7 : hdrLimit j.transfer ≤ 10000 := by cases j.transfer <;> norm_num [hdrLimit]
      have : (X : ℝ) ≤ ((10000 : ℚ) : ℝ) := by push_cast; linarith
      exact_mod_cast this
  · obtain ⟨⟨v, X, h1, h2, h3, h4⟩, h5, h6⟩ := rgb_light r ha hs hst hc x' y'
    rw [changeTolerance, if_neg hst] at pos ⊢
    have h7 := (abs_le.mp h3).2
    have h8 : (X : ℝ) ≤ ((2 : ℚ) : ℝ) := by push_cast; norm_num at h7; linarith
    have h9 : X ≤ 2 := by exact_mod_cast h8
    exact ⟨v, X, h1, h2, h3, pos h3, fun _ => h9, h9.trans (by norm_num), h4⟩

/-- **C53** for YUV sources and the transfer functions HLG, PQ and gamma (partial: as for RGB sources; moreover signals as
`Decodable` says, and for HLG and gamma no light beyond 1.99). -/
theorem C53_light_yuv_partial (r : Run (p.real scalar) src dst sps dps m m') (ha : scalar.Accurate) (hs : isYuv src.format = true)
    (hd : isYuv dst.format = true) {i j : YuvColorInfo} (hi : src.color = .YUV i) (hj : dst.color = .YUV j)
    (hne : ¬ (src.color.transfer = dst.color.transfer ∧ src.color.primaries = dst.color.primaries))
    (ht : j.transfer ≠ .Linear ∧ j.transfer ≠ .SRGB ∧ j.transfer ≠ .SDR)
    (hcs : i.space = .BT601 ∨ i.space = .BT709) (hcs' : j.space = .BT601 ∨ j.space = .BT709)
    {k k' : ℝ × ℝ × ℝ} (hk : lumaWeights i.space = some k) (hk' : lumaWeights j.space = some k')
    {c : Chan} (hc : c = .Y ∨ c = .U ∨ c = .V) {x y : Nat} (hx : x < dst.width) (hy : y < dst.height)
    (hV : InDepth src.format src.width src.height (shown src.format sps m))
    (hsig : ∀ x' y', x' < dst.width → y' < dst.height → SameCell dst.format x y x' y' →
      Decodable p dst.width x' i.transfer (signalsOf k src.format i.fullRange (shown src.format sps m) x' y'))
    (hmax : j.transfer ≠ .BT2100PQ → ∀ x' y', x' < dst.width → y' < dst.height → SameCell dst.format x y x' y' →
      ∀ c, c = .R ∨ c = .G ∨ c = .B →
      lightOf src.color dst.color x' (signalsOf k src.format i.fullRange (shown src.format sps m) x' y') c ≤ 199 / 100)
    (hmin : j.transfer = .Gamma22 ∨ j.transfer = .Gamma28 → ∀ x' y', x' < dst.width → y' < dst.height →
      SameCell dst.format x y x' y' → ∀ c, c = .R ∨ c = .G ∨ c = .B → 133 / 10 ^ 6 ≤
        lightOf src.color dst.color x' (signalsOf k src.format i.fullRange (shown src.format sps m) x' y') c) :
    ∃ (n : Nat) (l : Pic ℝ), sample dst.format dps m' c x y = some n ∧
      (∀ c, (c = .R ∨ c = .G ∨ c = .B) → ∀ x' y', x' < dst.width → y' < dst.height → SameCell dst.format x y x' y' → 0 ≤ l c x' y' ∧
        |l c x' y' - max 0 (lightOf src.color dst.color x' (signalsOf k src.format i.fullRange (shown src.format sps m) x' y') c)| ≤
          133 / 10 ^ 6) ∧
      (let T := 12 / 10 ^ 5 * ((2 ^ sampleBits dst.format - 1 : Nat) : ℝ)
       let v := idealCodes k' dst.format j.fullRange (fun c x y => encodeTransfer (exactAr x) j.transfer (l c x y)) c x y
       0 ≤ v → v ≤ (2 ^ sampleBits dst.format - 1 : Nat) →
       sampleBits dst.format = 8 ∨ T ≤ v ∧ v + T ≤ (2 ^ sampleBits dst.format - 1 : Nat) → |(n : ℝ) - v| < 1 + T) := by
  refine to_yuv_hdr r ha hd hj hne ⟨hcs', hk'⟩ hc hx hy (e := fun _ _ => 133 / 10 ^ 6)
    (L := fun c x y => lightOf src.color dst.color x (signalsOf k src.format i.fullRange (shown src.format sps m) x y) c)
    fun c hc x' y' hx' hy' hcell => ?_
  obtain ⟨v, X, h1, h2, h3, h4, h5⟩ := yuv_light r ha hs hi ⟨hcs, hk⟩ hc hx' hy' hV (hsig x' y' hx' hy' hcell)
  have e1 : readPic (columnArith (p.real scalar) dst.width) src.format src.color (shown src.format sps m) =
      decode (columnArith (p.real scalar) dst.width) i
        (Spec.normalize (columnArith (p.real scalar) dst.width) src.format (shown src.format sps m)) := by
    rw [hi]; simp only [readPic, hs, if_true]
  rw [e1]
  have h6 := (abs_le.mp h3).2
  have h8 := (abs_le.mp h3).1
  norm_num at h6
  have kinds : HdrTransfer j.transfer ∨ GammaTransfer j.transfer := by
    revert ht; unfold HdrTransfer GammaTransfer; cases j.transfer <;> simp
  refine ⟨v, X, h1, h2, h3, kinds.imp_right fun hg => ⟨hg, ?_⟩, fun h => ?_, ?_, h5⟩
  · have h7 := hmin hg x' y' hx' hy' hcell c hc
    have : (0 : ℝ) ≤ X := by linarith
    exact_mod_cast this
  · have h7 := hmax h x' y' hx' hy' hcell c hc
    have : (X : ℝ) ≤ ((2 : ℚ) : ℝ) := by push_cast; linarith
    exact_mod_cast this
  · have h7 := (abs_le.mp h4).2
    have : (X : ℝ) ≤ ((10000 : ℚ) : ℝ) := by push_cast; linarith
    exact_mod_cast this

/-- The error of codes in HLG and PQ made from RGB images, as a share of the range of codes. -/
noncomputable def hdrCodeTolerance : ColorTransfer → ℝ
  | .BT2100HLG => 62 / 10 ^ 4
  | _ => 25 / 10 ^ 4

/-- **C53** for RGB sources and the transfer functions HLG and PQ, in codes (partial: as above; not PQ sources; not within the
tolerance of the ends of the range). -/
theorem C53_hdr_codes_partial (r : Run (p.real scalar) src dst sps dps m m') (ha : scalar.Accurate) (hs : isYuv src.format = false)
    (hd : isYuv dst.format = true) {j : YuvColorInfo} (hj : dst.color = .YUV j)
    (hne : ¬ (src.color.transfer = dst.color.transfer ∧ src.color.primaries = dst.color.primaries))
    (hst : src.color.transfer ≠ .BT2100PQ) (ht : j.transfer = .BT2100HLG ∨ j.transfer = .BT2100PQ)
    (hcs : j.space = .BT601 ∨ j.space = .BT709) {k : ℝ × ℝ × ℝ} (hk : lumaWeights j.space = some k)
    {c : Chan} (hc : c = .Y ∨ c = .U ∨ c = .V) {x y : Nat} (hx : x < dst.width) (hy : y < dst.height) :
    let T := hdrCodeTolerance j.transfer * (2 ^ sampleBits dst.format - 1 : Nat)
    let v := idealCodes k dst.format j.fullRange (fun c x y => encodeTransfer (exactAr x) j.transfer
      (lightIn src.color dst.color (shown src.format sps m) c x y)) c x y
    T ≤ v → v + T ≤ (2 ^ sampleBits dst.format - 1 : Nat) →
    ∃ n : Nat, sample dst.format dps m' c x y = some n ∧ |(n : ℝ) - v| < 1 + T := by
  intro T v h0 h1
  have hjt : dst.color.transfer = j.transfer := by rw [hj]; rfl
  refine to_yuv_signals r hd hj hne ⟨hcs, hk⟩ hc hx hy (D := hdrCodeTolerance j.transfer - 606 / 10 ^ 7) (by linarith)
    (by rcases ht with h | h <;> rw [h] <;> norm_num [hdrCodeTolerance]) (fun c hc x' y' hx' hy' ex ey => ?_) (by linarith) (by linarith)
  have he := exactAr_exact x'
  obtain ⟨⟨v, X, h1, h2, h3, h4⟩, h5, h6⟩ := rgb_light r ha hs hst hc x' y'
  have h7 := (abs_le.mp h3).2
  have h8 : (X : ℝ) ≤ ((2 : ℚ) : ℝ) := by push_cast; norm_num at h7; linarith
  have h9 : X ≤ 2 := by exact_mod_cast h8
  obtain ⟨a, b⟩ := enc_hdr_app he (column_floats p ha dst.width x') ht h1 h2 (fun _ => h9) (h9.trans (by norm_num))
  rw [h4, hjt]
  set Z := lightIn src.color dst.color (shown src.format sps m) c x' y' with hZ
  have hm : |max 0 (X : ℝ) - max 0 Z| ≤ 12 / 10 ^ 6 := by
    refine le_trans ?_ h3
    rw [max_comm 0, max_comm 0]; exact abs_max_sub_max_le_abs _ _ 0
  have hX3 : max 0 (X : ℝ) ≤ 3 := max_le (by norm_num) (by push_cast at h8; linarith)
  have hZ3 : max 0 Z ≤ 3 := max_le (by norm_num) (by norm_num at h6; linarith)
  have gap : |encodeTransfer (exactAr x') j.transfer X - encodeTransfer (exactAr x') j.transfer Z| ≤
      hdrCodeTolerance j.transfer - 606 / 10 ^ 7 - 5 / 10 ^ 5 := by
    rw [← enc_hdr_max he ht (X : ℝ), ← enc_hdr_max he ht Z]
    rcases ht with h | h <;> rw [h]
    · refine (enc_cont he (t := .BT2100HLG) nofun (le_max_left _ _) (le_max_left _ _) hm).trans ?_
      norm_num [encodeGap, hdrCodeTolerance]
    · refine (enc_pq_gap he (le_max_left _ _) (le_max_left _ _) hX3 hZ3 hm).trans ?_
      norm_num [hdrCodeTolerance]
  have small : hdrCodeTolerance j.transfer ≤ 62 / 10 ^ 4 := by rcases ht with h | h <;> rw [h] <;> norm_num [hdrCodeTolerance]
  refine ⟨(a.shift gap).mono (by linarith), ?_⟩
  have h10 := abs_sub_abs_le_abs_sub (encodeTransfer (exactAr x') j.transfer Z) (encodeTransfer (exactAr x') j.transfer X)
  rw [abs_sub_comm] at h10
  norm_num at small gap ⊢
  linarith

/-! ## Examples -/

/-- An sRGB image in BT.709 becomes an HLG image in BT.2020 of 10 bits with 4:2:0 chroma, on AVX-512. -/
example (m : Mem) : ∃ m' : Mem,
    let v := idealCodes (0.2126, 0.7152, 0.0722) .I010 false (fun c x y => encodeTransfer (exactAr x) .BT2100HLG
      (lightIn (.RGB ⟨.SRGB, .BT709⟩) (.YUV ⟨.BT2100HLG, .BT2020, .BT709, false⟩) (shown .RGB [⟨⟨0, 96⟩, 48⟩] m) c x y)) .V 5 1
    7 ≤ v → v ≤ 1000 → ∃ n : Nat, sample .I010 [⟨⟨100, 64⟩, 32⟩, ⟨⟨200, 16⟩, 16⟩, ⟨⟨300, 16⟩, 16⟩] m' .V 5 1 = some n ∧
      |(n : ℝ) - v| < 1 + 6.4 := by
  obtain ⟨scalar, ha⟩ := libm_exists
  obtain ⟨m', r⟩ := run_exists (c := Platform.avx512.real scalar) (platform_lawful .avx512 _ _)
    (src := .raw .RGB 16 2 [⟨⟨0, 96⟩, 48⟩] (.RGB ⟨.SRGB, .BT709⟩))
    (dst := .raw .I010 16 2 [⟨⟨100, 64⟩, 32⟩, ⟨⟨200, 16⟩, 16⟩, ⟨⟨300, 16⟩, 16⟩] (.YUV ⟨.BT2100HLG, .BT2020, .BT709, false⟩))
    (sps := [⟨⟨0, 96⟩, 48⟩]) (dps := [⟨⟨100, 64⟩, 32⟩, ⟨⟨200, 16⟩, 16⟩, ⟨⟨300, 16⟩, 16⟩]) rfl rfl
    (planesDisjoint_of (by decide)) (separate_of (by decide)) (uniform_of (by decide)) (by decide) m
  refine ⟨m', fun h0 h1 => ?_⟩
  have eT : hdrCodeTolerance .BT2100HLG * ((2 ^ sampleBits .I010 - 1 : Nat) : ℝ) ≤ 64 / 10 := by
    norm_num [hdrCodeTolerance, sampleBits]
  obtain ⟨n, h2, h3⟩ := C53_hdr_codes_partial r ha rfl rfl rfl (by decide) nofun (.inl rfl) (.inr rfl)
    (k := (0.2126, 0.7152, 0.0722)) rfl (c := .V) (by simp) (x := 5) (y := 1) (by decide) (by decide)
    (eT.trans (le_trans (by norm_num) h0)) ((add_le_add h1 eT).trans (by norm_num [Img.format, sampleBits]))
  refine ⟨n, h2, h3.trans_le ?_⟩
  have := add_le_add_right eT (1 : ℝ)
  refine le_trans this ?_
  norm_num

/-- The light of the PQ code 128 is below 5000 cd/m². -/
theorem pq_128 {rr : Arith ℝ} (he : Exact rr) : decodeTransfer rr .BT2100PQ (((128 : Nat) : ℝ) / 255) ≤ 5000 := by
  rw [dec_pq he, max_eq_left (show (0 : ℝ) ≤ ((128 : Nat) : ℝ) / 255 by norm_num)]
  have h1 : (((128 : Nat) : ℝ) / 255) ^ (1 / 78.84375 : ℝ) ≤ 995 / 1000 := by
    refine (Real.rpow_le_rpow_of_exponent_ge (y := (1 / 78.84375 : ℝ)) (z := 1 / 80) (by norm_num) (by norm_num) (by norm_num)).trans
      (le_of_lt ?_)
    rw [rpow_lt_iff (m := 1) (n := 80) (by norm_num) (by norm_num) (by norm_num) (by norm_num)]
    norm_num
  have h0 : 0 ≤ (((128 : Nat) : ℝ) / 255) ^ (1 / 78.84375 : ℝ) := by positivity
  generalize (((128 : Nat) : ℝ) / 255) ^ (1 / 78.84375 : ℝ) = z at *
  have h2 : max (z - 0.8359375) 0 / (18.851563 - z * 18.6875) ≤ 7 / 10 := by
    rw [div_le_iff₀ (by norm_num at *; linarith)]
    refine max_le ?_ ?_ <;> norm_num at * <;> linarith
  have h3 : 0 ≤ max (z - 0.8359375) 0 / (18.851563 - z * 18.6875) := div_nonneg (le_max_right _ _) (by norm_num at *; linarith)
  generalize max (z - 0.8359375) 0 / (18.851563 - z * 18.6875) = q at *
  have h4 : q ^ (1 / 0.15930176 : ℝ) ≤ 1 / 2 := by
    refine (Real.rpow_le_rpow h3 h2 (by norm_num)).trans ?_
    refine (Real.rpow_le_rpow_of_exponent_ge (z := 2) (by norm_num) (by norm_num) (by norm_num)).trans ?_
    rw [show (2 : ℝ) = ((2 : Nat) : ℝ) by norm_num, Real.rpow_natCast]
    norm_num
  generalize q ^ (1 / 0.15930176 : ℝ) = w at *
  linarith

/-- The grey 128 of a PQ image in BT.2020 becomes a PQ image in BT.709 of 10 bits, on AVX2. -/
example : ∃ (m' : Mem) (n : Nat) (l : Pic ℝ), sample .I410 [⟨⟨100, 64⟩, 32⟩, ⟨⟨200, 64⟩, 32⟩, ⟨⟨300, 64⟩, 32⟩] m' .Y 5 1 = some n ∧
    (∀ c, c = .R ∨ c = .G ∨ c = .B → 0 ≤ l c 5 1 ∧
      |l c 5 1 - max 0 (lightIn (.RGB ⟨.BT2100PQ, .BT2020⟩) (.YUV ⟨.BT2100PQ, .BT709, .BT709, true⟩) (fun _ _ _ => 128) c 5 1)| ≤ 15 / 2) ∧
    (let v := idealCodes (0.2126, 0.7152, 0.0722) .I410 true (fun c x y => encodeTransfer (exactAr x) .BT2100PQ (l c x y)) .Y 5 1
     1 ≤ v → v ≤ 1020 → |(n : ℝ) - v| < 1.2) := by
  obtain ⟨scalar, ha⟩ := libm_exists
  obtain ⟨m', r⟩ := run_exists (c := Platform.avx2.real scalar) (platform_lawful .avx2 _ _)
    (src := .raw .RGB 16 2 [⟨⟨0, 96⟩, 48⟩] (.RGB ⟨.BT2100PQ, .BT2020⟩))
    (dst := .raw .I410 16 2 [⟨⟨100, 64⟩, 32⟩, ⟨⟨200, 64⟩, 32⟩, ⟨⟨300, 64⟩, 32⟩] (.YUV ⟨.BT2100PQ, .BT709, .BT709, true⟩))
    (sps := [⟨⟨0, 96⟩, 48⟩]) (dps := [⟨⟨100, 64⟩, 32⟩, ⟨⟨200, 64⟩, 32⟩, ⟨⟨300, 64⟩, 32⟩]) rfl rfl
    (planesDisjoint_of (by decide)) (separate_of (by decide)) (uniform_of (by decide)) (by decide) (fun _ => 128)
  have es : ∀ c, c = .R ∨ c = .G ∨ c = .B → shown .RGB [⟨⟨0, 96⟩, 48⟩] (fun _ => 128) c 5 1 = 128 := by
    rintro c (rfl | rfl | rfl) <;> decide
  have he := exactAr_exact 5
  have l128 := pq_128 he
  have tol : changeTolerance (.RGB ⟨.BT2100PQ, .BT2020⟩) (shown .RGB [⟨⟨0, 96⟩, 48⟩] (fun _ => 128)) 5 1 ≤ 15 / 2 := by
    rw [changeTolerance, if_pos (show (ColorInfo.RGB ⟨.BT2100PQ, .BT2020⟩).transfer = .BT2100PQ from rfl)]
    simp only [brightest, es .R (by simp), es .G (by simp), es .B (by simp)]
    have : max (1 / 10 ^ 3 : ℝ) (max (decodeTransfer (exactAr 5) .BT2100PQ (((128 : Nat) : ℝ) / 255))
        (max (decodeTransfer (exactAr 5) .BT2100PQ (((128 : Nat) : ℝ) / 255))
          (decodeTransfer (exactAr 5) .BT2100PQ (((128 : Nat) : ℝ) / 255)))) ≤ 5000 :=
      max_le (by norm_num) (max_le l128 (max_le l128 l128))
    refine (mul_le_mul_of_nonneg_left this (by norm_num)).trans (by norm_num)
  have same : ∀ c, c = .R ∨ c = .G ∨ c = .B →
      lightIn (.RGB ⟨.BT2100PQ, .BT2020⟩) (.YUV ⟨.BT2100PQ, .BT709, .BT709, true⟩) (shown .RGB [⟨⟨0, 96⟩, 48⟩] (fun _ => 128)) c 5 1 =
      lightIn (.RGB ⟨.BT2100PQ, .BT2020⟩) (.YUV ⟨.BT2100PQ, .BT709, .BT709, true⟩) (fun _ _ _ => 128) c 5 1 := by
    intro c _
    simp only [lightIn, es .R (by simp), es .G (by simp), es .B (by simp)]
  have lmax : ∀ c, c = .R ∨ c = .G ∨ c = .B →
      lightIn (.RGB ⟨.BT2100PQ, .BT2020⟩) (.YUV ⟨.BT2100PQ, .BT709, .BT709, true⟩) (fun _ _ _ => 128) c 5 1 ≤ 9500 := by
    have l0 : 0 ≤ decodeTransfer (exactAr 5) .BT2100PQ (((128 : Nat) : ℝ) / 255) :=
      (light_pq_app he (column_floats .avx2 ha 16 5) (n := 128) (by norm_num)).2.1
    have g := mix_range_scaled he .BT2020 .BT709 (p := (_, _, _)) (S := 5000) (by norm_num) ⟨l0, l128⟩ ⟨l0, l128⟩ ⟨l0, l128⟩
    rintro c (rfl | rfl | rfl)
    · exact g.1.2.trans (by norm_num)
    · exact g.2.1.2.trans (by norm_num)
    · exact g.2.2.2.trans (by norm_num)
  obtain ⟨n, l, h1, h2, h3⟩ := C53_light_partial r ha rfl rfl rfl (by decide) (by decide) (.inr rfl)
    (k := (0.2126, 0.7152, 0.0722)) rfl (c := .Y) (by simp) (x := 5) (y := 1) (by decide) (by decide) (by
      rintro - x' y' - - ⟨ex, ey⟩ c hc
      obtain rfl : x' = 5 := by simpa [hsub, Img.format] using ex
      obtain rfl : y' = 1 := by simpa [vsub, Img.format] using ey
      change _ ≤ (10000 : ℝ)
      refine (add_le_add ((same c hc).le.trans (lmax c hc)) tol).trans (by norm_num)) (by simp [Img.color])
  refine ⟨m', n, l, h1, fun c hc => ?_, fun h4 h5 => ?_⟩
  · have h6 := h2 c hc 5 1 (by decide) (by decide) ⟨rfl, rfl⟩
    have h7 := h6.2.trans tol
    simp only [Img.format, Img.color] at h7
    rw [same c hc] at h7
    exact ⟨h6.1, h7⟩
  · have eT : 12 / 10 ^ 5 * ((2 ^ sampleBits .I410 - 1 : Nat) : ℝ) ≤ 2 / 10 := by norm_num [sampleBits]
    refine (h3 (le_trans (by norm_num) h4) (h5.trans (by norm_num [Img.format, sampleBits]))
      (.inr ⟨eT.trans (le_trans (by norm_num) h4), (add_le_add h5 eT).trans (by norm_num [Img.format, sampleBits])⟩)).trans_le ?_
    refine (add_le_add_right eT (1 : ℝ)).trans ?_
    norm_num

/-- A linear BT.709 image becomes a PQ image of 8 bits, on AVX2. -/
example (m : Mem) : ∃ (m' : Mem) (n : Nat) (l : Pic ℝ), sample .I444 [⟨⟨300, 32⟩, 16⟩, ⟨⟨400, 32⟩, 16⟩, ⟨⟨500, 32⟩, 16⟩] m' .U 5 1 = some n ∧
    (∀ c, c = .R ∨ c = .G ∨ c = .B → 0 ≤ l c 5 1) ∧
    (let v := idealCodes (0.2126, 0.7152, 0.0722) .I444 true (fun c x y => encodeTransfer (exactAr x) .BT2100PQ (l c x y)) .U 5 1
     0 ≤ v → v ≤ 255 → |(n : ℝ) - v| < 1.04) := by
  obtain ⟨scalar, ha⟩ := libm_exists
  obtain ⟨m', r⟩ := run_exists (c := Platform.avx2.real scalar) (platform_lawful .avx2 _ _)
    (src := .raw .I444 16 2 [⟨⟨0, 32⟩, 16⟩, ⟨⟨100, 32⟩, 16⟩, ⟨⟨200, 32⟩, 16⟩] (.YUV ⟨.Linear, .BT709, .BT601, true⟩))
    (dst := .raw .I444 16 2 [⟨⟨300, 32⟩, 16⟩, ⟨⟨400, 32⟩, 16⟩, ⟨⟨500, 32⟩, 16⟩] (.YUV ⟨.BT2100PQ, .BT709, .BT709, true⟩))
    (sps := [⟨⟨0, 32⟩, 16⟩, ⟨⟨100, 32⟩, 16⟩, ⟨⟨200, 32⟩, 16⟩]) (dps := [⟨⟨300, 32⟩, 16⟩, ⟨⟨400, 32⟩, 16⟩, ⟨⟨500, 32⟩, 16⟩]) rfl rfl
    (planesDisjoint_of (by decide)) (separate_of (by decide)) (uniform_of (by decide)) (by decide) m
  obtain ⟨n, l, h1, h2, h3⟩ := C53_light_yuv_partial r ha rfl rfl rfl rfl (by decide) (by decide) (.inl rfl) (.inr rfl)
    (k := (0.299, 0.587, 0.114)) (k' := (0.2126, 0.7152, 0.0722)) rfl rfl (c := .U) (by simp) (x := 5) (y := 1) (by decide) (by decide)
    (fun c x y l _ _ _ => shown_le rfl _ _ c x y) (fun _ _ _ _ _ => nofun) (fun h => absurd rfl h) (by simp)
  refine ⟨m', n, l, h1, fun c hc => (h2 c hc 5 1 (by decide) (by decide) ⟨rfl, rfl⟩).1, fun h4 h5 => ?_⟩
  refine (h3 h4 (h5.trans (by norm_num [Img.format, sampleBits])) (.inl rfl)).trans_le ?_
  norm_num [Img.format, sampleBits]

end Ezk.Props

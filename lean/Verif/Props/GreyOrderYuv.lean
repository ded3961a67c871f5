import Verif.Props.BlackWhiteYuv

/-!
# C75: a brighter grey does not become darker, in YUV
-/

namespace Ezk.Props
open Ezk Ezk.F32 Ezk.Spec

attribute [local instance] ratOps

variable {p : Platform} {scalar : Libm} {src dst : Img} {sps dps : List Plane} {m m' : Mem}

/-- The light of black after a change of primaries. -/
theorem black_mixed {ar : Arith F32} (hf : Floats ar) (s : ColorTransfer) (sp dp : ColorPrimaries) {c : Chan} (hc : c = .R ∨ c = .G ∨ c = .B) :
    let l := decodeTransfer ar s (ar.div (FOps.ofNat 0) (FOps.ofNat 255))
    ∃ U : ℚ, Is (component (rowMul ar (rowMul ar (l, l, l) sp.rgbToXyzMat) dp.xyzToRgbMat) c) U ∧
      Good (component (rowMul ar (rowMul ar (l, l, l) sp.rgbToXyzMat) dp.xyzToRgbMat) c) ∧ |(U : ℝ)| ≤ 1 / 10 ^ 9 := by
  intro l
  have he := exactAr_exact 0
  obtain ⟨q, hq, dq⟩ := (black_light he hf s).is
  rw [sub_zero] at dq
  obtain ⟨m1, m2, m3⟩ := mix_grey_app he hf.toIsIeee sp dp hq (S := 1 / 10 ^ 4) (le_refl _) (by norm_num) (dq.trans (by norm_num))
  have comp : App (component (rowMul ar (rowMul ar (l, l, l) sp.rgbToXyzMat) dp.xyzToRgbMat) c) q (35 / 10 ^ 7 * (1 / 10 ^ 4)) ∧
      Good (component (rowMul ar (rowMul ar (l, l, l) sp.rgbToXyzMat) dp.xyzToRgbMat) c) := by
    rcases hc with rfl | rfl | rfl
    · exact ⟨m1, good_dot hf.toIsIeee⟩
    · exact ⟨m2, good_dot hf.toIsIeee⟩
    · exact ⟨m3, good_dot hf.toIsIeee⟩
  obtain ⟨hu, hg⟩ := comp
  obtain ⟨U, hU, dU⟩ := hu.is
  refine ⟨U, hU, hg, ?_⟩
  have := abs_sub_abs_le_abs_sub (U : ℝ) q
  norm_num at dU dq ⊢; linarith

theorem good_512 : Good (fin false (1 / 1024) : F32) := by
  refine ⟨by norm_num, ?_, by norm_num⟩
  have : round false (1 / 1024) = fin false (1 / 1024) := by decide +kernel
  have h := good_round false (q := 1 / 1024) (by norm_num)
  rw [this] at h
  exact h.2.1

/-- The signal of black is below that of every other grey. -/
theorem black_order {w x : Nat} {ar' : Arith F32} (ha : scalar.Accurate) (hf' : Floats ar') {t : ColorTransfer}
    (hg : ¬ GammaTransfer t) (ht : t ≠ .BT2100PQ) {u v : F32} {U V : ℚ} (hU : Is u U) (gu : Good u) (hV : Is v V) (gv : Good v)
    (dU : |(U : ℝ)| ≤ 1 / 10 ^ 9) (h1 : 16 / 10 ^ 8 ≤ (V : ℝ)) (h2 : V ≤ 2) :
    Ord 4 (encodeTransfer (columnArith (p.real scalar) w x) t u) (encodeTransfer ar' t v) := by
  have hf := column_floats p ha w x
  have he := exactAr_exact x
  have d1 := (abs_le.mp dU).1
  have d2 := (abs_le.mp dU).2
  norm_num at d1 d2 h1
  have U1 : -1 / 1000 ≤ U := by
    have : ((-1 / 1000 : ℚ) : ℝ) ≤ U := by push_cast; linarith
    exact_mod_cast this
  have U2 : U ≤ 1 / 10 ^ 9 := by
    have : (U : ℝ) ≤ ((1 / 10 ^ 9 : ℚ) : ℝ) := by push_cast; linarith
    exact_mod_cast this
  have V1 : 16 / 10 ^ 8 ≤ V := by
    have : ((16 / 10 ^ 8 : ℚ) : ℝ) ≤ V := by push_cast; linarith
    exact_mod_cast this
  norm_num at U2 V1
  have cmp : ∀ b : ℚ, 2 / 1000 ≤ b → Compares (columnArith (p.real scalar) w x) U b := fun b hb =>
    (lt_or_ge U 0).elim (fun h => column_compares p (by linarith) fun _ => by rw [abs_of_neg h]; linarith)
      fun h => hf.compares h (by linarith)
  have small : ∀ {b : F32} {B : ℚ}, Is b B → U ≤ B → -1 / 1000 ≤ B → B ≤ 1 / 512 → Ord (1 / 512) u b := fun hb h1 h2 h3 =>
    ⟨_, _, hU, hb, abs_le.mpr ⟨by linarith, by linarith⟩, abs_le.mpr ⟨by linarith, by linarith⟩, h1⟩
  -- it is enough to look at dark greys
  have red : (∀ {ar' : Arith F32} {v : F32} {V : ℚ}, Floats ar' → Is v V → 16 / 10 ^ 8 ≤ V → V ≤ 1 / 512 →
      Ord 4 (encodeTransfer (columnArith (p.real scalar) w x) t u) (encodeTransfer ar' t v)) →
      Ord 4 (encodeTransfer (columnArith (p.real scalar) w x) t u) (encodeTransfer ar' t v) := by
    intro h
    rcases le_or_gt V (1 / 512) with h3 | h3
    · exact h hf' hV (by norm_num; linarith) h3
    · have hk : Is (fin false (1 / 1024) : F32) (1 / 1024) := ⟨false, _, rfl, by norm_num, rfl⟩
      obtain ⟨a, b, ha, hb, a1, b1, hab⟩ := h hf' hk (by norm_num) (by norm_num)
      have V3 : (1 / 512 : ℝ) < V := by
        have : ((1 / 512 : ℚ) : ℝ) < V := by exact_mod_cast h3
        push_cast at this; exact this
      have V4 : (V : ℝ) ≤ 2 := by exact_mod_cast h2
      obtain ⟨a', b', ha', hb', a1', b1', hab'⟩ := order_encode hf' hf' (X := 1 / 1024) hk good_512 hV gv
        ⟨by push_cast; norm_num, by push_cast; linarith, by linarith, fun _ => by push_cast; linarith⟩ h2 ht
      obtain rfl := hb.unique ha'
      exact ⟨a, b', ha, hb', a1, b1', hab.trans hab'⟩
  cases t with
  | Linear =>
    exact ⟨U, V, hU, hV, abs_le.mpr ⟨by linarith, by linarith⟩, abs_le.mpr ⟨by linarith, by linarith⟩, by linarith⟩
  | Gamma22 => exact absurd (.inl rfl) hg
  | Gamma28 => exact absurd (.inr rfl) hg
  | SRGB =>
    refine red fun hf' hV h3 h4 => ?_
    norm_num at h3
    simp only [encodeTransfer]
    rw [(cmp _ (by norm_num) hU is_srgb_enc).2, if_pos (decide_eq_true (by linarith)), hf.mul,
      (hf'.compares (by linarith) (by norm_num) hV is_srgb_enc).2, if_pos (decide_eq_true (by linarith)), hf'.mul]
    exact (ord_mul (K := 13) (C := 1) (small hV (by linarith) (by linarith) h4) is_1292 (by norm_num) (by norm_num) (by norm_num) (by norm_num)
      (by norm_num)).mono (by norm_num)
  | SDR =>
    refine red fun hf' hV h3 h4 => ?_
    norm_num at h3
    simp only [encodeTransfer]
    rw [(cmp _ (by norm_num) hU is_sdr_enc).1, if_pos (decide_eq_true (by linarith)), hf.mul,
      (hf'.compares (by linarith) (by norm_num) hV is_sdr_enc).1, if_pos (decide_eq_true (by linarith)), hf'.mul,
      fmul_comm is_45 hU, fmul_comm is_45 hV]
    exact (ord_mul (K := 13) (C := 1) (small hV (by linarith) (by linarith) h4) is_45 (by norm_num) (by norm_num) (by norm_num) (by norm_num)
      (by norm_num)).mono (by norm_num)
  | BT2100PQ => exact absurd rfl ht
  | BT2100HLG =>
    have hh : HdrTransfer .BT2100HLG := by simp [HdrTransfer]
    obtain ⟨a, -⟩ := enc_steep_app he hf (.inl hh) hU gu (fun _ => by linarith) (by linarith)
    obtain ⟨b, b10⟩ := enc_steep_app he hf' (.inl hh) hV gv (fun _ => h2) (by linarith)
    have V4 : (V : ℝ) ≤ 2 := by exact_mod_cast h2
    rw [max_eq_right (by linarith)] at b b10
    have s1 : √(1 / 10 ^ 9 * 3 : ℝ) ≤ 9 / 10 ^ 5 := Real.sqrt_le_iff.mpr ⟨by norm_num, by norm_num⟩
    have s2 : (65 / 10 ^ 5 : ℝ) ≤ √(16 / 10 ^ 8 * 3) := Real.le_sqrt_of_sq_le (by norm_num)
    have l1 : encodeTransfer (exactAr x) .BT2100HLG (1 / 10 ^ 9) = √(1 / 10 ^ 9 * 3) := by
      rw [enc_hlg he, max_eq_left (by norm_num), if_pos (by norm_num)]
    have l2 : encodeTransfer (exactAr x) .BT2100HLG (16 / 10 ^ 8) = √(16 / 10 ^ 8 * 3) := by
      rw [enc_hlg he, max_eq_left (by norm_num), if_pos (by norm_num)]
    have l3 : encodeTransfer (exactAr x) .BT2100HLG 2 ≤ 2 := by
      rw [enc_hlg he, max_eq_left (by norm_num), if_neg (by norm_num)]
      have h2 : Real.log (12 * 2 - 0.28466892) ≤ Real.log (2 ^ 5) := Real.log_le_log (by norm_num) (by norm_num)
      rw [Real.log_pow] at h2
      have h3 := Real.log_two_lt_d9
      push_cast at h2
      norm_num at h2 ⊢
      linarith
    have z : encodeTransfer (exactAr x) .BT2100HLG 0 = 0 := by rw [enc_hlg he]; norm_num
    have e1 := enc_hlg_mono he (show max 0 (U : ℝ) ≤ 1 / 10 ^ 9 from max_le (by norm_num) (by norm_num; linarith))
    have e0 := enc_hlg_mono he (le_max_left 0 (U : ℝ))
    have e2 := enc_hlg_mono he (show (16 / 10 ^ 8 : ℝ) ≤ V by norm_num; linarith)
    have e3 := enc_hlg_mono he V4
    rw [l1] at e1
    rw [z] at e0
    rw [l2] at e2
    generalize encodeTransfer (exactAr x) .BT2100HLG (max 0 (U : ℝ)) = A at *
    generalize encodeTransfer (exactAr x) .BT2100HLG (V : ℝ) = B at *
    generalize √(1 / 10 ^ 9 * 3 : ℝ) = S at *
    generalize √(16 / 10 ^ 8 * 3 : ℝ) = S' at *
    refine ord_of_app a b ?_ (by linarith) (by linarith) (by norm_num)
    norm_num at s1 s2 e1 e2 ⊢; linarith

/-- The light of a grey after a change of primaries. -/
theorem grey_mixed_light {f : Nat → Arith F32 → F32} {lo hi : Nat} (hramp : Ramp f lo hi) (ha : scalar.Accurate) {s : ColorTransfer} (hs : s ≠ .BT2100PQ) (sp dp : ColorPrimaries) (w x : Nat) {n : Nat}
    (h1 : lo < n) (h255 : n ≤ hi) {c : Chan} (hc : c = .R ∨ c = .G ∨ c = .B) :
    let ar := columnArith (p.real scalar) w x
    let l := decodeTransfer ar s (f n ar)
    ∃ X : ℚ, Is (component (rowMul ar (rowMul ar (l, l, l) sp.rgbToXyzMat) dp.xyzToRgbMat) c) X ∧
      Good (component (rowMul ar (rowMul ar (l, l, l) sp.rgbToXyzMat) dp.xyzToRgbMat) c) ∧ 16 / 10 ^ 8 ≤ (X : ℝ) ∧ X ≤ 2 := by
  intro ar l
  have hf : Floats ar := column_floats p ha w x
  obtain ⟨q, hq, b1, top⟩ := hramp.light hf s h1 h255
  replace top := top hs
  norm_num at b1
  have q0 : (0 : ℝ) ≤ q := by linarith
  have q1 : (q : ℝ) ≤ ((10016 : ℚ) : ℝ) := by push_cast; linarith
  obtain ⟨X, hX, hg, dX⟩ := grey_mixed hf.toIsIeee sp dp hq (by exact_mod_cast q0) (by exact_mod_cast q1) hc
  have h4 := (abs_le.mp dX).2
  have h5 := (abs_le.mp dX).1
  have h6 : max (1 / 10 ^ 4) (q : ℝ) ≤ 1 / 10 ^ 4 + q := max_le (by linarith) (by linarith)
  generalize max (1 / 10 ^ 4) (q : ℝ) = M at *
  norm_num at h4 h5 h6
  have h2 : (X : ℝ) ≤ ((2 : ℚ) : ℝ) := by push_cast; linarith
  exact ⟨X, hX, hg, by norm_num; linarith, by exact_mod_cast h2⟩

/-- The signals of two greys are in the order of their lights. -/
theorem grey_signal_order {f : Nat → Arith F32 → F32} {lo hi : Nat} (hramp : Ramp f lo hi) (ha : scalar.Accurate) {s t : ColorTransfer} (hs : s ≠ .BT2100PQ) (ht : t ≠ .BT2100PQ) (sp dp : ColorPrimaries)
    (w x x' : Nat) {n n' : Nat} (hg : GammaTransfer t → lo < n) (h0 : lo ≤ n) (hlt : n < n') (h255 : n' ≤ hi) {c : Chan} (hc : c = .R ∨ c = .G ∨ c = .B) :
    let ar := columnArith (p.real scalar) w x
    let ar' := columnArith (p.real scalar) w x'
    let l := decodeTransfer ar s (f n ar)
    let l' := decodeTransfer ar' s (f n' ar')
    Ord 4 (encodeTransfer ar t (component (rowMul ar (rowMul ar (l, l, l) sp.rgbToXyzMat) dp.xyzToRgbMat) c))
      (encodeTransfer ar' t (component (rowMul ar' (rowMul ar' (l', l', l') sp.rgbToXyzMat) dp.xyzToRgbMat) c)) := by
  intro ar ar' l l'
  have hf : Floats ar := column_floats p ha w x
  have hf' : Floats ar' := column_floats p ha w x'
  obtain ⟨X', hX', hg', a1, a2⟩ := grey_mixed_light (p := p) hramp ha hs sp dp w x' (n := n') (by omega) h255 hc
  rcases Nat.eq_or_lt_of_le h0 with rfl | h1
  · have hl : l = decodeTransfer ar s (ar.div (FOps.ofNat 0) (FOps.ofNat 255)) := by rw [← hramp.black hf]
    obtain ⟨U, hU, gU, dU⟩ := black_mixed hf s sp dp hc
    rw [hl]
    exact black_order ha hf' (fun h => by have := hg h; omega) ht hU gU hX' hg' dU a1 a2
  · obtain ⟨q, q', hq, hq', hb⟩ := hramp.lights hf hf' s h1 hlt h255
    have b1 := hb.1
    have b2 := hb.2.1
    have b3 : (q' : ℝ) ≤ 10016 := hb.2.2.1
    norm_num at b1 b2
    have q0 : (0 : ℝ) ≤ q := by linarith
    have q0' : (0 : ℝ) ≤ q' := by linarith
    have q1 : (q : ℝ) ≤ 10016 := by linarith
    obtain ⟨X, hX, hg, dX⟩ := grey_mixed hf.toIsIeee sp dp hq (by exact_mod_cast q0) (by exact_mod_cast q1) hc
    obtain ⟨X2, hX2, -, dX'⟩ := grey_mixed hf'.toIsIeee sp dp hq' (by exact_mod_cast q0') (by exact_mod_cast b3) hc
    obtain rfl := hX'.unique hX2
    exact order_encode hf hf' hX hg hX' hg' (hb.mix dX dX') a2 ht

/-- The range of the signals of greys. -/
theorem grey_signal_range {f : Nat → Arith F32 → F32} {lo hi : Nat} (hramp : Ramp f lo hi) (ha : scalar.Accurate) {s t : ColorTransfer} (hs : s ≠ .BT2100PQ) (ht : t ≠ .BT2100PQ) (sp dp : ColorPrimaries)
    (w x : Nat) {n : Nat} (hg : GammaTransfer t → lo < n) (hlo : lo ≤ n) (h255 : n ≤ hi) {c : Chan} (hc : c = .R ∨ c = .G ∨ c = .B) :
    let ar := columnArith (p.real scalar) w x
    let l := decodeTransfer ar s (f n ar)
    ∃ v : ℚ, Is (encodeTransfer ar t (component (rowMul ar (rowMul ar (l, l, l) sp.rgbToXyzMat) dp.xyzToRgbMat) c)) v ∧
      -1 / 16384 ≤ v ∧ v ≤ 4103 / 4096 := by
  intro ar l
  have hf : Floats ar := column_floats p ha w x
  have cast : ∀ {v : ℚ}, -1 / 16384 ≤ (v : ℝ) → (v : ℝ) ≤ 4103 / 4096 → -1 / 16384 ≤ v ∧ v ≤ 4103 / 4096 := by
    intro v h0 h1
    have w0 : ((-1 / 16384 : ℚ) : ℝ) ≤ v := by push_cast; exact h0
    have w1 : (v : ℝ) ≤ ((4103 / 4096 : ℚ) : ℝ) := by push_cast; exact h1
    exact ⟨by exact_mod_cast w0, by exact_mod_cast w1⟩
  rcases Nat.eq_or_lt_of_le hlo with rfl | h1
  · have hl : l = decodeTransfer ar s (ar.div (FOps.ofNat 0) (FOps.ofNat 255)) := by rw [← hramp.black hf]
    rw [hl]
    obtain ⟨v, hv, v0, v1⟩ := black_signal (p := p) ha s (fun h => by have := hg h; omega) sp dp w x hc
    exact ⟨v, hv, cast v0 (by linarith)⟩
  have up : ∃ v : ℚ, Is (encodeTransfer ar t (component (rowMul ar (rowMul ar (l, l, l) sp.rgbToXyzMat) dp.xyzToRgbMat) c)) v ∧
      (v : ℝ) ≤ 4103 / 4096 := by
    obtain ⟨v', hv', -, v1'⟩ := white_signal (p := p) ha hs ht sp dp w x hc
    rw [← hramp.white hf] at hv'
    rcases Nat.lt_or_ge n hi with h | h
    · obtain ⟨a, b, ia, ib, -, -, hab⟩ := grey_signal_order (p := p) hramp ha hs ht sp dp w x x hg hlo h (le_refl _) hc
      obtain rfl := ib.unique hv'
      have : (a : ℝ) ≤ b := by exact_mod_cast hab
      exact ⟨a, ia, this.trans v1'⟩
    · obtain rfl : n = hi := by omega
      exact ⟨v', hv', v1'⟩
  obtain ⟨v, hv, v1⟩ := up
  refine ⟨v, hv, cast ?_ v1⟩
  by_cases hgam : GammaTransfer t
  · obtain ⟨X, hX, gX, x0, x1⟩ := grey_mixed_light (p := p) hramp ha hs sp dp w x h1 h255 hc
    have x0' : (0 : ℝ) ≤ X := by norm_num at x0; linarith
    obtain ⟨a, -⟩ := enc_steep_app (exactAr_exact x) hf (.inr ⟨hgam, by exact_mod_cast x0'⟩) hX gX (fun _ => x1) (by linarith)
    obtain ⟨v2, hv2, dv⟩ := a.is
    obtain rfl := hv.unique hv2
    have pos : 0 ≤ encodeTransfer (exactAr x) t (max 0 (X : ℝ)) := by
      rcases hgam with rfl | rfl
      · rw [enc_gamma22 (exactAr_exact x)]; exact Real.rpow_nonneg (le_max_left _ _) _
      · rw [enc_gamma28 (exactAr_exact x)]; exact Real.rpow_nonneg (le_max_left _ _) _
    have := (abs_le.mp dv).1
    norm_num at this ⊢; linarith
  · obtain ⟨v0, hv0, l0, -⟩ := black_signal (p := p) ha s hgam sp dp w x hc
    rw [← hramp.black hf] at hv0
    obtain ⟨a, b, ia, ib, -, -, hab⟩ := grey_signal_order (p := p) hramp ha hs ht sp dp w x x (n := lo) (n' := n) (fun h => absurd h hgam) (le_refl _) h1 h255 hc
    obtain rfl := ib.unique hv
    obtain rfl := ia.unique hv0
    have : (a : ℝ) ≤ b := by exact_mod_cast hab
    exact l0.trans this

/-- Signals of greys give lumas every format can store. -/
theorem luma_storable {ar : Arith F32} (hi : IsIeee ar) {j : YuvColorInfo} (hm : isMatrix j.space = true)
    (f : PixelFormat) {u : C3 F32} {a : ℚ}
    (h1 : ∃ q, Is u.1 q ∧ -1 / 16384 ≤ q ∧ q ≤ 4103 / 4096) (h2 : ∃ q, Is u.2.1 q ∧ -1 / 16384 ≤ q ∧ q ≤ 4103 / 4096)
    (h3 : ∃ q, Is u.2.2 q ∧ -1 / 16384 ≤ q ∧ q ≤ 4103 / 4096)
    (ha : Is (ar.mul (compressLuma ar j.fullRange (rgbToYuv ar j.space j.transfer j.primaries u).1) (maxSample f)) a) :
    Storable (yuvStore f) a := by
  have ends : ∀ {v : F32}, (∃ q, Is v q ∧ -1 / 16384 ≤ q ∧ q ≤ 4103 / 4096) →
      Ord 64 (fin true (1 / 16384)) v ∧ Ord 64 v (fin false (4103 / 4096)) := by
    rintro v ⟨q, hq, q0, q1⟩
    exact ⟨⟨-(1 / 16384), q, ⟨true, _, rfl, by norm_num, rfl⟩, hq, by norm_num, abs_le.mpr ⟨by linarith, by linarith⟩, by linarith⟩,
      ⟨q, 4103 / 4096, hq, ⟨false, _, rfl, by norm_num, rfl⟩, abs_le.mpr ⟨by linarith, by linarith⟩, by norm_num, q1⟩⟩
  obtain ⟨lo, b, hi', ilo, hb0, hb1, ihi, ib⟩ := luma_between hi hm f (u := u) ⟨(ends h1).1, (ends h2).1, (ends h3).1⟩
    ⟨(ends h1).2, (ends h2).2, (ends h3).2⟩
  obtain rfl := ha.unique ib
  obtain ⟨q, hq, q0, -⟩ := is_between (black_ends hm f j.fullRange).1
  obtain rfl := ilo.unique hq
  have up : hi' ≤ (255 + 45 / 100) / 255 * ((2 ^ sampleBits f - 1 : Nat) : ℚ) := by
    have M0 : (0 : ℚ) ≤ ((2 ^ sampleBits f - 1 : Nat) : ℚ) := by positivity
    have wc : (whiteCode j.fullRange : ℚ) ≤ 255 := by unfold whiteCode; split <;> norm_num
    have std : j.space = .BT601 ∨ j.space = .BT709 → hi' ≤ (255 + 45 / 100) / 255 * ((2 ^ sampleBits f - 1 : Nat) : ℚ) := by
      intro h
      obtain ⟨q, hq, -, q1⟩ := is_between (white_ends h f j.fullRange).2
      obtain rfl := ihi.unique hq
      exact q1.trans (mul_le_mul_of_nonneg_right (by linarith) M0)
    cases hcs : j.space with
    | BT601 => exact std (.inl hcs)
    | BT709 => exact std (.inr hcs)
    | BT2020 =>
      rw [hcs] at ihi
      obtain ⟨q, hq, -, q1⟩ := is_between (bt2020_ends f j.fullRange).2
      obtain rfl := ihi.unique hq
      exact q1.trans (mul_le_mul_of_nonneg_right (by norm_num) M0)
    | _ => rw [hcs] at hm; cases hm
  left
  obtain ⟨t1, t2, M1, M2⟩ := yuv_top (f := f)
  have M2q : ((2 ^ sampleBits f - 1 : Nat) : ℚ) ≤ 4095 := by exact_mod_cast M2
  have M1q : (255 : ℚ) ≤ ((2 ^ sampleBits f - 1 : Nat) : ℚ) := by exact_mod_cast M1
  have bc : (0 : ℚ) ≤ blackCode j.fullRange := by positivity
  constructor
  · refine le_trans ?_ (q0.trans hb0)
    have : (0 - 2 / 100) / 255 * ((2 ^ sampleBits f - 1 : Nat) : ℚ) ≤
        ((blackCode j.fullRange : ℚ) - 2 / 100) / 255 * ((2 ^ sampleBits f - 1 : Nat) : ℚ) :=
      mul_le_mul_of_nonneg_right (by linarith) (by linarith)
    linarith
  · refine lt_of_le_of_lt (hb1.trans up) ?_
    by_cases h8 : sampleBits f = 8
    · have := depth_255 h8
      rw [this] at t1 ⊢
      push_cast at t1 ⊢; linarith
    · have := t2 h8
      have t2q : ((2 ^ sampleBits f - 1 : Nat) : ℚ) + 1000 ≤ ((yuvStore f).top : ℚ) := by exact_mod_cast this
      generalize ((2 ^ sampleBits f - 1 : Nat) : ℚ) = M at *
      linarith

/-- Lumas of two greys of a ramp are in the order of the greys. -/
theorem luma_order {f : Nat → Arith F32 → F32} {lo hi : Nat} (hramp : Ramp f lo hi)
    (r : Run (p.real scalar) src dst sps dps m m') (ha : scalar.Accurate)
    (hd : isYuv dst.format = true) {j : YuvColorInfo} (hj : dst.color = .YUV j) (hm : isMatrix j.space = true)
    (hne : ¬ (src.color.transfer = dst.color.transfer ∧ src.color.primaries = dst.color.primaries))
    (hst : src.color.transfer ≠ .BT2100PQ) (hdt : j.transfer ≠ .BT2100PQ)
    {x y x' y' n n' : Nat} (hx : x < dst.width) (hy : y < dst.height) (hx' : x' < dst.width)
    (hy' : y' < dst.height) (ht : Truncates p dst.width x' → Truncates p dst.width x)
    (hn : ∀ c, c = .R ∨ c = .G ∨ c = .B → readPic (columnArith (p.real scalar) dst.width) src.format src.color (shown src.format sps m) c x y =
      f n (columnArith (p.real scalar) dst.width x))
    (hn' : ∀ c, c = .R ∨ c = .G ∨ c = .B → readPic (columnArith (p.real scalar) dst.width) src.format src.color (shown src.format sps m) c x' y' =
      f n' (columnArith (p.real scalar) dst.width x')) (hg : GammaTransfer j.transfer → lo < n) (hlo : lo ≤ n) (hlt : n < n') (hhi : n' ≤ hi) :
    ∃ k k', sample dst.format dps m' .Y x y = some k ∧ sample dst.format dps m' .Y x' y' = some k' ∧ k ≤ k' := by
  have hjt : dst.color.transfer = j.transfer := by rw [hj]; rfl
  refine ⟨_, _, to_yuv_pick r hd hj hm hne (c := .Y) (by simp) hx hy, to_yuv_pick r hd hj hm hne (c := .Y) (by simp) hx' hy', ?_⟩
  have hf := column_floats p ha dst.width x
  have hf' := column_floats p ha dst.width x'
  have sig := fun c hc => grey_signal_range (p := p) hramp ha hst hdt src.color.primaries dst.color.primaries dst.width x hg hlo (by omega) (c := c) hc
  have sig' := fun c hc => grey_signal_range (p := p) hramp ha hst hdt src.color.primaries dst.color.primaries dst.width x' (n := n')
    (fun _ => by omega) (by omega) hhi (c := c) hc
  have comp := fun c hc => grey_signal_order (p := p) hramp ha hst hdt src.color.primaries dst.color.primaries dst.width x x' hg hlo hlt hhi (c := c) hc
  simp only [encode, yuvAt, changeColor]
  rw [hn .R (by simp), hn .G (by simp), hn .B (by simp), hn' .R (by simp), hn' .G (by simp), hn' .B (by simp), hjt]
  simp only [changeRgb, map3]
  dsimp only at sig sig' comp
  generalize decodeTransfer (columnArith (p.real scalar) dst.width x) src.color.transfer
    (f n (columnArith (p.real scalar) dst.width x)) = l at *
  generalize decodeTransfer (columnArith (p.real scalar) dst.width x') src.color.transfer
    (f n' (columnArith (p.real scalar) dst.width x')) = l' at *
  have hM : 255 ≤ 2 ^ sampleBits dst.format - 1 ∧ 2 ^ sampleBits dst.format - 1 ≤ 4095 := by
    cases dst.format <;> simp [sampleBits]
  have hmax : Is (maxSample dst.format : F32) ((2 ^ sampleBits dst.format - 1 : Nat) : ℚ) :=
    ⟨false, _, ofNat_eq (by omega), by positivity, by simp [signed]⟩
  have hl := ord_compressLuma hf.toIsIeee hf'.toIsIeee j.fullRange (ord_luma hf.toIsIeee hf'.toIsIeee hm j.transfer j.primaries
    (q := (_, _, _)) (q' := (_, _, _)) ((comp .R (by simp)).mono (by norm_num)) ((comp .G (by simp)).mono (by norm_num))
    ((comp .B (by simp)).mono (by norm_num)))
  have hscale := ord_mul (K := 4095) (C := 2 * (8192 * 4095)) hl hmax (by positivity) (by exact_mod_cast hM.2) (by norm_num) (by norm_num)
    (by norm_num)
  obtain ⟨a, b, ia, ib, -, -, hab⟩ := hscale
  rw [← hf.mul] at ia
  rw [← hf'.mul] at ib
  exact stored_mono ht _ _ _ _ _ ia ib
    (luma_storable hf.toIsIeee hm dst.format (u := (_, _, _)) (sig .R (by simp)) (sig .G (by simp)) (sig .B (by simp)) ia)
    (luma_storable hf'.toIsIeee hm dst.format (u := (_, _, _)) (sig' .R (by simp)) (sig' .G (by simp)) (sig' .B (by simp)) ib) hab

/-- **C75** for YUV destinations (partial: neither the source nor the destination in PQ; black pixels are left out in gamma destinations,
in which black is not a number, see `C50_gamma_yuv_black`; without a change of transfer function or primaries see `C57_luma_partial`).
Of two grey pixels of an RGB image the brighter one does not get the lower luma code, whatever the two columns, unless it is in a
column whose stores truncate and the other in one whose stores round. -/
theorem C75_luma_partial (r : Run (p.real scalar) src dst sps dps m m') (ha : scalar.Accurate) (hs : isYuv src.format = false)
    (hd : isYuv dst.format = true) {j : YuvColorInfo} (hj : dst.color = .YUV j) (hm : isMatrix j.space = true)
    (hne : ¬ (src.color.transfer = dst.color.transfer ∧ src.color.primaries = dst.color.primaries))
    (hst : src.color.transfer ≠ .BT2100PQ) (hdt : j.transfer ≠ .BT2100PQ)
    {x y x' y' n n' : Nat} (hx : x < dst.width) (hy : y < dst.height) (hx' : x' < dst.width)
    (hy' : y' < dst.height) (ht : Truncates p dst.width x' → Truncates p dst.width x)
    (hn : ∀ c, c = .R ∨ c = .G ∨ c = .B → sample src.format sps m c x y = some n)
    (hn' : ∀ c, c = .R ∨ c = .G ∨ c = .B → sample src.format sps m c x' y' = some n') (hg : GammaTransfer j.transfer → 1 ≤ n)
    (hlt : n < n') : ∃ k k', sample dst.format dps m' .Y x y = some k ∧ sample dst.format dps m' .Y x' y' = some k' ∧ k ≤ k' := by
  have h255 : n' ≤ 255 := by
    have := shown_le (rgb8 hs).1 sps m .R x' y'
    rw [shown, hn' .R (by simp)] at this
    exact this
  exact luma_order ramp_rgb r ha hd hj hm hne hst hdt hx hy hx' hy' ht (fun c hc => grey_read hs hn hc) (fun c hc => grey_read hs hn' hc) hg
    (Nat.zero_le n) hlt h255

/-- A ramp of greys in sRGB made an HLG image in 4:2:0 by AVX2, at black and in the middle, in full and in limited range. -/
example (full : Bool) {n : Nat} (hn : n = 0 ∨ n = 8) : ∃ (scalar : Libm) (mo : Mem) (k k' : Nat), scalar.Accurate ∧
    sample .I420 [⟨⟨400, 64⟩, 32⟩, ⟨⟨500, 16⟩, 16⟩, ⟨⟨600, 16⟩, 16⟩] mo .Y n 0 = some k ∧
    sample .I420 [⟨⟨400, 64⟩, 32⟩, ⟨⟨500, 16⟩, 16⟩, ⟨⟨600, 16⟩, 16⟩] mo .Y (n + 1) 0 = some k' ∧ k ≤ k' := by
  obtain ⟨scalar, ha⟩ := libm_exists
  obtain ⟨mo, r⟩ := run_exists (c := Platform.avx2.real scalar) (platform_lawful .avx2 _ _)
    (src := .raw .RGB 32 2 [⟨⟨0, 200⟩, 96⟩] (.RGB ⟨.SRGB, .BT709⟩))
    (dst := .raw .I420 32 2 [⟨⟨400, 64⟩, 32⟩, ⟨⟨500, 16⟩, 16⟩, ⟨⟨600, 16⟩, 16⟩] (.YUV ⟨.BT2100HLG, .BT2020, .BT2020, full⟩))
    (sps := [⟨⟨0, 200⟩, 96⟩]) (dps := [⟨⟨400, 64⟩, 32⟩, ⟨⟨500, 16⟩, 16⟩, ⟨⟨600, 16⟩, 16⟩]) rfl rfl
    (planesDisjoint_of (by decide)) (separate_of (by decide)) (uniform_of (by decide)) (by cases full <;> decide) fun a => UInt8.ofNat (a / 3)
  obtain ⟨k, k', h⟩ := C75_luma_partial r ha rfl rfl rfl rfl (by simp [Img.color, ColorInfo.transfer]) nofun nofun
    (x := n) (y := 0) (x' := n + 1) (y' := 0) (n := n) (n' := n + 1) (by change n < 32; omega) (by change 0 < 2; omega) (by change n + 1 < 32; omega)
    (by change 0 < 2; omega) (by
      rintro (h | h | h)
      · cases h
      · cases h
      · rcases hn with rfl | rfl <;> cases full <;> exact absurd (by decide) h)
    (by rcases hn with rfl | rfl <;> rintro c (rfl | rfl | rfl) <;> decide +kernel)
    (by rcases hn with rfl | rfl <;> rintro c (rfl | rfl | rfl) <;> decide +kernel) (by simp [GammaTransfer]) (by omega)
  exact ⟨scalar, mo, k, k', ha, h⟩

end Ezk.Props

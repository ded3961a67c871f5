import Verif.Proofs.Grey
import Verif.Proofs.IctcpReal
import Verif.Props.Change
import Verif.Props.Nearest

/-!
# C62: greys stay grey when the transfer function or the primaries change

All primaries of the crate share one white, so light of equal components has equal components in every set of primaries.
-/

namespace Ezk.Props
open Ezk F32 Spec

variable {p : Platform} {scalar : Libm} {src dst : Img} {sps dps : List Plane} {m m' : Mem}

/-- `n` is the code of the signal `C`: the nearest where stores round, the one below where they truncate; `e` is the error of
the signal. -/
def CodeOf (p : Platform) (w x : Nat) (e : ℝ) (n : Nat) (C : ℝ) : Prop :=
  (¬ Truncates p w x → |(n : ℝ) - C| ≤ 1 / 2 + e) ∧ (Truncates p w x → (n : ℝ) ≤ C + e ∧ C - e < n + 1)

/-- Codes of close signals are close. -/
theorem CodeOf.close {w x : Nat} {e : ℝ} {a b : Nat} {A B : ℝ} (ha : CodeOf p w x e a A) (hb : CodeOf p w x e b B)
    (h : A - B + 2 * e < 1) : a ≤ b + 1 := by
  have : (a : ℝ) < ((b + 2 : Nat) : ℝ) := by
    push_cast
    by_cases ht : Truncates p w x
    · linarith [(ha.2 ht).1, (hb.2 ht).2]
    · linarith [(abs_le.mp (ha.1 ht)).2, (abs_le.mp (hb.1 ht)).1]
  have : a < b + 2 := by exact_mod_cast this
  omega

theorem codeOf_app {v : F32} {r e d : ℝ} (hv : App v r e) (h0 : -32767 < r - e) (h1 : r + e < 32767) (hd : e ≤ d) (simd scalar : Libm)
    (w x : Nat) : CodeOf p w x d (stored p simd scalar w x .interleaved8 v) (clamp255 r) := by
  refine ⟨fun ht => (stored_near_clamp ht hv h0 h1).trans (by linarith), fun ht => ?_⟩
  obtain ⟨a, b⟩ := stored_floor_clamp (p := p) (simd := simd) (scalar := scalar) ht hv hv.nonneg
  exact ⟨by linarith, by linarith⟩

/-- What is stored of an encoded signal. -/
theorem codeOf_encodes {rr : Arith ℝ} {t : ColorTransfer} {v : F32} {l : ℝ} (h : EncodesTo rr t v l) (p : Platform) (simd scalar : Libm)
    (w x : Nat) {f : PixelFormat} (hf : isYuv f = false) (hlin : t = .Linear → l ≤ 128 ∨ Truncates p w x) :
    CodeOf p w x (1 / 50) (stored p simd scalar w x .interleaved8 ((columnArith (p.ieee simd scalar) w x).mul v (maxSample f)))
      (clamp255 (encodeTransfer rr t l * 255)) := by
  have hi := column_ieee p simd scalar w x
  have herr2 : encodeError t ≤ 5 / 10 ^ 5 := by unfold encodeError; split <;> norm_num
  have max8 : (maxSample f : F32) = FOps.ofNat 255 := by rw [maxSample, (rgb8 hf).2]
  have zero : ∀ {s : Bool} {q : ℚ}, signed s q ≤ 0 → CodeOf p w x (1 / 50) (stored p simd scalar w x .interleaved8 (fin s q)) 0 := by
    intro s q hq
    have := stored_clamp p simd scalar w x (v := fin s q) rfl (by linarith)
    rw [max_eq_left ((min_le_right _ _).trans hq), sub_zero] at this
    have h4 := (abs_lt.mp this).2
    have h5 : stored p simd scalar w x .interleaved8 (fin s q) < 1 := by exact_mod_cast h4
    have h6 : stored p simd scalar w x .interleaved8 (fin s q) = 0 := by omega
    rw [h6]
    constructor <;> intro _ <;> norm_num
  rcases h with ⟨rfl, h0⟩ | ⟨r, ha, h1, h2, h3⟩ | ⟨q, hq, h1, h2, h0⟩ | ⟨q, hq, h1, h2, h3, h4, h5⟩
  · have e : F32.mul .nan (maxSample f) = .nan := rfl
    rw [hi.mul, e, stored_nan, h0, zero_mul, clamp_nonpos (le_refl _)]
    constructor <;> intro _ <;> norm_num
  · rw [← clamp_max, ← h3, clamp_max]
    rcases le_or_gt (-1) r with hr | hr
    · have hs := scale_app hi f ha (by rw [abs_le]; constructor <;> linarith) (herr2.trans (by norm_num))
      rw [(rgb8 hf).2] at hs
      norm_num at hs herr2
      have := ha.nonneg
      exact codeOf_app hs (by linarith) (by linarith) (by linarith) simd scalar w x
    · rw [hi.mul, max8]
      have hs := app_mul (B := 6000) (A := 20) (C := 255) ha (app_nat (n := 255) (by norm_num)) (by rw [abs_le]; constructor <;> linarith)
        (by norm_num) (by norm_num at herr2 ⊢; linarith) (by norm_num) (by norm_num)
      obtain ⟨s, q, e, -, hq⟩ := hs
      rw [abs_le] at hq
      have hq2 := hq.2
      norm_num at hq2 herr2
      have hneg : ((signed s q : ℚ) : ℝ) ≤ ((0 : ℚ) : ℝ) := by push_cast; linarith
      rw [e, clamp_nonpos (by linarith)]
      exact zero (by exact_mod_cast hneg)
  · rw [hi.mul, max8]
    have h1r : (q : ℝ) ≤ -1 := by exact_mod_cast h1
    have h2r : (-300000 : ℝ) ≤ q := by exact_mod_cast h2
    have hs := app_mul (B := 80000000) (A := 300000) (C := 255) hq.app (app_nat (n := 255) (by norm_num)) (by rw [abs_le]; constructor <;> linarith)
      (by norm_num) (by norm_num) (by norm_num) (by norm_num)
    obtain ⟨s, q, e, -, hq⟩ := hs
    rw [abs_le] at hq
    have hq2 := hq.2
    norm_num at hq2
    have hneg : ((signed s q : ℚ) : ℝ) ≤ ((0 : ℚ) : ℝ) := by push_cast; linarith
    rw [e, h0, zero_mul, clamp_nonpos (le_refl _)]
    exact zero (by exact_mod_cast hneg)
  · have top : clamp255 (encodeTransfer rr t l * 255) = 255 := by
      unfold clamp255
      rw [min_eq_left (by linarith), max_eq_right (by norm_num)]
    rw [top, hi.mul, max8]
    norm_num at herr2
    by_cases hbig : (q : ℝ) ≤ 128
    · have hs := app_mul (B := 40000) (A := 128) (C := 255) hq.app (app_nat (n := 255) (by norm_num)) (by
        rw [abs_of_nonneg (by linarith)]; exact hbig) (by norm_num) (by norm_num) (by norm_num) (by norm_num)
      norm_num at hs
      have c1 : clamp255 ((q : ℝ) * 255) ≤ 255 := by unfold clamp255; exact max_le (by norm_num) (min_le_left _ _)
      have c2 : 255 - 13 / 1000 ≤ clamp255 ((q : ℝ) * 255) := by
        unfold clamp255
        refine le_max_of_le_right (le_min ?_ ?_)
        · norm_num
        · linarith
      obtain ⟨a, b⟩ := codeOf_app (p := p) hs (by linarith) (by linarith) (le_refl _) simd scalar w x
      refine ⟨fun ht => ?_, fun ht => ?_⟩
      · have := abs_le.mp (a ht)
        rw [abs_le]
        norm_num at this c2 ⊢
        constructor <;> linarith [this.1, this.2]
      · have := b ht
        norm_num at this c2 ⊢
        constructor <;> linarith [this.1, this.2]
    · rw [not_le] at hbig
      have hl : t = .Linear := by
        by_contra h
        linarith [h3 h]
      have ht : Truncates p w x := (hlin hl).resolve_left (by rw [← h4 hl]; linarith)
      have hs := app_mul (B := 6000000) (A := 19900) (C := 255) hq.app (app_nat (n := 255) (by norm_num)) (by
        rw [abs_of_nonneg (by linarith)]; exact h2) (by norm_num) (by norm_num) (by norm_num) (by norm_num)
      obtain ⟨s, c, e, -, hc⟩ := hs
      rw [abs_le] at hc
      have hc1 := hc.1
      norm_num at hc1
      have h255 : ((255 : ℚ) : ℝ) ≤ ((signed s c : ℚ) : ℝ) := by push_cast; linarith
      have := (C34_truncating_saturates ht simd scalar .interleaved8).1 (fin s c) (signed s c) rfl (by
        rw [show (Store.interleaved8.top : ℚ) = 255 by norm_num [Store.top]]; exact_mod_cast h255)
      rw [e, this]
      refine ⟨fun h => absurd ht h, fun _ => ?_⟩
      norm_num [Store.top]

/-- Light above white has a signal of nearly 1 or more, except for PQ. -/
theorem enc_bright {rr : Arith ℝ} (he : Exact rr) {t : ColorTransfer} (ht : t ≠ .BT2100PQ) {a : ℝ} (h : 108 / 100 ≤ a) :
    999 / 1000 ≤ encodeTransfer rr t a := by
  by_cases hl : t = .BT2100HLG
  · subst hl
    rw [enc_hlg he, max_eq_left (by linarith), if_neg (by norm_num; linarith)]
    have hlog : 5 / 2 ≤ Real.log (12 * a - 0.28466892) := by
      rw [Real.le_log_iff_exp_le (by norm_num; linarith)]
      refine le_trans ?_ (show (1267 / 100 : ℝ) ≤ _ by norm_num; linarith)
      refine le_of_sq_le_sq (a := Real.exp (5 / 2)) ?_ (by norm_num)
      rw [← Real.exp_nat_mul, show ((2 : ℕ) : ℝ) * (5 / 2) = ((5 : ℕ) : ℝ) * 1 by norm_num, Real.exp_nat_mul]
      refine (pow_le_pow_left₀ (Real.exp_pos 1).le Real.exp_one_lt_d9.le 5).trans (by norm_num)
    norm_num at hlog ⊢
    linarith
  · have := enc_down he ht (a := 1) (b := a) (by norm_num) (by linarith)
    rw [enc_one he ht hl] at this
    norm_num at this ⊢
    linarith

/-- Two components as computed, both near the light `q` of a grey, are stored as codes that differ by at most one. -/
theorem grey_pair {rr : Arith ℝ} (he : Exact rr) {ar : Arith F32} (hf : Floats ar) (t : ColorTransfer) {q : ℚ} {S : ℝ} (hS1 : 1 / 10 ^ 4 ≤ S)
    (hS2 : S ≤ 10010) (hS : S = max (1 / 10 ^ 4) |(q : ℝ)|) (hq0 : -1 / 10 ^ 4 ≤ (q : ℝ)) {u v : F32} (hu : App u q (35 / 10 ^ 7 * S))
    (hv : App v q (35 / 10 ^ 7 * S)) (gu : Good u) (gv : Good v) :
    ∃ a b : ℝ, EncodesTo rr t (encodeTransfer ar t u) a ∧ EncodesTo rr t (encodeTransfer ar t v) b ∧
      (t = .Linear → (q : ℝ) ≤ 100 → a ≤ 128 ∧ b ≤ 128) ∧
      |clamp255 (encodeTransfer rr t a * 255) - clamp255 (encodeTransfer rr t b * 255)| ≤ 8 / 10 := by
  obtain ⟨U, hU, dU⟩ := hu.is
  obtain ⟨V, hV, dV⟩ := hv.is
  rw [abs_le] at dU dV
  have S0 : 0 < S := by norm_num at hS1; linarith
  have qS : |(q : ℝ)| ≤ S := hS ▸ le_max_right _ _
  have qS' := abs_le.mp qS
  have range : ∀ {X : ℚ}, -(35 / 10 ^ 7 * S) ≤ (X : ℝ) - q ∧ (X : ℝ) - q ≤ 35 / 10 ^ 7 * S → -19900 ≤ X ∧ X ≤ 19900 := by
    intro X h
    have h1 := h.1
    have h2 := h.2
    norm_num at h1 h2
    have X1 : ((-19900 : ℚ) : ℝ) ≤ X := by push_cast; linarith
    have X2 : (X : ℝ) ≤ ((19900 : ℚ) : ℝ) := by push_cast; linarith
    exact ⟨by exact_mod_cast X1, by exact_mod_cast X2⟩
  rcases le_or_gt (q : ℝ) (11 / 10) with h2 | h2
  · obtain ⟨a, a0, ha, ea⟩ := enc_any he hf t hU gu (range dU).1 (range dU).2
    obtain ⟨b, b0, hb, eb⟩ := enc_any he hf t hV gv (range dV).1 (range dV).2
    have hS2 : S ≤ 11 / 10 := by
      rw [hS]; refine max_le (by norm_num) (abs_le.mpr ⟨by norm_num at hq0; linarith, h2⟩)
    have hab : |max 0 (U : ℝ) - max 0 (V : ℝ)| ≤ |(U : ℝ) - V| := by
      rw [max_comm 0, max_comm 0]; exact abs_max_sub_max_le_abs _ _ 0
    have hab3 : |a - b| ≤ |(U : ℝ) - V| + 2 / 10 ^ 8 := by
      have h1 := abs_sub_le a (max 0 (U : ℝ)) b
      have h2 := abs_sub_le (max 0 (U : ℝ)) (max 0 (V : ℝ)) b
      have h3 := abs_sub_comm (max 0 (V : ℝ)) b
      norm_num at ha hb ⊢
      linarith
    have hUV : |(U : ℝ) - V| ≤ 70 / 10 ^ 7 * S := by
      rw [abs_le]; norm_num at dU dV ⊢; constructor <;> linarith [dU.1, dU.2, dV.1, dV.2]
    rw [abs_le] at ha hb
    have mU : max 0 (U : ℝ) ≤ 21 / 10 := max_le (by norm_num) (by have := dU.2; norm_num at this; linarith)
    have mV : max 0 (V : ℝ) ≤ 21 / 10 := max_le (by norm_num) (by have := dV.2; norm_num at this; linarith)
    norm_num at ha hb
    refine ⟨a, b, ea, eb, fun _ _ => ⟨by linarith [ha.2], by linarith [hb.2]⟩, ?_⟩
    refine (clamp_lipschitz _ _).trans ?_
    rw [← sub_mul, abs_mul, abs_of_pos (show (0 : ℝ) < 255 by norm_num)]
    have := enc_close_grey he t a0 b0 (by linarith [ha.2]) (by linarith [hb.2]) ?_
    · norm_num at this ⊢; linarith
    rcases le_or_gt |(q : ℝ)| (1 / 10 ^ 4) with hsm | hsm
    · left
      rw [max_eq_left hsm] at hS
      subst hS
      norm_num at hUV hab3 ⊢
      linarith
    · right
      have hpos : 1 / 10 ^ 4 < (q : ℝ) := by
        rcases lt_abs.mp hsm with h | h
        · exact h
        · norm_num at h hq0; linarith
      have q0 : 0 < (q : ℝ) := by norm_num at hpos; linarith
      have hS' : S = q := by rw [hS, abs_of_pos q0, max_eq_right hpos.le]
      have u0 := le_max_right 0 (U : ℝ)
      have v0 := le_max_right 0 (V : ℝ)
      have dU1 := dU.1
      have dV1 := dV.1
      rw [hS'] at dU1 dV1
      norm_num at dU1 dV1 hpos hUV hab3 ⊢
      exact ⟨⟨by linarith [ha.1], by linarith [hb.1]⟩, by linarith⟩
  · have q0 : 0 < (q : ℝ) := by linarith
    have hS' : S = q := by rw [hS, abs_of_pos q0, max_eq_right (by norm_num; linarith)]
    rw [hS'] at dU dV
    have lo : ∀ {X : ℚ}, -(35 / 10 ^ 7 * (q : ℝ)) ≤ (X : ℝ) - q → 0 < (X : ℝ) ∧ 109 / 100 ≤ (X : ℝ) := by
      intro X h
      norm_num at h
      constructor <;> linarith
    obtain ⟨U0, U1⟩ := lo dU.1
    obtain ⟨V0, V1⟩ := lo dV.1
    by_cases ht : t = .BT2100PQ
    · subst ht
      refine ⟨_, _, enc_pq_any he hf hU gu ((range (hS' ▸ dU)).2.trans (by norm_num)), enc_pq_any he hf hV gv ((range (hS' ▸ dV)).2.trans
        (by norm_num)), nofun, ?_⟩
      rw [max_eq_right U0.le, max_eq_right V0.le]
      refine (clamp_lipschitz _ _).trans ?_
      rw [← sub_mul, abs_mul, abs_of_pos (show (0 : ℝ) < 255 by norm_num)]
      have dU1 := dU.1
      have dU2 := dU.2
      have dV1 := dV.1
      have dV2 := dV.2
      norm_num at dU1 dU2 dV1 dV2
      rcases pq_rel he (l := (V : ℝ)) (m := U) (d := 1 / 10 ^ 5) V0.le (by
        rw [abs_le]; norm_num; constructor <;> linarith) (by norm_num) with h | h
      · norm_num at h ⊢; linarith
      · exact absurd h.1 V0.ne'
    · have one : ∀ {x : F32} {X : ℚ}, Is x X → Good x → 109 / 100 ≤ (X : ℝ) → -19900 ≤ X ∧ X ≤ 19900 →
          ∃ a, EncodesTo rr t (encodeTransfer ar t x) a ∧ 999 / 1000 ≤ encodeTransfer rr t a ∧ a ≤ X + 1 := by
        intro x X hx hg hX hr
        obtain ⟨a, a0, ha, ea⟩ := enc_any he hf t hx hg hr.1 hr.2
        have h1 := (abs_le.mp ha).1
        have h2 := (abs_le.mp ha).2
        rw [max_eq_right (by linarith)] at h1 h2
        norm_num at h1 h2
        exact ⟨a, ea, enc_bright he ht (by linarith), by linarith⟩
      obtain ⟨a, ea, a1, a2⟩ := one hU gu U1 (range (hS' ▸ dU))
      obtain ⟨b, eb, b1, b2⟩ := one hV gv V1 (range (hS' ▸ dV))
      have dU2 := dU.2
      have dV2 := dV.2
      norm_num at dU2 dV2
      refine ⟨a, b, ea, eb, fun _ h => ⟨by linarith, by linarith⟩, ?_⟩
      have cl : ∀ {z : ℝ}, 999 / 1000 ≤ z → 254 + 7 / 10 ≤ clamp255 (z * 255) ∧ clamp255 (z * 255) ≤ 255 := by
        intro z hz
        unfold clamp255
        exact ⟨le_max_of_le_right (le_min (by norm_num) (by linarith)), max_le (by norm_num) (min_le_left _ _)⟩
      obtain ⟨c1, c2⟩ := cl a1
      obtain ⟨c3, c4⟩ := cl b1
      rw [abs_le]
      constructor <;> linarith

/-- Three components with the light `L`, mixed by the matrices of the primaries and encoded, are stored as codes that differ by at
most one. -/
theorem grey_codes_light (ha : scalar.Accurate) (sp dp : ColorPrimaries) (t : ColorTransfer) {f : PixelFormat} (hd : isYuv f = false)
    (w x : Nat) {L : F32} {q : ℚ} (hq : Is L q) (q0 : -1 / 10 ^ 4 ≤ (q : ℝ)) (q1 : (q : ℝ) ≤ 10010)
    (hlin : t = .Linear → (q : ℝ) ≤ 100 ∨ Truncates p w x) {c d : Chan} (hc : c = .R ∨ c = .G ∨ c = .B) (hd' : d = .R ∨ d = .G ∨ d = .B) :
    let k (c : Chan) := stored p (p.libm scalar) scalar w x .interleaved8 ((columnArith (p.real scalar) w x).mul
      (encodeTransfer (columnArith (p.real scalar) w x) t (component (rowMul (columnArith (p.real scalar) w x)
        (rowMul (columnArith (p.real scalar) w x) (L, L, L) sp.rgbToXyzMat) dp.xyzToRgbMat) c)) (maxSample f))
    k c ≤ k d + 1 := by
  intro k
  have hf := column_floats p ha w x
  have he := exactAr_exact x
  have hS2 : max (1 / 10 ^ 4) |(q : ℝ)| ≤ 10010 := max_le (by norm_num) (abs_le.mpr ⟨by norm_num at q0; linarith, q1⟩)
  obtain ⟨m1, m2, m3⟩ := mix_grey_app he hf.toIsIeee sp dp hq (le_max_left _ _) (hS2.trans (by norm_num))
    (le_max_right (1 / 10 ^ 4) |(q : ℝ)|)
  have comp : ∀ c, c = Chan.R ∨ c = .G ∨ c = .B →
      App (component (rowMul (columnArith (p.real scalar) w x) (rowMul (columnArith (p.real scalar) w x) (L, L, L)
        sp.rgbToXyzMat) dp.xyzToRgbMat) c) q (35 / 10 ^ 7 * max (1 / 10 ^ 4) |(q : ℝ)|) ∧
      Good (component (rowMul (columnArith (p.real scalar) w x) (rowMul (columnArith (p.real scalar) w x) (L, L, L)
        sp.rgbToXyzMat) dp.xyzToRgbMat) c) := by
    rintro c (rfl | rfl | rfl)
    · exact ⟨m1, good_dot hf.toIsIeee⟩
    · exact ⟨m2, good_dot hf.toIsIeee⟩
    · exact ⟨m3, good_dot hf.toIsIeee⟩
  obtain ⟨c1, c2⟩ := comp c hc
  obtain ⟨d1, d2⟩ := comp d hd'
  obtain ⟨a, b, ea, eb, hl, hab⟩ := grey_pair he hf t (le_max_left _ _) hS2 rfl q0 c1 d1 c2 d2
  have lin : t = .Linear → (a ≤ 128 ∨ Truncates p w x) ∧ (b ≤ 128 ∨ Truncates p w x) := by
    intro h
    rcases hlin h with ht | ht
    · exact ⟨.inl (hl h ht).1, .inl (hl h ht).2⟩
    · exact ⟨.inr ht, .inr ht⟩
  refine (codeOf_encodes ea p _ _ _ _ hd fun h => (lin h).1).close (codeOf_encodes eb p _ _ _ _ hd fun h => (lin h).2) ?_
  have := (abs_le.mp hab).2
  norm_num at this ⊢
  linarith

/-- **C62** (partial: the codes may differ by one, see `C62_white_false`; left out are PQ images converted to `Linear` by AVX2 or
AVX-512, whose light beyond 129 is stored as 0, see `C50_linear_black`). A grey of an RGB image, given another transfer function or
other primaries, keeps its three codes within one of each other: every pair of transfer functions and primaries, every platform. -/
theorem C62_grey_partial (r : Run (p.real scalar) src dst sps dps m m') (ha : scalar.Accurate) (hs : isYuv src.format = false)
    (hd : isYuv dst.format = false) (hne : ¬ (src.color.transfer = dst.color.transfer ∧ src.color.primaries = dst.color.primaries))
    {x y : Nat} (hx : x < dst.width) (hy : y < dst.height)
    (hRG : shown src.format sps m .R x y = shown src.format sps m .G x y) (hGB : shown src.format sps m .G x y = shown src.format sps m .B x y)
    (hlin : src.color.transfer = .BT2100PQ → dst.color.transfer = .Linear → Truncates p dst.width x) :
    ∃ k : Chan → Nat, (∀ c, c = .R ∨ c = .G ∨ c = .B → sample dst.format dps m' c x y = some (k c)) ∧
      ∀ c d, c = .R ∨ c = .G ∨ c = .B → d = .R ∨ d = .G ∨ d = .B → k c ≤ k d + 1 := by
  have hf := column_floats p ha dst.width x
  have he := exactAr_exact x
  have hle := shown_le (rgb8 hs).1 sps m .B x y
  have val := fun c (hc : c = Chan.R ∨ c = .G ∨ c = .B) => change_value r hs hd hne hc hx hy
  refine ⟨_, val, fun c d hc hd' => ?_⟩
  beta_reduce
  rw [hRG, hGB]
  generalize shown src.format sps m .B x y = n at hle ⊢
  -- the light of the grey
  obtain ⟨q, hq, q0, q1, q2⟩ : ∃ q : ℚ, Is (decodeTransfer (columnArith (p.real scalar) dst.width x) src.color.transfer
      ((columnArith (p.real scalar) dst.width x).div (FOps.ofNat n) (FOps.ofNat 255))) q ∧ -1 / 10 ^ 5 ≤ (q : ℝ) ∧ (q : ℝ) ≤ 10010 ∧
      (src.color.transfer ≠ .BT2100PQ → (q : ℝ) ≤ 11 / 10) := by
    by_cases ht : src.color.transfer = .BT2100PQ
    · have h := light_pq_app he hf hle
      rw [← ht] at h
      obtain ⟨q, hq, hd1⟩ := h.1.is
      rw [abs_le] at hd1
      obtain ⟨-, h0, h1⟩ := h
      norm_num at hd1
      refine ⟨q, hq, ?_, by linarith [hd1.2], fun h => absurd ht h⟩
      norm_num
      linarith [hd1.1]
    · have h := light_app hf he ht hle
      obtain ⟨q, hq, hd1⟩ := h.1.is
      rw [abs_le] at hd1
      obtain ⟨-, h0, h1⟩ := h
      norm_num at hd1
      refine ⟨q, hq, ?_, by linarith [hd1.2], fun _ => by linarith [hd1.2]⟩
      norm_num
      linarith [hd1.1]
  generalize decodeTransfer (columnArith (p.real scalar) dst.width x) src.color.transfer
      ((columnArith (p.real scalar) dst.width x).div (FOps.ofNat n) (FOps.ofNat 255)) = L at hq ⊢
  refine grey_codes_light ha src.color.primaries dst.color.primaries dst.color.transfer hd dst.width x hq ?_ q1 (fun h => ?_) hc hd'
  · norm_num at q0 ⊢; linarith
  · by_cases ht : src.color.transfer = .BT2100PQ
    · exact .inr (hlin ht h)
    · exact .inl (by linarith [q2 ht])

/-! ## White is tinted where stores truncate -/

/-- The float of the green sample of white, BT.709 converted to BT.2020, both linear. -/
def tintedG : F32 :=
  let ar := scalarArith ⟨fun _ _ => .nan, fun _ => .nan, fun _ => .nan⟩
  let n : F32 := F32.div (FOps.ofNat 255) (FOps.ofNat 255)
  F32.mul (rowMul ar (rowMul ar (n, n, n) ColorPrimaries.BT709.rgbToXyzMat) ColorPrimaries.BT2020.xyzToRgbMat).2.1 (FOps.ofNat 255)

theorem tintedG_below : ∃ q, tintedG = .fin false q ∧ 254 < q ∧ q < 255 := by
  have h : (match tintedG with | .fin false q => decide (254 < q ∧ q < 255) | _ => false) = true := by decide +kernel
  cases e : tintedG with
  | nan => rw [e] at h; cases h
  | inf s => rw [e] at h; cases h
  | fin s q =>
    cases s
    · rw [e] at h; exact ⟨q, rfl, of_decide_eq_true h⟩
    · rw [e] at h; cases h

/-- The float of the red sample. -/
def tintedR : F32 :=
  let ar := scalarArith ⟨fun _ _ => .nan, fun _ => .nan, fun _ => .nan⟩
  let n : F32 := F32.div (FOps.ofNat 255) (FOps.ofNat 255)
  F32.mul (rowMul ar (rowMul ar (n, n, n) ColorPrimaries.BT709.rgbToXyzMat) ColorPrimaries.BT2020.xyzToRgbMat).1 (FOps.ofNat 255)

theorem tintedR_above : ∃ q, tintedR = .fin false q ∧ 255 ≤ q ∧ q < 256 := by
  have h : (match tintedR with | .fin false q => decide (255 ≤ q ∧ q < 256) | _ => false) = true := by decide +kernel
  cases e : tintedR with
  | nan => rw [e] at h; cases h
  | inf s => rw [e] at h; cases h
  | fin s q =>
    cases s
    · rw [e] at h; exact ⟨q, rfl, of_decide_eq_true h⟩
    · rw [e] at h; cases h

/-- A white image of 2×2 pixels with linear light. -/
def linearSrc : Img := .raw .RGB 2 2 [⟨⟨0, 12⟩, 6⟩] (.RGB ⟨.Linear, .BT709⟩)
/-- The same with the primaries of BT.2020. -/
def linearDst : Img := .raw .RGB 2 2 [⟨⟨100, 12⟩, 6⟩] (.RGB ⟨.Linear, .BT2020⟩)

/-- That greys stay exactly grey is false: white of 2×2 pixels, linear light, BT.709 converted to BT.2020, is stored as red 255 and
green 254, on all platforms. -/
theorem C62_white_false (p : Platform) (scalar : Libm) :
    ∃ m', Run (p.real scalar) linearSrc linearDst [⟨⟨0, 12⟩, 6⟩] [⟨⟨100, 12⟩, 6⟩] (fun _ => 255) m' ∧
      (∀ c, c = .R ∨ c = .G ∨ c = .B → shown .RGB [⟨⟨0, 12⟩, 6⟩] (fun _ => 255) c 0 0 = 255) ∧
      sample .RGB [⟨⟨100, 12⟩, 6⟩] m' .R 0 0 = some 255 ∧ sample .RGB [⟨⟨100, 12⟩, 6⟩] m' .G 0 0 = some 254 := by
  obtain ⟨m', r⟩ := run_exists (c := p.real scalar) (platform_lawful p _ _) (src := linearSrc) (dst := linearDst)
    (sps := [⟨⟨0, 12⟩, 6⟩]) (dps := [⟨⟨100, 12⟩, 6⟩]) rfl rfl
    (planesDisjoint_of (by decide)) (separate_of (by decide)) (uniform_of (by decide)) (by decide) fun _ => 255
  have hT : Truncates p 2 0 := by cases p <;> simp [Truncates, lanes]
  have hi : IsIeee (columnArith (p.real scalar) 2 0) := column_ieee p (p.libm scalar) scalar 2 0
  have sR : shown .RGB [⟨⟨0, 12⟩, 6⟩] (fun _ => 255) .R 0 0 = 255 := by decide
  have sG : shown .RGB [⟨⟨0, 12⟩, 6⟩] (fun _ => 255) .G 0 0 = 255 := by decide
  have sB : shown .RGB [⟨⟨0, 12⟩, 6⟩] (fun _ => 255) .B 0 0 = 255 := by decide
  have val := fun c (hc : c = Chan.R ∨ c = .G ∨ c = .B) => change_value r rfl rfl (by simp [linearSrc, linearDst, Img.color, ColorInfo.primaries]) hc
    (x := 0) (y := 0) (by decide) (by decide)
  have code : ∀ {v : F32} {q : ℚ} {n : Nat}, v = .fin false q → (n : ℚ) ≤ q → q < n + 1 → n ≤ 255 →
      stored p (p.libm scalar) scalar 2 0 .interleaved8 v = n := by
    intro v q n hv h1 h2 h3
    have n0 : (0 : ℚ) ≤ n := by positivity
    have : trunc (signed false q) = n := by
      rw [trunc_eq_floor (by simp [signed]; linarith)]
      exact Int.floor_eq_iff.mpr ⟨by simp [signed]; linarith, by simp [signed]; linarith⟩
    rw [stored_truncates hT, hv]
    simp only [asUnsigned, this, Store.top]
    omega
  refine ⟨m', r, ?_, ?_, ?_⟩
  · rintro c (rfl | rfl | rfl) <;> assumption
  · obtain ⟨q, hq, h1, h2⟩ := tintedR_above
    refine (val .R (by simp)).trans (congrArg some (code (q := q) ?_ (by exact_mod_cast h1) (by push_cast; linarith) (le_refl _)))
    rw [← hq]
    simp only [linearSrc, linearDst, Img.format, Img.width, Img.color, ColorInfo.transfer, ColorInfo.primaries, sR, sG, sB, decodeTransfer,
      encodeTransfer, component, rowMul, dot, hi.mul, hi.add, hi.div]
    rfl
  · obtain ⟨q, hq, h1, h2⟩ := tintedG_below
    refine (val .G (by simp)).trans (congrArg some (code (q := q) ?_ (by push_cast; linarith) (by push_cast; linarith) (by norm_num)))
    rw [← hq]
    simp only [linearSrc, linearDst, Img.format, Img.width, Img.color, ColorInfo.transfer, ColorInfo.primaries, sR, sG, sB, decodeTransfer,
      encodeTransfer, component, rowMul, dot, hi.mul, hi.add, hi.div]
    rfl

/-! ## Examples -/

/-- A grey sRGB image of 32×2 pixels, converted to PQ with the primaries of BT.2020 by AVX2. -/
example : ∃ (scalar : Libm) (mo : Mem) (k : Chan → Nat), scalar.Accurate ∧ (∀ c, c = .R ∨ c = .G ∨ c = .B →
    sample .RGBA [⟨⟨400, 256⟩, 128⟩] mo c 7 1 = some (k c)) ∧ k .R ≤ k .G + 1 ∧ k .G ≤ k .R + 1 := by
  obtain ⟨scalar, ha⟩ := libm_exists
  obtain ⟨mo, r⟩ := run_exists (c := Platform.avx2.real scalar) (platform_lawful .avx2 _ _)
    (src := .raw .RGB 32 2 [⟨⟨0, 200⟩, 96⟩] (.RGB ⟨.SRGB, .BT709⟩)) (dst := .raw .RGBA 32 2 [⟨⟨400, 256⟩, 128⟩] (.RGB ⟨.BT2100PQ, .BT2020⟩))
    (sps := [⟨⟨0, 200⟩, 96⟩]) (dps := [⟨⟨400, 256⟩, 128⟩]) rfl rfl
    (planesDisjoint_of (by decide)) (separate_of (by decide)) (uniform_of (by decide)) (by decide) fun _ => 90
  obtain ⟨k, h1, h2⟩ := C62_grey_partial r ha rfl rfl (by simp [Img.color, ColorInfo.transfer]) (x := 7) (y := 1) (by decide) (by decide) (by decide)
    (by decide) (by simp [Img.color, ColorInfo.transfer])
  exact ⟨scalar, mo, k, ha, h1, h2 _ _ (by simp) (by simp), h2 _ _ (by simp) (by simp)⟩

end Ezk.Props

import Verif.Proofs.GreyOrder6
import Verif.Props.BlackWhite
import Verif.Props.Monotone

/-!
# C75: a brighter grey does not become darker
-/

namespace Ezk.Props
open Ezk Ezk.F32 Ezk.Spec

attribute [local instance] ratOps

variable {p : Platform} {scalar : Libm} {src dst : Img} {sps dps : List Plane} {m m' : Mem}

/-- Values of 255 and more are stored as 255. -/
theorem stored_top {p : Platform} {w x : Nat} {simd scalar : Libm} {v : F32} {q : ℚ} (hv : Is v q) (h : 255 ≤ q)
    (hb : q < 32767 ∨ Truncates p w x) : stored p simd scalar w x .interleaved8 v = 255 := by
  by_cases ht : Truncates p w x
  · rw [stored_truncates ht]
    obtain ⟨b, r, rfl, _, rfl⟩ := hv
    have h2 : (255 : Int) ≤ trunc (signed b r) := by
      rw [trunc_eq_floor (by linarith)]; exact Int.le_floor.mpr (by push_cast; exact h)
    change min (trunc (signed b r)).toNat 255 = 255
    omega
  · have hq := hb.resolve_right ht
    rw [stored_rounds ht _ _ _ hv (.inr ⟨rfl, by linarith, hq⟩)]
    have h2 : (255 : Int) ≤ rne q := le_rne (by push_cast; exact h)
    change min (rne q).toNat 255 = 255
    omega

/-- Values below a half are stored as 0. -/
theorem stored_bottom {p : Platform} {w x : Nat} {simd scalar : Libm} {v : F32} {q : ℚ} (hv : Is v q) (h : q ≤ 63 / 128) (h0 : -300 ≤ q) :
    stored p simd scalar w x .interleaved8 v = 0 := by
  by_cases ht : Truncates p w x
  · rw [stored_truncates ht]
    obtain ⟨b, r, rfl, _, rfl⟩ := hv
    have h2 : trunc (signed b r) ≤ trunc (63 / 128) := trunc_mono h
    have e : trunc (63 / 128) = 0 := by decide +kernel
    rw [e] at h2
    change min (trunc (signed b r)).toNat 255 = 0
    omega
  · rw [stored_rounds ht _ _ _ hv (.inr ⟨rfl, by linarith, by linarith⟩)]
    have h2 : rne q ≤ rne (63 / 128) := rne_mono h
    have e : rne (63 / 128) = 0 := by decide +kernel
    rw [e] at h2
    omega

/-- What the components of a grey pixel become, before they are encoded. -/
theorem grey_mixed {ar : Arith F32} (hi : IsIeee ar) (sp dp : ColorPrimaries) {l : F32} {q : ℚ} (hl : Is l q) (h0 : 0 ≤ q) (h1 : q ≤ 10016)
    {c : Chan} (hc : c = .R ∨ c = .G ∨ c = .B) :
    ∃ X : ℚ, Is (component (rowMul ar (rowMul ar (l, l, l) sp.rgbToXyzMat) dp.xyzToRgbMat) c) X ∧
      Good (component (rowMul ar (rowMul ar (l, l, l) sp.rgbToXyzMat) dp.xyzToRgbMat) c) ∧
      |(X : ℝ) - q| ≤ 35 / 10 ^ 7 * max (1 / 10 ^ 4) (q : ℝ) := by
  have q0 : (0 : ℝ) ≤ q := by exact_mod_cast h0
  have q1 : (q : ℝ) ≤ 10016 := by exact_mod_cast h1
  obtain ⟨m1, m2, m3⟩ := mix_grey_app (exactAr_exact 0) hi sp dp hl (S := max (1 / 10 ^ 4) (q : ℝ)) (le_max_left _ _)
    (max_le (by norm_num) (by linarith)) (by rw [abs_of_nonneg q0]; exact le_max_right _ _)
  rcases hc with rfl | rfl | rfl
  · obtain ⟨X, hX, d⟩ := m1.is; exact ⟨X, hX, good_dot hi, d⟩
  · obtain ⟨X, hX, d⟩ := m2.is; exact ⟨X, hX, good_dot hi, d⟩
  · obtain ⟨X, hX, d⟩ := m3.is; exact ⟨X, hX, good_dot hi, d⟩

/-- **C75** (partial: PQ sources with `Linear` destinations are left out where stores saturate wrongly, see `C50_linear_black`). Of two grey pixels of an RGB image the brighter one does not become the darker one when the transfer function, the
primaries or the format change: every component of the one is at most every component of the other, whatever the two columns,
unless the brighter pixel is in a column whose stores truncate and the other in one whose stores round. -/
theorem C75_grey_order_partial (r : Run (p.real scalar) src dst sps dps m m') (ha : scalar.Accurate) (hs : isYuv src.format = false)
    (hd : isYuv dst.format = false) {c c' : Chan} (hc : c = .R ∨ c = .G ∨ c = .B)
    (hc' : c' = .R ∨ c' = .G ∨ c' = .B) {x y x' y' n n' : Nat} (hx : x < dst.width) (hy : y < dst.height) (hx' : x' < dst.width)
    (hy' : y' < dst.height) (ht : Truncates p dst.width x' → Truncates p dst.width x)
    (hlin : src.color.transfer = .BT2100PQ → dst.color.transfer = .Linear → Truncates p dst.width x')
    (hn : ∀ c, c = .R ∨ c = .G ∨ c = .B → sample src.format sps m c x y = some n)
    (hn' : ∀ c, c = .R ∨ c = .G ∨ c = .B → sample src.format sps m c x' y' = some n') (hlt : n < n') :
    ∃ k k', sample dst.format dps m' c x y = some k ∧ sample dst.format dps m' c' x' y' = some k' ∧ k ≤ k' := by
  by_cases hne : src.color.transfer = dst.color.transfer ∧ src.color.primaries = dst.color.primaries
  · obtain ⟨h1, h2⟩ := rgb_locs hs hd hc x y
    obtain ⟨h3, h4⟩ := rgb_locs hs hd hc' x' y'
    exact ⟨n, n', (C24_same_light r hs hd hne.1 hne.2 hx hy h1 h2).trans (hn c hc),
      (C24_same_light r hs hd hne.1 hne.2 hx' hy' h3 h4).trans (hn' c' hc'), hlt.le⟩
  have h255 : n' ≤ 255 := by
    have := shown_le (rgb8 hs).1 sps m .R x' y'
    rw [shown, hn' .R (by simp)] at this
    exact this
  have hv' := change_value r hs hd hne hc' hx' hy'
  rcases Nat.eq_zero_or_pos n with rfl | h1
  · exact ⟨0, _, C74_black r ha hs hd hc hx hy hn, hv', Nat.zero_le _⟩
  have hv := change_value r hs hd hne hc hx hy
  have sn : ∀ c, c = .R ∨ c = .G ∨ c = .B → shown src.format sps m c x y = n := fun c hc => by rw [shown, hn c hc]; rfl
  have sn' : ∀ c, c = .R ∨ c = .G ∨ c = .B → shown src.format sps m c x' y' = n' := fun c hc => by rw [shown, hn' c hc]; rfl
  refine ⟨_, _, hv, hv', ?_⟩
  beta_reduce
  rw [sn .R (by simp), sn .G (by simp), sn .B (by simp), sn' .R (by simp), sn' .G (by simp), sn' .B (by simp)]
  clear hv hv'
  have hf := column_floats p ha dst.width x
  have hf' := column_floats p ha dst.width x'
  have small : src.color.transfer ≠ .BT2100PQ → ∀ {q : ℚ}, Is (decodeTransfer (columnArith (p.real scalar) dst.width x') src.color.transfer
      ((columnArith (p.real scalar) dst.width x').div (FOps.ofNat n') (FOps.ofNat 255))) q → (q : ℝ) ≤ 11 / 10 := by
    intro hsp q hq
    obtain ⟨a, -, a1⟩ := light_app hf' (exactAr_exact x') hsp h255
    obtain ⟨q2, hq2, d⟩ := a.is
    obtain rfl := hq.unique hq2
    have := (abs_le.mp d).2
    norm_num at this a1 ⊢; linarith
  obtain ⟨q, q', hq, hq', hb⟩ := lights_brighter (exactAr_exact x) hf hf' src.color.transfer h1 hlt h255
  have small' := fun h => small h hq'
  obtain ⟨steep, top⟩ := lights_steep (exactAr_exact x) hf hf' src.color.transfer h1 hlt h255 hq hq'
  clear small
  generalize decodeTransfer (columnArith (p.real scalar) dst.width x) src.color.transfer
    ((columnArith (p.real scalar) dst.width x).div (FOps.ofNat n) (FOps.ofNat 255)) = l at *
  generalize decodeTransfer (columnArith (p.real scalar) dst.width x') src.color.transfer
    ((columnArith (p.real scalar) dst.width x').div (FOps.ofNat n') (FOps.ofNat 255)) = l' at *
  have q0 : (0 : ℝ) ≤ q := by have := hb.1; norm_num at this; linarith
  have q1 : (q : ℝ) ≤ q' := by have := hb.2.1; norm_num at this; linarith
  have q2 : (q' : ℝ) ≤ 10016 := hb.2.2.1
  have q0' : (0 : ℝ) ≤ q' := by linarith
  have q1' : (q : ℝ) ≤ 10016 := by linarith
  obtain ⟨X, hX, hg, dX⟩ := grey_mixed hf.toIsIeee src.color.primaries dst.color.primaries hq (by exact_mod_cast q0)
    (by exact_mod_cast q1') hc
  obtain ⟨X', hX', hg', dX'⟩ := grey_mixed hf'.toIsIeee src.color.primaries dst.color.primaries hq' (by exact_mod_cast q0')
    (by exact_mod_cast q2) hc'
  have hm := hb.mix dX dX'
  have hst := steep.mix q1 dX dX'
  generalize component (rowMul (columnArith (p.real scalar) dst.width x) (rowMul (columnArith (p.real scalar) dst.width x) (l, l, l)
        src.color.primaries.rgbToXyzMat) dst.color.primaries.xyzToRgbMat) c = v at *
  generalize component (rowMul (columnArith (p.real scalar) dst.width x') (rowMul (columnArith (p.real scalar) dst.width x') (l', l', l')
        src.color.primaries.rgbToXyzMat) dst.color.primaries.xyzToRgbMat) c' = v' at *
  have hmax : Is (maxSample dst.format : F32) 255 := by
    rw [maxSample, (rgb8 hd).2]; exact ⟨false, 255, ofNat_eq (by norm_num), by norm_num, rfl⟩
  have keep : ∀ {e e' : F32}, Ord 4 e e' → stored p (p.libm scalar) scalar dst.width x .interleaved8
      ((columnArith (p.real scalar) dst.width x).mul e (maxSample dst.format)) ≤ stored p (p.libm scalar) scalar dst.width x' .interleaved8
      ((columnArith (p.real scalar) dst.width x').mul e' (maxSample dst.format)) := by
    intro e e' ho
    have hs := ord_mul (K := 255) (C := 2040) ho hmax (by norm_num) (by norm_num) (by norm_num) (by norm_num) (by norm_num)
    rw [hf.mul, hf'.mul]
    obtain ⟨a, b, ia, ib, ba, bb, hab⟩ := hs
    refine stored_mono ht _ _ _ _ .interleaved8 ia ib (.inr ⟨rfl, ?_, ?_⟩) (.inr ⟨rfl, ?_, ?_⟩) hab
    · linarith [(abs_le.mp ba).1]
    · linarith [(abs_le.mp ba).2]
    · linarith [(abs_le.mp bb).1]
    · linarith [(abs_le.mp bb).2]
  by_cases hpq : dst.color.transfer = .BT2100PQ
  · rw [hpq]
    have t1 : (X' : ℝ) ≤ 100065 / 10 := by
      have h4 := (abs_le.mp dX').2
      have h6 : max (1 / 10 ^ 4) (q' : ℝ) ≤ 10006 := max_le (by norm_num) top
      generalize max (1 / 10 ^ 4) (q' : ℝ) = M at *
      norm_num at h4 h6 ⊢; linarith
    rcases order_pq (exactAr_exact x) hf hf' hX hg hX' hg' hm hst t1 with ⟨a, ia, a1, a2⟩ | ho
    · have zero : stored p (p.libm scalar) scalar dst.width x .interleaved8 ((columnArith (p.real scalar) dst.width x).mul
          (encodeTransfer (columnArith (p.real scalar) dst.width x) .BT2100PQ v) (maxSample dst.format)) = 0 := by
        rw [hf.mul]
        have b1 : a ≤ 19 / 10 ^ 4 := by
          have : (a : ℝ) ≤ ((19 / 10 ^ 4 : ℚ) : ℝ) := by push_cast; exact a1
          exact_mod_cast this
        have b2 : -1 ≤ a := by exact_mod_cast a2
        refine stored_bottom (is_mul_rds ia hmax ?_) ?_ ?_
        · rw [abs_le]; constructor <;> norm_num at * <;> linarith
        · have : rds (a * 255) ≤ rds (63 / 128) := rds_mono (by norm_num at b1; linarith)
          have e : rds (63 / 128) = 63 / 128 := by decide +kernel
          rwa [e] at this
        · have : rds (-255) ≤ rds (a * 255) := rds_mono (by linarith)
          have e : rds (-255) = -255 := by decide +kernel
          rw [e] at this
          linarith
      rw [zero]; exact Nat.zero_le _
    · exact keep ho
  rcases le_or_gt X' 2 with h2 | h2
  · exact keep (order_encode hf hf' hX hg hX' hg' hm h2 hpq)
  · have X1 : (X' : ℝ) ≤ ((19900 : ℚ) : ℝ) := by have := hm.2.2.1; push_cast; linarith
    obtain ⟨-, e, he, e1, e2, e3⟩ := enc_over (exactAr_exact x) hf' hpq hX' hg' h2.le (by exact_mod_cast X1)
    have e1q : 1 ≤ e := by exact_mod_cast e1
    have e4 : e ≤ 19900 := by
      by_cases hl : dst.color.transfer = .Linear
      · rw [e3 hl]; exact_mod_cast X1
      · have : (e : ℝ) ≤ ((110 : ℚ) : ℝ) := by push_cast; exact e2 hl
        have : e ≤ 110 := by exact_mod_cast this
        linarith
    have top : stored p (p.libm scalar) scalar dst.width x' .interleaved8 ((columnArith (p.real scalar) dst.width x').mul
        (encodeTransfer (columnArith (p.real scalar) dst.width x') dst.color.transfer v') (maxSample dst.format)) = 255 := by
      rw [hf'.mul]
      have hmul := is_mul_rds he hmax (by rw [abs_of_nonneg (by linarith)]; linarith)
      refine stored_top hmul ?_ ?_
      · have : rds 255 ≤ rds (e * 255) := rds_mono (by linarith)
        have e255 : rds 255 = 255 := by decide +kernel
        rwa [e255] at this
      · by_cases hl : dst.color.transfer = .Linear
        · right
          refine hlin ?_ hl
          by_contra hsp
          have h3 := small' hsp
          have h4 := (abs_le.mp dX').2
          have h5 : (2 : ℝ) < X' := by exact_mod_cast h2
          have h6 : max (1 / 10 ^ 4) (q' : ℝ) ≤ 2 := max_le (by norm_num) (by linarith)
          generalize max (1 / 10 ^ 4) (q' : ℝ) = M at *
          norm_num at h4 h6; linarith
        · left
          have : (e : ℝ) ≤ ((110 : ℚ) : ℝ) := by push_cast; exact e2 hl
          have h110 : e ≤ 110 := by exact_mod_cast this
          have h3 : rds (e * 255) ≤ rds 28050 := rds_mono (by linarith)
          have e3 : rds 28050 = 28050 := by decide +kernel
          rw [e3] at h3
          linarith
    rw [top]
    have := ((columnArith (p.ieee (p.libm scalar) scalar) dst.width x).q8i ((columnArith (p.real scalar) dst.width x).mul
      (encodeTransfer (columnArith (p.real scalar) dst.width x) dst.color.transfer v) (maxSample dst.format))).toNat_lt
    simp only [stored]; omega

/-- The greys 32 and 33 of sRGB as linear light. -/
theorem light_32_33 {rr : Arith ℝ} (he : Exact rr) : 368 / 100 ≤ 255 * decodeTransfer rr .SRGB (((32 : ℕ) : ℝ) / 255) ∧
    255 * decodeTransfer rr .SRGB (((32 : ℕ) : ℝ) / 255) ≤ 369 / 100 ∧
    387 / 100 ≤ 255 * decodeTransfer rr .SRGB (((33 : ℕ) : ℝ) / 255) ∧ 255 * decodeTransfer rr .SRGB (((33 : ℕ) : ℝ) / 255) ≤ 388 / 100 := by
  have lo : ∀ {c x : ℝ}, 0 ≤ c → 0 ≤ x → c ^ 5 ≤ x ^ 12 → c ≤ x ^ (2.4 : ℝ) := fun hc hx h =>
    (le_rpow_iff (m := 12) (n := 5) (by norm_num) (by norm_num) hc hx).mpr h
  have hi : ∀ {c x : ℝ}, 0 ≤ c → 0 ≤ x → x ^ 12 < c ^ 5 → x ^ (2.4 : ℝ) < c := fun hc hx h =>
    (rpow_lt_iff (m := 12) (n := 5) (by norm_num) (by norm_num) hc hx).mpr h
  rw [srgb_high he (by norm_num), srgb_high he (by norm_num)]
  have a1 : (368 / 25500 : ℝ) ≤ ((((32 : ℕ) : ℝ) / 255 + 0.055) / 1.055) ^ (2.4 : ℝ) := lo (by norm_num) (by norm_num) (by norm_num)
  have a2 : ((((32 : ℕ) : ℝ) / 255 + 0.055) / 1.055) ^ (2.4 : ℝ) < 369 / 25500 := hi (by norm_num) (by norm_num) (by norm_num)
  have a3 : (387 / 25500 : ℝ) ≤ ((((33 : ℕ) : ℝ) / 255 + 0.055) / 1.055) ^ (2.4 : ℝ) := lo (by norm_num) (by norm_num) (by norm_num)
  have a4 : ((((33 : ℕ) : ℝ) / 255 + 0.055) / 1.055) ^ (2.4 : ℝ) < 388 / 25500 := hi (by norm_num) (by norm_num) (by norm_num)
  refine ⟨?_, ?_, ?_, ?_⟩ <;> linarith

/-- The code of a grey of sRGB as linear light, up to the rounding of the store. -/
theorem srgb_linear_code (r : Run (p.real scalar) src dst sps dps m m') (ha : scalar.Accurate) (hs : isYuv src.format = false)
    (hd : isYuv dst.format = false) (hst : src.color.transfer = .SRGB) (hdt : dst.color.transfer = .Linear) {c : Chan}
    (hc : c = .R ∨ c = .G ∨ c = .B) {x y n : Nat} (hx : x < dst.width) (hy : y < dst.height) (h255 : n ≤ 255)
    (hn : ∀ c, c = .R ∨ c = .G ∨ c = .B → sample src.format sps m c x y = some n)
    (h250 : 255 * decodeTransfer (exactAr x) .SRGB ((n : ℝ) / 255) ≤ 250) :
    ∃ k, sample dst.format dps m' c x y = some k ∧ CodeOf p dst.width x (3 / 100) k (255 * decodeTransfer (exactAr x) .SRGB ((n : ℝ) / 255)) := by
  have hne : ¬ (src.color.transfer = dst.color.transfer ∧ src.color.primaries = dst.color.primaries) := by
    rw [hst, hdt]; exact fun h => nomatch h.1
  have hn' : ∀ c, c = .R ∨ c = .G ∨ c = .B → shown src.format sps m c x y = n := fun c hc => by rw [shown, hn c hc]; rfl
  have h := light_app (column_floats p ha dst.width x) (exactAr_exact x) (t := .SRGB) nofun h255
  have h' := h
  rw [← hst] at h'
  obtain ⟨k, a, hk, a0, da, hcode⟩ := grey_code r ha hs hd hne hc hx hy hn' h'.1 h'.2.1 (by norm_num)
    (by have := h'.2.2; norm_num at this ⊢; linarith) fun _ => .inl ⟨by linarith [h'.2.2], by norm_num⟩
  rw [hst, max_eq_right h.2.1] at da
  rw [hdt] at hcode
  refine ⟨k, hk, ?_⟩
  obtain ⟨-, l0, l1⟩ := h
  have hm : max (1 / 10 ^ 4) (decodeTransfer (exactAr x) .SRGB ((n : ℝ) / 255) + 3 / 10 ^ 6) ≤ 2 :=
    max_le (by norm_num) (by norm_num at l1 ⊢; linarith)
  generalize max (1 / 10 ^ 4) (decodeTransfer (exactAr x) .SRGB ((n : ℝ) / 255) + 3 / 10 ^ 6) = M at *
  generalize decodeTransfer (exactAr x) .SRGB ((n : ℝ) / 255) = L at *
  obtain ⟨d1, d2⟩ := abs_le.mp da
  have e : encodeTransfer (exactAr x) .Linear a = a := rfl
  rw [e] at hcode
  norm_num at d1 d2
  have cl : clamp255 (a * 255) = a * 255 := by
    unfold clamp255
    rw [min_eq_right (by linarith), max_eq_right (by positivity)]
  rw [cl] at hcode
  refine ⟨fun ht => ?_, fun ht => ?_⟩
  · obtain ⟨c1, c2⟩ := abs_le.mp (hcode.1 ht)
    norm_num at c1 c2
    rw [abs_le]
    constructor <;> norm_num <;> linarith
  · obtain ⟨c1, c2⟩ := hcode.2 ht
    norm_num at c1 c2
    constructor <;> norm_num <;> linarith

/-- **C75** fails between a column whose stores round and one whose stores truncate: rows of 34 pixels of sRGB converted to linear light
with AVX2, grey 33 in the last two columns (handled alone) and grey 32 elsewhere. The darker grey becomes 4, the brighter one 3. -/
theorem C75_order_false {scalar : Libm} (ha : scalar.Accurate) : ∃ (m mo : Mem) (src dst : Img) (sps dps : List Plane),
    Run (Platform.avx2.real scalar) src dst sps dps m mo ∧
    (∀ c, c = .R ∨ c = .G ∨ c = .B → sample src.format sps m c 0 0 = some 32) ∧
    (∀ c, c = .R ∨ c = .G ∨ c = .B → sample src.format sps m c 32 0 = some 33) ∧
    (∀ c, c = .R ∨ c = .G ∨ c = .B → sample dst.format dps mo c 0 0 = some 4) ∧
    ∀ c, c = .R ∨ c = .G ∨ c = .B → sample dst.format dps mo c 32 0 = some 3 := by
  obtain ⟨mo, r⟩ := run_exists (c := Platform.avx2.real scalar) (platform_lawful .avx2 _ _)
    (src := .raw .RGB 34 2 [⟨⟨0, 204⟩, 102⟩] (.RGB ⟨.SRGB, .BT709⟩)) (dst := .raw .RGB 34 2 [⟨⟨400, 204⟩, 102⟩] (.RGB ⟨.Linear, .BT709⟩))
    (sps := [⟨⟨0, 204⟩, 102⟩]) (dps := [⟨⟨400, 204⟩, 102⟩]) rfl rfl
    (planesDisjoint_of (by decide)) (separate_of (by decide)) (uniform_of (by decide)) (by decide)
    fun a => if a % 102 < 96 then 32 else 33
  have s0 : ∀ c, c = .R ∨ c = .G ∨ c = .B → sample .RGB [⟨⟨0, 204⟩, 102⟩] (fun a => if a % 102 < 96 then 32 else 33) c 0 0 = some 32 := by
    rintro c (rfl | rfl | rfl) <;> decide +kernel
  have s1 : ∀ c, c = .R ∨ c = .G ∨ c = .B → sample .RGB [⟨⟨0, 204⟩, 102⟩] (fun a => if a % 102 < 96 then 32 else 33) c 32 0 = some 33 := by
    rintro c (rfl | rfl | rfl) <;> decide +kernel
  obtain ⟨-, l2, l3, -⟩ := light_32_33 (exactAr_exact 0)
  obtain ⟨l1, -, -, -⟩ := light_32_33 (exactAr_exact 0)
  obtain ⟨-, -, m3, m4⟩ := light_32_33 (exactAr_exact 32)
  refine ⟨_, mo, _, _, _, _, r, s0, s1, fun c hc => ?_, fun c hc => ?_⟩
  · obtain ⟨k, hk, hcode⟩ := srgb_linear_code r ha rfl rfl rfl rfl hc (x := 0) (y := 0) (n := 32) (by decide) (by decide) (by decide) s0
      (by linarith)
    rw [hk]
    congr 1
    obtain ⟨c1, c2⟩ := abs_le.mp (hcode.1 (by
      rintro (h | h | h)
      · cases h
      · cases h
      · exact h (by decide)))
    generalize 255 * decodeTransfer (exactAr 0) ColorTransfer.SRGB (((32 : ℕ) : ℝ) / 255) = C at *
    have k1 : ((3 : ℕ) : ℝ) < k := by push_cast; linarith
    have k2 : (k : ℝ) < ((5 : ℕ) : ℝ) := by push_cast; linarith
    have k1' : 3 < k := by exact_mod_cast k1
    have k2' : k < 5 := by exact_mod_cast k2
    omega
  · obtain ⟨k, hk, hcode⟩ := srgb_linear_code r ha rfl rfl rfl rfl hc (x := 32) (y := 0) (n := 33) (by decide) (by decide) (by decide) s1
      (by linarith)
    rw [hk]
    congr 1
    obtain ⟨c1, c2⟩ := hcode.2 (.inr (.inr (by decide)))
    generalize 255 * decodeTransfer (exactAr 32) ColorTransfer.SRGB (((33 : ℕ) : ℝ) / 255) = C at *
    have k1 : ((2 : ℕ) : ℝ) < k := by push_cast; linarith
    have k2 : (k : ℝ) < ((4 : ℕ) : ℝ) := by push_cast; linarith
    have k1' : 2 < k := by exact_mod_cast k1
    have k2' : k < 4 := by exact_mod_cast k2
    omega

/-! ## Examples -/

/-- A ramp of greys in sRGB, converted to PQ by AVX2, whose stores round in the vectors: the grey 40 does not become
brighter than the grey 41. -/
example : ∃ (scalar : Libm) (mo : Mem) (k k' : Nat), scalar.Accurate ∧ sample .RGBA [⟨⟨400, 256⟩, 128⟩] mo .G 8 1 = some k ∧
    sample .RGBA [⟨⟨400, 256⟩, 128⟩] mo .B 9 1 = some k' ∧ k ≤ k' := by
  obtain ⟨scalar, ha⟩ := libm_exists
  obtain ⟨mo, r⟩ := run_exists (c := Platform.avx2.real scalar) (platform_lawful .avx2 _ _)
    (src := .raw .RGB 32 2 [⟨⟨0, 200⟩, 96⟩] (.RGB ⟨.SRGB, .BT709⟩)) (dst := .raw .RGBA 32 2 [⟨⟨400, 256⟩, 128⟩] (.RGB ⟨.BT2100PQ, .BT2020⟩))
    (sps := [⟨⟨0, 200⟩, 96⟩]) (dps := [⟨⟨400, 256⟩, 128⟩]) rfl rfl
    (planesDisjoint_of (by decide)) (separate_of (by decide)) (uniform_of (by decide)) (by decide) fun a => UInt8.ofNat (a / 3)
  obtain ⟨k, k', h⟩ := C75_grey_order_partial r ha rfl rfl (c := .G) (c' := .B) (by simp) (by simp) (x := 8) (y := 1) (x' := 9) (y' := 1)
    (n := 40) (n' := 41) (by decide) (by decide) (by decide) (by decide) (by
      rintro (h | h | h)
      · cases h
      · cases h
      · exact absurd (by decide) h) nofun
    (by rintro c (rfl | rfl | rfl) <;> decide +kernel) (by rintro c (rfl | rfl | rfl) <;> decide +kernel) (by decide)
  exact ⟨scalar, mo, k, k', ha, h⟩

end Ezk.Props

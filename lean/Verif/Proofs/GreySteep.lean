import Verif.Proofs.GreyOrder6
import Verif.Proofs.GreySignals

/-!
# The lights of two luma codes, for the PQ encoder
-/

namespace Ezk
open F32 FOps Spec

attribute [local instance] ratOps

/-- Signals that are a code of limited-range luma apart. -/
structure LumaApart (v w : ℝ) : Prop extends CodeApart v w where
  low : 456 / 10 ^ 5 ≤ v
  step : v + 456 / 10 ^ 5 ≤ w

/-- From exact lights to computed ones, up to 3·10⁻⁶. -/
theorem steep_near {L L' q q' p v : ℝ} (v0 : 0 < v) (hq : |q - L| ≤ 3 / 10 ^ 6) (hq' : |q' - L'| ≤ 3 / 10 ^ 6)
    (hp : L * p ≤ (L' - L) * v) (hr : ∀ lo hi δ r, Band lo hi δ r → L < hi + 1 / 10 ^ 5 → r * v ≤ p) :
    Steep (1 / 10 ^ 5) q q' := by
  intro lo hi δ r band h2 h3
  obtain ⟨a1, a2⟩ := abs_le.mp hq
  obtain ⟨b1, b2⟩ := abs_le.mp hq'
  have hhi : L < hi + 1 / 10 ^ 5 := by cases band <;> (norm_num at *; linarith)
  have L0 : 0 < L := by cases band <;> (norm_num at *; linarith)
  have k := hr lo hi δ r band hhi
  have hlo : lo - 6 / 10 ^ 6 ≤ L := by cases band <;> (norm_num at *; linarith)
  have k2 : L * r ≤ L' - L := by
    have : L * r * v ≤ (L' - L) * v := by
      refine le_trans ?_ hp
      calc L * r * v = L * (r * v) := by ring
        _ ≤ L * p := mul_le_mul_of_nonneg_left k L0.le
    exact le_of_mul_le_mul_right this v0
  cases band <;> (norm_num at *; linarith)

/-- Where the bands end. -/
theorem band_signal {L p v : ℝ} (k1 k2 k3 k4 k5 k6 k7 : ℝ)
    (h1 : k1 ≤ v → 209 / 10 ^ 6 ≤ L) (h2 : k2 ≤ v → 101 / 10 ^ 5 ≤ L) (h3 : k3 ≤ v → 301 / 10 ^ 5 ≤ L) (h4 : k4 ≤ v → 1001 / 10 ^ 5 ≤ L)
    (h5 : k5 ≤ v → 8001 / 10 ^ 5 ≤ L) (h6 : k6 ≤ v → 20001 / 10 ^ 5 ≤ L) (h7 : k7 ≤ v → 50001 / 10 ^ 5 ≤ L)
    (p1 : 199 / 1000 * k1 ≤ p) (p2 : 121 / 1000 * k2 ≤ p) (p3 : 424 / 10 ^ 4 * k3 ≤ p) (p4 : 384 / 10 ^ 4 * k4 ≤ p)
    (p5 : 1218 / 10 ^ 5 * k5 ≤ p) (p6 : 56 / 10 ^ 4 * k6 ≤ p) (p7 : 406 / 10 ^ 5 * k7 ≤ p) {lo hi δ r : ℝ} (band : Band lo hi δ r)
    (hL : L < hi + 1 / 10 ^ 5) : r * v ≤ p := by
  cases band
  · rcases le_or_gt k1 v with h | h
    · have := h1 h; norm_num at this hL; linarith
    · norm_num at p1 ⊢; linarith
  · rcases le_or_gt k2 v with h | h
    · have := h2 h; norm_num at this hL; linarith
    · norm_num at p2 ⊢; linarith
  · rcases le_or_gt k3 v with h | h
    · have := h3 h; norm_num at this hL; linarith
    · norm_num at p3 ⊢; linarith
  · rcases le_or_gt k4 v with h | h
    · have := h4 h; norm_num at this hL; linarith
    · norm_num at p4 ⊢; linarith
  · rcases le_or_gt k5 v with h | h
    · have := h5 h; norm_num at this hL; linarith
    · norm_num at p5 ⊢; linarith
  · rcases le_or_gt k6 v with h | h
    · have := h6 h; norm_num at this hL; linarith
    · norm_num at p6 ⊢; linarith
  · rcases le_or_gt k7 v with h | h
    · have := h7 h; norm_num at this hL; linarith
    · norm_num at p7 ⊢; linarith

/-- Functions that grow faster than the signal. -/
theorem LumaApart.star {v w : ℝ} (h : LumaApart v w) {L L' q q' : ℝ} (pos : 7727 / 10 ^ 5 * v ≤ L) (star : L * w ≤ L' * v)
    (f3 : 107 / 1000 ≤ v → 301 / 10 ^ 5 ≤ L) (f4 : 118 / 1000 ≤ v → 1001 / 10 ^ 5 ≤ L) (f5 : 374 / 1000 ≤ v → 8001 / 10 ^ 5 ≤ L)
    (f6 : 814 / 1000 ≤ v → 20001 / 10 ^ 5 ≤ L) (hq : |q - L| ≤ 3 / 10 ^ 6) (hq' : |q' - L'| ≤ 3 / 10 ^ 6) : Steep (1 / 10 ^ 5) q q' := by
  have l := h.low
  have s := h.step
  have g := h.hi
  have v0 : 0 < v := by norm_num at l; linarith
  have L0 : 0 ≤ L := by norm_num at pos; linarith
  refine steep_near (p := 456 / 10 ^ 5) v0 hq hq' ?_ fun lo hi δ r band hL => ?_
  · have := mul_le_mul_of_nonneg_left s L0
    linarith
  · exact band_signal 0 (37 / 1000) (107 / 1000) (118 / 1000) (374 / 1000) (814 / 1000) (112 / 100) (fun _ => by norm_num at l pos ⊢; linarith)
      (fun k => by norm_num at k pos ⊢; linarith) f3 f4 f5 f6 (fun k => by norm_num at k l s g; linarith) (by norm_num) (by norm_num) (by norm_num)
      (by norm_num) (by norm_num) (by norm_num) (by norm_num) band hL

/-- Powers. -/
theorem LumaApart.power {v w : ℝ} (h : LumaApart v w) {C : ℝ} (hC : 1 ≤ C) : v ^ C * (C * (456 / 10 ^ 5)) ≤ (w ^ C - v ^ C) * v := by
  have v0 : 0 < v := by have := h.low; norm_num at this; linarith
  have k1 : v * (1 + 456 / 10 ^ 5 / v) ≤ w := by
    have : v * (1 + 456 / 10 ^ 5 / v) = v + 456 / 10 ^ 5 := by field_simp
    rw [this]; exact h.step
  have k2 := Real.rpow_le_rpow (by positivity) k1 (show 0 ≤ C by linarith)
  rw [Real.mul_rpow (by positivity) (by positivity)] at k2
  have k3 := one_add_mul_self_le_rpow_one_add (s := 456 / 10 ^ 5 / v) (p := C)
    (le_trans (by norm_num) (show (0 : ℝ) ≤ 456 / 10 ^ 5 / v by positivity)) hC
  have z0 : 0 ≤ v ^ C := Real.rpow_nonneg (by positivity) _
  generalize v ^ C = z at *
  generalize w ^ C = z' at *
  have k4 := (mul_le_mul_of_nonneg_left k3 z0).trans k2
  have k5 := mul_le_mul_of_nonneg_right k4 v0.le
  have e : z * (1 + C * (456 / 10 ^ 5 / v)) * v = z * v + z * (C * (456 / 10 ^ 5)) := by field_simp
  rw [e] at k5
  linarith

theorem LumaApart.gamma22 {v w q q' : ℝ} (h : LumaApart v w) (hq : |q - v ^ (2.2 : ℝ)| ≤ 3 / 10 ^ 6) (hq' : |q' - w ^ (2.2 : ℝ)| ≤ 3 / 10 ^ 6) :
    Steep (1 / 10 ^ 5) q q' := by
  have v0 : 0 < v := by have := h.low; norm_num at this; linarith
  have v1 : v ≤ 1 := by have a := h.step; have b := h.hi; norm_num at a; linarith
  have lo : ∀ {c k : ℝ}, 0 ≤ c → 0 ≤ k → c ^ 5 ≤ k ^ 11 → k ≤ v → c ≤ v ^ (2.2 : ℝ) := fun hc hk h hv =>
    ((le_rpow_iff (m := 11) (n := 5) (by norm_num) (by norm_num) hc hk).mpr h).trans (Real.rpow_le_rpow hk hv (by norm_num))
  have key := h.power (C := 2.2) (by norm_num)
  refine steep_near v0 hq hq' key fun lo' hi δ r band hL => ?_
  exact band_signal (5 / 100) (8 / 100) (23 / 100) (26 / 100) (82 / 100) (11 / 10) (11 / 10) (lo (by norm_num) (by norm_num) (by norm_num))
    (lo (by norm_num) (by norm_num) (by norm_num)) (lo (by norm_num) (by norm_num) (by norm_num)) (lo (by norm_num) (by norm_num) (by norm_num))
    (lo (by norm_num) (by norm_num) (by norm_num)) (fun k => by linarith) (fun k => by linarith) (by norm_num) (by norm_num) (by norm_num)
    (by norm_num) (by norm_num) (by norm_num) (by norm_num) band hL

theorem LumaApart.gamma28 {v w q q' : ℝ} (h : LumaApart v w) (hq : |q - v ^ (2.8 : ℝ)| ≤ 3 / 10 ^ 6) (hq' : |q' - w ^ (2.8 : ℝ)| ≤ 3 / 10 ^ 6) :
    Steep (1 / 10 ^ 5) q q' := by
  have v0 : 0 < v := by have := h.low; norm_num at this; linarith
  have v1 : v ≤ 1 := by have a := h.step; have b := h.hi; norm_num at a; linarith
  have lo : ∀ {c k : ℝ}, 0 ≤ c → 0 ≤ k → c ^ 5 ≤ k ^ 14 → k ≤ v → c ≤ v ^ (2.8 : ℝ) := fun hc hk h hv =>
    ((le_rpow_iff (m := 14) (n := 5) (by norm_num) (by norm_num) hc hk).mpr h).trans (Real.rpow_le_rpow hk hv (by norm_num))
  have key := h.power (C := 2.8) (by norm_num)
  refine steep_near v0 hq hq' key fun lo' hi δ r band hL => ?_
  exact band_signal (6 / 100) (10 / 100) (30 / 100) (33 / 100) (104 / 100) (11 / 10) (11 / 10) (lo (by norm_num) (by norm_num) (by norm_num))
    (lo (by norm_num) (by norm_num) (by norm_num)) (lo (by norm_num) (by norm_num) (by norm_num)) (lo (by norm_num) (by norm_num) (by norm_num))
    (fun k => by linarith) (fun k => by linarith) (fun k => by linarith) (by norm_num) (by norm_num) (by norm_num)
    (by norm_num) (by norm_num) (by norm_num) (by norm_num) band hL

theorem LumaApart.srgb' {v w q q' : ℝ} (h : LumaApart v w) (f : ℝ → ℝ)
    (hf : ∀ x, f x = if x ≤ 0.04045 then x / 12.92 else ((x + 0.055) / 1.055) ^ (2.4 : ℝ))
    (hq : |q - f v| ≤ 3 / 10 ^ 6) (hq' : |q' - f w| ≤ 3 / 10 ^ 6) : Steep (1 / 10 ^ 5) q q' := by
  obtain ⟨a, b, -⟩ := srgb_branches h.toCodeApart f hf
  have lo : ∀ {c k : ℝ}, 0 ≤ c → 5 / 100 ≤ k → c ^ 5 ≤ ((k + 0.055) / 1.055) ^ 12 → k ≤ v → c ≤ f v := by
    intro c k hc hk hck hv
    rw [hf, if_neg (by norm_num; linarith)]
    have k0 : 0 ≤ (k + 0.055) / 1.055 := by apply div_nonneg <;> norm_num; linarith
    refine ((le_rpow_iff (m := 12) (n := 5) (by norm_num) (by norm_num) hc k0).mpr hck).trans (Real.rpow_le_rpow k0 ?_ (by norm_num))
    gcongr
  exact h.star a b (lo (by norm_num) (by norm_num) (by norm_num)) (lo (by norm_num) (by norm_num) (by norm_num))
    (lo (by norm_num) (by norm_num) (by norm_num)) (lo (by norm_num) (by norm_num) (by norm_num)) hq hq'

theorem LumaApart.sdr' {v w q q' : ℝ} (h : LumaApart v w) (f : ℝ → ℝ)
    (hf : ∀ x, f x = if x < 0.081490956 then x / 4.5 else ((x + 0.0993) / 1.099) ^ (1 / 0.45 : ℝ))
    (hq : |q - f v| ≤ 3 / 10 ^ 6) (hq' : |q' - f w| ≤ 3 / 10 ^ 6) : Steep (1 / 10 ^ 5) q q' := by
  obtain ⟨a, b, -⟩ := sdr_branches h.toCodeApart f hf
  have lo : ∀ {c k : ℝ}, 0 ≤ c → 9 / 100 ≤ k → c ^ 9 ≤ ((k + 0.0993) / 1.099) ^ 20 → k ≤ v → c ≤ f v := by
    intro c k hc hk hck hv
    rw [hf, if_neg (by norm_num; linarith)]
    have k0 : 0 ≤ (k + 0.0993) / 1.099 := by apply div_nonneg <;> norm_num; linarith
    refine ((le_rpow_iff (m := 20) (n := 9) (by norm_num) (by norm_num) hc k0).mpr hck).trans (Real.rpow_le_rpow k0 ?_ (by norm_num))
    gcongr
  exact h.star a b (lo (by norm_num) (by norm_num) (by norm_num)) (lo (by norm_num) (by norm_num) (by norm_num))
    (lo (by norm_num) (by norm_num) (by norm_num)) (lo (by norm_num) (by norm_num) (by norm_num)) hq hq'

theorem LumaApart.hlg' {v w q q' : ℝ} (h : LumaApart v w) (f : ℝ → ℝ)
    (hf : ∀ x, f x = if x ≤ 1 / 2 then x ^ 2 / 3 else hlgHigh x)
    (hq : |q - f v| ≤ 3 / 10 ^ 6) (hq' : |q' - f w| ≤ 3 / 10 ^ 6) : Steep (1 / 10 ^ 5) q q' := by
  have l := h.low
  have s := h.step
  have v0 : 0 < v := by norm_num at l; linarith
  have v1 : v ≤ 1 := by have b := h.hi; norm_num at s; linarith
  have b2 := hlgHigh_half
  rcases h.hlg with hW | hW
  · have hV : v ≤ 1 / 2 := by norm_num at s; linarith
    rw [hf, if_pos hV] at hq
    rw [hf, if_pos hW] at hq'
    have lo : ∀ {c k : ℝ}, 0 ≤ k → c ≤ k ^ 2 / 3 → k ≤ v → c ≤ v ^ 2 / 3 := by
      intro c k hk hc hv
      have := pow_le_pow_left₀ hk hv 2
      linarith
    refine steep_near (p := 2 * (456 / 10 ^ 5)) v0 hq hq' ?_ fun lo' hi δ r band hL => ?_
    · have := pow_le_pow_left₀ (by positivity) s 2
      have := mul_le_mul_of_nonneg_right this v0.le
      norm_num at this ⊢
      nlinarith
    · exact band_signal (4 / 100) (7 / 100) (21 / 100) (23 / 100) (74 / 100) 1 1 (lo (by norm_num) (by norm_num))
        (lo (by norm_num) (by norm_num)) (lo (by norm_num) (by norm_num)) (lo (by norm_num) (by norm_num)) (fun k => by linarith)
        (fun k => by linarith) (fun k => by linarith) (by norm_num) (by norm_num) (by norm_num) (by norm_num) (by norm_num) (by norm_num)
        (by norm_num) band hL
  · rw [hf w, if_neg (by rw [not_le]; linarith)] at hq'
    have s2 := hlgHigh_star (le_refl (1 / 2)) (show (1 / 2 : ℝ) ≤ w by linarith)
    have slope : 8333 / 10 ^ 5 * w ≤ hlgHigh w * (1 / 2) := (mul_le_mul_of_nonneg_right b2 (by linarith)).trans s2
    have big : 836 / 10 ^ 4 ≤ hlgHigh w := by norm_num at slope ⊢; linarith
    rcases le_or_gt v (1 / 2) with hV | hV
    · rw [hf, if_pos hV] at hq
      have hV4 : v ≤ 499 / 1000 := by
        rcases h.hlgv with hh | hh
        · exact hh
        · exact absurd hh (not_lt.mpr hV)
      have lo : ∀ {k : ℝ}, 0 ≤ k → k ≤ v → k ^ 2 / 3 ≤ v ^ 2 / 3 := by
        intro k hk hv
        have := pow_le_pow_left₀ hk hv 2
        linarith
      have hi : ∀ {k : ℝ}, v ≤ k → v ^ 2 / 3 ≤ k ^ 2 / 3 := by
        intro k hv
        have := pow_le_pow_left₀ v0.le hv 2
        linarith
      have finish : ∀ s : ℝ, v ^ 2 / 3 * (1 + s) ≤ hlgHigh w → v ^ 2 / 3 * (s * v) ≤ (hlgHigh w - v ^ 2 / 3) * v := by
        intro s hs
        have := mul_le_mul_of_nonneg_right hs v0.le
        linarith
      rcases le_or_gt v (35 / 100) with c1 | c1
      · refine steep_near (p := 2 / 10 * v) v0 hq hq' (finish _ ?_) fun lo' hi' δ r band hL => ?_
        · have := hi c1; norm_num at this big ⊢; linarith
        · exact mul_le_mul_of_nonneg_right (by cases band <;> norm_num) v0.le
      have c1' := lo (by norm_num) c1.le
      rcases le_or_gt v (49 / 100) with c2 | c2
      · refine steep_near (p := 1218 / 10 ^ 5 * v) v0 hq hq' (finish _ ?_) fun lo' hi' δ r band hL => ?_
        · have := hi c2; norm_num at this big ⊢; linarith
        · refine mul_le_mul_of_nonneg_right ?_ v0.le
          generalize v ^ 2 / 3 = L at *
          cases band <;> norm_num at * <;> linarith
      · have c2' := lo (by norm_num) c2.le
        refine steep_near (p := 56 / 10 ^ 4 * v) v0 hq hq' (finish _ ?_) fun lo' hi' δ r band hL => ?_
        · have := hi hV4; norm_num at this big ⊢; linarith
        · refine mul_le_mul_of_nonneg_right ?_ v0.le
          generalize v ^ 2 / 3 = L at *
          cases band <;> norm_num at * <;> linarith
    · rw [hf, if_neg (not_le.mpr hV)] at hq
      have s1 := hlgHigh_star (le_refl (1 / 2)) hV.le
      have hg := (mul_le_mul_of_nonneg_right b2 v0.le).trans s1
      have f6 : 814 / 1000 ≤ v → 20001 / 10 ^ 5 ≤ hlgHigh v := by
        intro hv
        have := Real.add_one_le_exp ((v - 0.5599107) / 0.17883277)
        have h2 : (14 / 10 : ℝ) ≤ (v - 0.5599107) / 0.17883277 := by rw [le_div_iff₀ (by norm_num)]; norm_num at hv ⊢; linarith
        unfold hlgHigh
        generalize Real.exp ((v - 0.5599107) / 0.17883277) = z at *
        norm_num at this h2 ⊢; linarith
      have st := hlgHigh_star hV.le (show v ≤ w by norm_num at s; linarith)
      have low : 8333 / 10 ^ 5 ≤ hlgHigh v := by norm_num at hg ⊢; linarith
      exact h.star (by norm_num at hg ⊢; linarith) st (fun _ => by norm_num at low ⊢; linarith) (fun _ => by norm_num at low ⊢; linarith)
        (fun _ => by norm_num at low ⊢; linarith) f6 hq hq'

/-! ## PQ -/

/-- The roots of two signals. -/
theorem LumaApart.root {v w : ℝ} (h : LumaApart v w) :
    93 / 100 / 78.84375 * (456 / 10 ^ 5) ≤ (w ^ (1 / 78.84375 : ℝ) - v ^ (1 / 78.84375 : ℝ)) * (v + 456 / 10 ^ 5) := by
  obtain ⟨a1, -, a3⟩ := h.toCodeApart.pq_step
  have l := h.low
  have s := h.step
  have v0 : 0 < v := by norm_num at l; linarith
  have w0 : 0 < w := by norm_num at s; linarith
  have g0 : 0 < v + 456 / 10 ^ 5 := by positivity
  have e : v ^ (1 / 78.84375 : ℝ) = (v / w) ^ (1 / 78.84375 : ℝ) * w ^ (1 / 78.84375 : ℝ) := by
    rw [← Real.mul_rpow (by positivity) (by positivity)]
    congr 1
    field_simp
  have k1 : v / w ≤ 1 + -(456 / 10 ^ 5 / (v + 456 / 10 ^ 5)) := by
    have : 1 + -(456 / 10 ^ 5 / (v + 456 / 10 ^ 5)) = v / (v + 456 / 10 ^ 5) := by
      rw [eq_div_iff g0.ne']
      field_simp
      ring
    rw [this]
    exact div_le_div_of_nonneg_left v0.le g0 s
  have k2 : -1 ≤ -(456 / 10 ^ 5 / (v + 456 / 10 ^ 5)) := by
    rw [neg_le_neg_iff, div_le_one g0]; linarith
  have k3 := (Real.rpow_le_rpow (by positivity) k1 (show (0 : ℝ) ≤ 1 / 78.84375 by norm_num)).trans
    (rpow_one_add_le_one_add_mul_self k2 (by norm_num) (by norm_num))
  rw [e] at a1 a3 ⊢
  have Q0 : 93 / 100 ≤ w ^ (1 / 78.84375 : ℝ) := by norm_num at a1 a3 ⊢; linarith
  generalize w ^ (1 / 78.84375 : ℝ) = Q at *
  generalize (v / w) ^ (1 / 78.84375 : ℝ) = u at *
  have k4 := mul_le_mul_of_nonneg_right k3 (show 0 ≤ Q by linarith)
  have k5 : (1 / 78.84375) * (456 / 10 ^ 5 / (v + 456 / 10 ^ 5)) * Q ≤ Q - u * Q := by linarith
  have k6 := mul_le_mul_of_nonneg_right k5 g0.le
  have e2 : (1 / 78.84375) * (456 / 10 ^ 5 / (v + 456 / 10 ^ 5)) * Q * (v + 456 / 10 ^ 5) = Q / 78.84375 * (456 / 10 ^ 5) := by field_simp
  rw [e2] at k6
  refine le_trans ?_ k6
  gcongr

section
variable (f : ℝ → ℝ) (hf : ∀ x, f x =
  (max (x ^ (1 / 78.84375 : ℝ) - 0.8359375) 0 / (18.851563 - x ^ (1 / 78.84375 : ℝ) * 18.6875)) ^ (1 / 0.15930176 : ℝ) * 10000)
include hf

theorem LumaApart.pq_grows {v w : ℝ} (h : LumaApart v w) :
    f v * (17 / 10 * (456 / 10 ^ 5)) ≤ (f w - f v) * (v + 456 / 10 ^ 5) := by
  obtain ⟨a1, a2, a3⟩ := h.toCodeApart.pq_step
  have a4 := h.root
  obtain ⟨b1, -⟩ := pq_fraction_apart a1 a2 a3
  have l := h.low
  have v0 : 0 < v := by norm_num at l; linarith
  have g0 : 0 < v + 456 / 10 ^ 5 := by positivity
  rw [hf, hf, max_eq_left (a := v ^ (1 / 78.84375 : ℝ) - 0.8359375) (by norm_num at a1 ⊢; linarith),
    max_eq_left (a := w ^ (1 / 78.84375 : ℝ) - 0.8359375) (by norm_num at a1 a3 ⊢; linarith)]
  have b2 := pq_fraction_grows (d := 93 / 100 / 78.84375 * (456 / 10 ^ 5) / (v + 456 / 10 ^ 5)) a1 a2 (by positivity) (by
    have : 93 / 100 / 78.84375 * (456 / 10 ^ 5) / (v + 456 / 10 ^ 5) ≤ w ^ (1 / 78.84375 : ℝ) - v ^ (1 / 78.84375 : ℝ) := by
      rw [div_le_iff₀ g0]; exact a4
    linarith)
  generalize (v ^ (1 / 78.84375 : ℝ) - 0.8359375) / (18.851563 - v ^ (1 / 78.84375 : ℝ) * 18.6875) = R at *
  generalize (w ^ (1 / 78.84375 : ℝ) - 0.8359375) / (18.851563 - w ^ (1 / 78.84375 : ℝ) * 18.6875) = R' at *
  have R0 : 0 < R := by linarith
  obtain ⟨s, hs⟩ : ∃ s : ℝ, s = 23 * (93 / 100 / 78.84375 * (456 / 10 ^ 5) / (v + 456 / 10 ^ 5)) := ⟨_, rfl⟩
  have s0 : 0 ≤ s := by rw [hs]; positivity
  rw [← hs] at b2
  have e1 := Real.rpow_le_rpow (by positivity) b2 (show (0 : ℝ) ≤ 1 / 0.15930176 by norm_num)
  rw [Real.mul_rpow (by linarith) R0.le] at e1
  have e2 := one_add_mul_self_le_rpow_one_add (s := s) (p := 1 / 0.15930176) (by linarith) (by norm_num)
  have e3 := mul_le_mul_of_nonneg_right e2 (Real.rpow_nonneg R0.le (1 / 0.15930176))
  have e4 := Real.rpow_nonneg R0.le (1 / 0.15930176)
  generalize R ^ (1 / 0.15930176 : ℝ) = z at *
  generalize R' ^ (1 / 0.15930176 : ℝ) = z' at *
  generalize (1 + s : ℝ) ^ (1 / 0.15930176 : ℝ) = k at *
  have e5 : (1 / 0.15930176 * s) * z ≤ z' - z := by linarith
  have e6 := mul_le_mul_of_nonneg_right e5 g0.le
  have e7 : (1 / 0.15930176 * s) * z * (v + 456 / 10 ^ 5) = (1 / 0.15930176 * (23 * (93 / 100 / 78.84375 * (456 / 10 ^ 5)))) * z := by
    rw [hs]; field_simp
  rw [e7] at e6
  norm_num at e6 ⊢
  linarith

/-- Lights of PQ from a signal on. -/
theorem pq_least_signal {v K : ℝ} (p0 R0 c : ℝ) (hK : K ≤ v) (hK1 : 0 < K) (hv : v ≤ 1) (hp : 93 / 100 ≤ p0)
    (hp1 : p0 ≤ 1) (hpK : p0 ^ 78 ≤ K) (h0 : 0 < R0) (h1 : R0 ≤ 1) (hR : R0 * (18.851563 - p0 * 18.6875) ≤ p0 - 0.8359375)
    (hc0 : 0 ≤ c) (hc : c ^ 10 ≤ R0 ^ 63) : c * 10000 ≤ f v := by
  have hP : p0 ≤ v ^ (1 / 78.84375 : ℝ) := by
    calc p0 ≤ K ^ (1 / 78 : ℝ) := by
          rw [le_rpow_iff (m := 1) (n := 78) (by norm_num) (by norm_num) (by linarith) (by positivity), pow_one]; exact hpK
      _ ≤ K ^ (1 / 78.84375 : ℝ) := Real.rpow_le_rpow_of_exponent_ge (by positivity) (by linarith) (by norm_num)
      _ ≤ _ := Real.rpow_le_rpow (by positivity) (by linarith) (by norm_num)
  have hP1 : v ^ (1 / 78.84375 : ℝ) ≤ 1 := Real.rpow_le_one (by linarith) hv (by norm_num)
  rw [hf, max_eq_left (a := v ^ (1 / 78.84375 : ℝ) - 0.8359375) (by norm_num at hp ⊢; linarith)]
  generalize v ^ (1 / 78.84375 : ℝ) = P at *
  have k1 : R0 ≤ (P - 0.8359375) / (18.851563 - P * 18.6875) := by
    rw [le_div_iff₀ (by norm_num; linarith)]
    have : R0 * (18.851563 - P * 18.6875) ≤ R0 * (18.851563 - p0 * 18.6875) := mul_le_mul_of_nonneg_left (by norm_num; linarith) h0.le
    linarith
  refine mul_le_mul_of_nonneg_right ?_ (by norm_num)
  calc c ≤ R0 ^ (63 / 10 : ℝ) := by
        rw [le_rpow_iff (m := 63) (n := 10) (by norm_num) (by norm_num) hc0 h0.le]; exact hc
    _ ≤ R0 ^ (1 / 0.15930176 : ℝ) := Real.rpow_le_rpow_of_exponent_ge h0 h1 (by norm_num)
    _ ≤ _ := Real.rpow_le_rpow h0.le k1 (by norm_num)

theorem LumaApart.pq' {v w : ℝ} (h : LumaApart v w) {q q' : ℝ} (hq : |q - f v| ≤ 56 / 10 ^ 5 * f v + 2 / 10 ^ 10)
    (hq' : |q' - f w| ≤ 56 / 10 ^ 5 * f w + 2 / 10 ^ 10) : Steep (1 / 10 ^ 5) q q' := by
  obtain ⟨l0, -, -⟩ := h.toCodeApart.pq f hf
  have g := h.pq_grows f hf
  have l := h.low
  have v0 : 0 < v := by norm_num at l; linarith
  have v1 : v ≤ 1 := by have a := h.step; have b := h.hi; norm_num at a; linarith
  have b1 : 765 / 10 ^ 4 ≤ v → (1 / 10 ^ 5 : ℝ) * 10000 ≤ f v := fun h =>
    pq_least_signal f hf (967 / 1000) (165 / 1000) (1 / 10 ^ 5) h (by norm_num) v1 (by norm_num) (by norm_num) (by norm_num) (by norm_num)
      (by norm_num) (by norm_num) (by norm_num) (by norm_num)
  have b2 : 392 / 10 ^ 3 ≤ v → (1 / 10 ^ 4 : ℝ) * 10000 ≤ f v := fun h =>
    pq_least_signal f hf (988 / 1000) (37 / 100) (1 / 10 ^ 4) h (by norm_num) v1 (by norm_num) (by norm_num) (by norm_num) (by norm_num)
      (by norm_num) (by norm_num) (by norm_num) (by norm_num)
  generalize f v = L at *
  generalize f w = L' at *
  have L0 : 0 < L := by norm_num at l0; linarith
  obtain ⟨x1, x2⟩ := abs_le.mp hq
  obtain ⟨y1, y2⟩ := abs_le.mp hq'
  have grow : ∀ {k s : ℝ}, v ≤ k → s * (k + 456 / 10 ^ 5) ≤ 17 / 10 * (456 / 10 ^ 5) → 0 ≤ s → (1 + s) * L ≤ L' := by
    intro k s hk hs s0
    have k1 : s * (v + 456 / 10 ^ 5) ≤ 17 / 10 * (456 / 10 ^ 5) :=
      le_trans (mul_le_mul_of_nonneg_left (by linarith) s0) hs
    have k2 : s * L * (v + 456 / 10 ^ 5) ≤ (L' - L) * (v + 456 / 10 ^ 5) := by
      have := mul_le_mul_of_nonneg_left k1 L0.le
      linarith
    have := le_of_mul_le_mul_right k2 (by positivity)
    linarith
  clear h g hf l v0
  intro lo hi δ r band h2 h3
  rcases le_or_gt v (765 / 10 ^ 4) with hn | hn
  · have k := grow (s := 894 / 10 ^ 4) hn (by norm_num) (by norm_num)
    clear grow b1 b2
    cases band <;> (norm_num at *; linarith)
  · have B1 := b1 hn.le
    rcases le_or_gt v (392 / 10 ^ 3) with hn2 | hn2
    · have k := grow (s := 16 / 1000) hn2 (by norm_num) (by norm_num)
      clear grow b1 b2
      cases band <;> (norm_num at *; linarith)
    · have B2 := b2 hn2.le
      have k := grow (k := 1) (s := 77 / 10 ^ 4) v1 (by norm_num) (by norm_num)
      clear grow b1 b2
      cases band <;> (norm_num at *; linarith)

end

/-! ## Every transfer function -/

theorem luma_step {n n' : Nat} (h1 : 17 ≤ n) (hlt : n < n') (h235 : n' ≤ 235) :
    ∃ V W : ℚ, Is (lumaFloat n) V ∧ Is (lumaFloat n') W ∧ LumaApart V W := by
  obtain ⟨V, W, hV, hW, h⟩ := luma_apart h1 hlt h235
  obtain ⟨V2, hV2, dV, -⟩ := luma_is (n := n) (by omega)
  obtain ⟨W2, hW2, dW, -⟩ := luma_is (n := n') (by omega)
  obtain rfl := hV.unique hV2
  obtain rfl := hW.unique hW2
  have dVr : |(V : ℝ) - ((n : ℝ) - 16) / 219| ≤ 1 / 10 ^ 6 := by
    have := (Rat.cast_le (K := ℝ)).mpr dV; push_cast at this; exact this
  have dWr : |(W : ℝ) - ((n' : ℝ) - 16) / 219| ≤ 1 / 10 ^ 6 := by
    have := (Rat.cast_le (K := ℝ)).mpr dW; push_cast at this; exact this
  obtain ⟨a1, a2⟩ := abs_le.mp dVr
  obtain ⟨b1, b2⟩ := abs_le.mp dWr
  have n1 : (17 : ℝ) ≤ n := by exact_mod_cast h1
  have n2 : (n : ℝ) + 1 ≤ n' := by exact_mod_cast hlt
  norm_num at a1 a2 b1 b2
  exact ⟨V, W, hV, hW, h, by norm_num; linarith, by norm_num; linarith⟩

/-- The lights of two luma codes, whatever the transfer function: apart by as much as the PQ encoder needs. -/
theorem luma_steep {ar ar' : Arith F32} (hf : Floats ar) (hf' : Floats ar') (t : ColorTransfer) {n n' : Nat}
    (h1 : 17 ≤ n) (hlt : n < n') (h235 : n' ≤ 235) {q q' : ℚ} (hq : Is (decodeTransfer ar t (lumaFloat n)) q)
    (hq' : Is (decodeTransfer ar' t (lumaFloat n')) q') : Steep (1 / 10 ^ 5) q q' ∧ (q' : ℝ) ≤ 10006 := by
  obtain ⟨V, W, hV, hW, h⟩ := luma_step h1 hlt h235
  obtain ⟨V0, V1, W0, W1⟩ := h.toCodeApart.rat
  have v0 : 0 ≤ V := by linarith
  have w0 : 0 ≤ W := by linarith
  have gv := luma_good n
  have gw := luma_good n'
  have small : ∀ {t}, t ≠ .BT2100PQ → Is (decodeTransfer ar' t (lumaFloat n')) q' → (q' : ℝ) ≤ 10006 := by
    intro t ht hq'
    obtain ⟨q2, hq2, -, h⟩ := ramp_luma.light hf' t (n := n') (by omega) h235
    obtain rfl := hq'.unique hq2
    exact (h ht).trans (by norm_num)
  cases t with
  | Linear =>
    obtain rfl := hq.unique hV
    obtain rfl := hq'.unique hW
    have hw := h.hi
    have l := h.low
    have s := h.step
    refine ⟨h.star (L := q) (L' := q') (by norm_num at l ⊢; linarith) (by linarith) (fun k => by norm_num at k ⊢; linarith)
      (fun k => by norm_num at k ⊢; linarith) (fun k => by norm_num at k ⊢; linarith) (fun k => by norm_num at k ⊢; linarith)
      (by norm_num) (by norm_num), by linarith⟩
  | Gamma22 =>
    obtain ⟨x, hx, dx⟩ := (dec_gamma22_app hf hV gv v0 V1).is
    obtain ⟨y, hy, dy⟩ := (dec_gamma22_app hf' hW gw w0 W1).is
    obtain rfl := hq.unique hx
    obtain rfl := hq'.unique hy
    refine ⟨h.gamma22 (dx.trans (by norm_num)) (dy.trans (by norm_num)), ?_⟩
    have := Real.rpow_le_one (by exact_mod_cast w0) h.hi (show (0 : ℝ) ≤ 2.2 by norm_num)
    have := (abs_le.mp dy).2
    generalize (W : ℝ) ^ (2.2 : ℝ) = z at *
    norm_num at this; linarith
  | Gamma28 =>
    obtain ⟨x, hx, dx⟩ := (dec_gamma28_app hf hV gv v0 V1).is
    obtain ⟨y, hy, dy⟩ := (dec_gamma28_app hf' hW gw w0 W1).is
    obtain rfl := hq.unique hx
    obtain rfl := hq'.unique hy
    refine ⟨h.gamma28 (dx.trans (by norm_num)) (dy.trans (by norm_num)), ?_⟩
    have := Real.rpow_le_one (by exact_mod_cast w0) h.hi (show (0 : ℝ) ≤ 2.8 by norm_num)
    have := (abs_le.mp dy).2
    generalize (W : ℝ) ^ (2.8 : ℝ) = z at *
    norm_num at this; linarith
  | SRGB =>
    obtain ⟨x, hx, dx⟩ := (dec_srgb_app hf hV gv v0 V1).is
    obtain ⟨y, hy, dy⟩ := (dec_srgb_app hf' hW gw w0 W1).is
    obtain rfl := hq.unique hx
    obtain rfl := hq'.unique hy
    refine ⟨h.srgb' _ (fun _ => rfl) (dx.trans (by norm_num)) (dy.trans (by norm_num)), ?_⟩
    exact small (t := .SRGB) nofun hq'
  | SDR =>
    obtain ⟨x, hx, dx⟩ := (dec_sdr_app hf hV gv v0 V1).is
    obtain ⟨y, hy, dy⟩ := (dec_sdr_app hf' hW gw w0 W1).is
    obtain rfl := hq.unique hx
    obtain rfl := hq'.unique hy
    refine ⟨h.sdr' _ (fun _ => rfl) (dx.trans (by norm_num)) (dy.trans (by norm_num)), ?_⟩
    exact small (t := .SDR) nofun hq'
  | BT2100HLG =>
    obtain ⟨x, hx, dx⟩ := (dec_hlg_app hf hV gv v0 V1).is
    obtain ⟨y, hy, dy⟩ := (dec_hlg_app hf' hW gw w0 W1).is
    obtain rfl := hq.unique hx
    obtain rfl := hq'.unique hy
    refine ⟨h.hlg' _ (fun _ => rfl) (dx.trans (by norm_num)) (dy.trans (by norm_num)), ?_⟩
    exact small (t := .BT2100HLG) nofun hq'
  | BT2100PQ =>
    obtain ⟨x, hx, dx⟩ := (dec_pq_app hf hV gv v0 V1).is
    obtain ⟨y, hy, dy⟩ := (dec_pq_app hf' hW gw w0 W1).is
    obtain rfl := hq.unique hx
    obtain rfl := hq'.unique hy
    obtain ⟨c1, c2, c3⟩ := h.toCodeApart.pq _ fun x => rfl
    have key := fun a b => h.pq' _ (fun _ => rfl) (q := q) (q' := q') a b
    generalize (max ((V : ℝ) ^ (1 / 78.84375 : ℝ) - 0.8359375) 0 / (18.851563 - (V : ℝ) ^ (1 / 78.84375 : ℝ) * 18.6875)) ^
      (1 / 0.15930176 : ℝ) * 10000 = L at *
    generalize (max ((W : ℝ) ^ (1 / 78.84375 : ℝ) - 0.8359375) 0 / (18.851563 - (W : ℝ) ^ (1 / 78.84375 : ℝ) * 18.6875)) ^
      (1 / 0.15930176 : ℝ) * 10000 = L' at *
    have L0 : 0 ≤ L := by norm_num at c1; linarith
    have L0' : 0 ≤ L' := by norm_num at c1 c2; linarith
    refine ⟨key (dx.trans (by norm_num; linarith)) (dy.trans (by norm_num; linarith)), ?_⟩
    have := (abs_le.mp dy).2
    norm_num at this; linarith

end Ezk

import Verif.Proofs.GreyOrder4

/-!
# The lights of greys are apart by as much as their band says
-/

namespace Ezk
open F32 Spec

/-- Mixing keeps greys apart. -/
theorem Steep.mix {a b x y : ℝ} (hb : a ≤ b) (h : Steep (1 / 10 ^ 5) a b) (hx : |x - a| ≤ 35 / 10 ^ 7 * max (1 / 10 ^ 4) a)
    (hy : |y - b| ≤ 35 / 10 ^ 7 * max (1 / 10 ^ 4) b) : Steep 0 x y := by
  intro lo hi δ r band h1 h2
  have l0 : 1 / 10 ^ 4 ≤ lo := by cases band <;> norm_num
  have d0 : 0 < δ ∧ δ ≤ 125 / 1000 := by cases band <;> norm_num
  obtain ⟨d0, d1⟩ := d0
  have ma : max (1 / 10 ^ 4) a ≤ 1 / 10 ^ 4 + max 0 a := max_le (by have := le_max_left 0 a; linarith) (by have := le_max_right 0 a; norm_num; linarith)
  obtain ⟨x1, x2⟩ := abs_le.mp hx
  obtain ⟨y1, y2⟩ := abs_le.mp hy
  have a0 : 99 / 10 ^ 6 ≤ a := by
    by_contra hc
    have : max (1 / 10 ^ 4) a = 1 / 10 ^ 4 := max_eq_left (by norm_num at hc ⊢; linarith)
    rw [this] at x2
    norm_num at x2 hc l0 h1; linarith
  have a1 : max (1 / 10 ^ 4) a ≤ 102 / 100 * a := max_le (by norm_num at a0 ⊢; linarith) (by norm_num at a0 ⊢; linarith)
  have b1 : max (1 / 10 ^ 4) b ≤ 102 / 100 * b := max_le (by norm_num at a0 ⊢; linarith) (by norm_num at a0 ⊢; linarith)
  have a0' : 0 < a := by norm_num at a0; linarith
  generalize max (1 / 10 ^ 4) a = A at *
  generalize max (1 / 10 ^ 4) b = B at *
  have key := h lo hi δ r band (by
    norm_num at *; linarith) (by norm_num at *; linarith)
  have k1 : 0 ≤ δ * a := mul_nonneg d0.le a0'.le
  have k2 : δ * a ≤ 125 / 1000 * a := mul_le_mul_of_nonneg_right d1 a0'.le
  have k3 : x ≤ (1 + 36 / 10 ^ 7) * a := by norm_num at *; linarith
  have k4 : (1 + δ) * x ≤ (1 + δ) * ((1 + 36 / 10 ^ 7) * a) := mul_le_mul_of_nonneg_left k3 (by linarith)
  norm_num at *
  linarith

/-- From exact lights to computed ones, up to 3·10⁻⁶. -/
theorem steep_abs {L L' q q' p : ℝ} {n : Nat} (h1 : 1 ≤ n) (hq : |q - L| ≤ 3 / 10 ^ 6) (hq' : |q' - L'| ≤ 3 / 10 ^ 6)
    (hp : L * p ≤ (L' - L) * n) (hr : ∀ lo hi δ r, Band lo hi δ r → lo - 6 / 10 ^ 6 ≤ L → L < hi + 1 / 10 ^ 5 → r * n ≤ p) :
    Steep (1 / 10 ^ 5) q q' := by
  intro lo hi δ r band h2 h3
  have n0 : (0 : ℝ) < n := by exact_mod_cast h1
  obtain ⟨a1, a2⟩ := abs_le.mp hq
  obtain ⟨b1, b2⟩ := abs_le.mp hq'
  have hlo : lo - 6 / 10 ^ 6 ≤ L := by cases band <;> (norm_num at *; linarith)
  have hhi : L < hi + 1 / 10 ^ 5 := by cases band <;> (norm_num at *; linarith)
  have L0 : 0 < L := by cases band <;> (norm_num at *; linarith)
  have k := hr lo hi δ r band hlo hhi
  have k2 : L * r ≤ L' - L := by
    have : L * r * n ≤ (L' - L) * n := by
      refine le_trans ?_ hp
      calc L * r * n = L * (r * n) := by ring
        _ ≤ L * p := mul_le_mul_of_nonneg_left k L0.le
    exact le_of_mul_le_mul_right this n0
  cases band <;> (norm_num at *; linarith)

/-- Where the bands end, for a function that starts small and grows. -/
theorem band_count {L p : ℝ} {n : Nat} (k1 k2 k3 k4 k5 k6 k7 : Nat) (hn : n ≤ 254)
    (h1 : k1 < n → 209 / 10 ^ 6 ≤ L) (h2 : k2 < n → 101 / 10 ^ 5 ≤ L) (h3 : k3 < n → 301 / 10 ^ 5 ≤ L) (h4 : k4 < n → 1001 / 10 ^ 5 ≤ L)
    (h5 : k5 < n → 8001 / 10 ^ 5 ≤ L) (h6 : k6 < n → 20001 / 10 ^ 5 ≤ L) (h7 : k7 < n → 50001 / 10 ^ 5 ≤ L)
    (p1 : 199 / 1000 * k1 ≤ p) (p2 : 121 / 1000 * k2 ≤ p) (p3 : 424 / 10 ^ 4 * k3 ≤ p) (p4 : 384 / 10 ^ 4 * k4 ≤ p)
    (p5 : 1218 / 10 ^ 5 * k5 ≤ p) (p6 : 56 / 10 ^ 4 * k6 ≤ p) (p7 : 406 / 10 ^ 5 * k7 ≤ p) {lo hi δ r : ℝ} (band : Band lo hi δ r)
    (hL : L < hi + 1 / 10 ^ 5) : r * n ≤ p := by
  have cast : ∀ {k : Nat}, ¬ k < n → (n : ℝ) ≤ k := fun h => by exact_mod_cast not_lt.mp h
  cases band
  · by_cases h : k1 < n
    · have := h1 h; norm_num at this hL; linarith
    · have := cast h; norm_num at p1 ⊢; linarith
  · by_cases h : k2 < n
    · have := h2 h; norm_num at this hL; linarith
    · have := cast h; norm_num at p2 ⊢; linarith
  · by_cases h : k3 < n
    · have := h3 h; norm_num at this hL; linarith
    · have := cast h; norm_num at p3 ⊢; linarith
  · by_cases h : k4 < n
    · have := h4 h; norm_num at this hL; linarith
    · have := cast h; norm_num at p4 ⊢; linarith
  · by_cases h : k5 < n
    · have := h5 h; norm_num at this hL; linarith
    · have := cast h; norm_num at p5 ⊢; linarith
  · by_cases h : k6 < n
    · have := h6 h; norm_num at this hL; linarith
    · have := cast h; norm_num at p6 ⊢; linarith
  · by_cases h : k7 < n
    · have := h7 h; norm_num at this hL; linarith
    · have := cast h; norm_num at p7 ⊢; linarith

/-- Functions that grow faster than the signal. -/
theorem steep_star {F : Nat → ℝ} (pos : ∀ n : Nat, 1 ≤ n → 303 / 10 ^ 6 * (n : ℝ) ≤ F n)
    (star : ∀ n n' : Nat, n ≤ n' → F n * n' ≤ F n' * n)
    (f2 : 101 / 10 ^ 5 ≤ F 9) (f3 : 301 / 10 ^ 5 ≤ F 24) (f4 : 1001 / 10 ^ 5 ≤ F 27) (f5 : 8001 / 10 ^ 5 ≤ F 83) (f6 : 20001 / 10 ^ 5 ≤ F 179)
    (f7 : 50001 / 10 ^ 5 ≤ F 247) {n n' : Nat} (h1 : 1 ≤ n) (hlt : n < n') (h255 : n' ≤ 255) {q q' : ℝ} (hq : |q - F n| ≤ 3 / 10 ^ 6)
    (hq' : |q' - F n'| ≤ 3 / 10 ^ 6) : Steep (1 / 10 ^ 5) q q' := by
  have grow : ∀ {k c}, 1 ≤ k → c ≤ F k → 0 ≤ c → k ≤ n → c ≤ F n := by
    intro k c hk hc c0 hkn
    have h := star k n hkn
    have k0 : (1 : ℝ) ≤ k := by exact_mod_cast hk
    have kn : (k : ℝ) ≤ n := by exact_mod_cast hkn
    have : F k * k ≤ F n * k := le_trans (mul_le_mul_of_nonneg_left kn (by linarith)) h
    exact hc.trans (le_of_mul_le_mul_right this (by linarith))
  have L0 : 0 ≤ F n := le_trans (by positivity) (pos n h1)
  have hn' : (n : ℝ) + 1 ≤ n' := by exact_mod_cast hlt
  have hn : (1 : ℝ) ≤ n := by exact_mod_cast h1
  refine steep_abs (p := 1) h1 hq hq' ?_ ?_
  · have := mul_le_mul_of_nonneg_left hn' L0
    have := star n n' hlt.le
    linarith
  · intro lo hi δ r band _ hL
    refine band_count (L := F n) 0 8 23 26 82 178 246 (by omega) (fun _ => ?_) (fun h => grow (by norm_num) f2 (by norm_num) h)
      (fun h => grow (by norm_num) f3 (by norm_num) h) (fun h => grow (by norm_num) f4 (by norm_num) h)
      (fun h => grow (by norm_num) f5 (by norm_num) h) (fun h => grow (by norm_num) f6 (by norm_num) h)
      (fun h => grow (by norm_num) f7 (by norm_num) h) (by norm_num) (by norm_num) (by norm_num) (by norm_num) (by norm_num) (by norm_num)
      (by norm_num) band hL
    refine le_trans ?_ (pos n h1)
    norm_num; linarith

/-- Powers. -/
theorem power_grows {C : ℝ} (hC : 1 ≤ C) {n n' : Nat} (h1 : 1 ≤ n) (hlt : n < n') :
    ((n : ℝ) / 255) ^ C * C ≤ (((n' : ℝ) / 255) ^ C - ((n : ℝ) / 255) ^ C) * n := by
  have hn' : (n : ℝ) + 1 ≤ n' := by exact_mod_cast hlt
  have hn : (0 : ℝ) < n := by exact_mod_cast h1
  have k1 : ((n : ℝ) / 255) * (1 + 1 / n) ≤ (n' : ℝ) / 255 := by
    have : ((n : ℝ) / 255) * (1 + 1 / n) = (n + 1) / 255 := by field_simp
    rw [this]; linarith
  have k2 := Real.rpow_le_rpow (by positivity) k1 (show 0 ≤ C by linarith)
  rw [Real.mul_rpow (by positivity) (by positivity)] at k2
  have k3 := one_add_mul_self_le_rpow_one_add (s := 1 / (n : ℝ)) (p := C) (le_trans (by norm_num) (show (0 : ℝ) ≤ 1 / n by positivity)) hC
  have z0 : 0 ≤ ((n : ℝ) / 255) ^ C := Real.rpow_nonneg (by positivity) _
  generalize ((n : ℝ) / 255) ^ C = z at *
  generalize ((n' : ℝ) / 255) ^ C = z' at *
  have k4 := (mul_le_mul_of_nonneg_left k3 z0).trans k2
  have k5 := mul_le_mul_of_nonneg_right k4 hn.le
  have e : z * (1 + C * (1 / n)) * n = z * n + z * C := by field_simp
  rw [e] at k5
  linarith

theorem power_grow {C : ℝ} (hC : 1 ≤ C) {n k : Nat} {c : ℝ} (hc : c ≤ ((k : ℝ) / 255) ^ C) (h : k ≤ n) : c ≤ ((n : ℝ) / 255) ^ C :=
  hc.trans (Real.rpow_le_rpow (by positivity) (by
    have : (k : ℝ) ≤ n := by exact_mod_cast h
    linarith) (by linarith))

section
variable {rr : Arith ℝ} (he : Exact rr) {n n' : Nat} (h1 : 1 ≤ n) (hlt : n < n') (h255 : n' ≤ 255) {q q' : ℝ}
include he h1 hlt h255

theorem steep_gamma22 (hq : |q - decodeTransfer rr .Gamma22 ((n : ℝ) / 255)| ≤ 3 / 10 ^ 6)
    (hq' : |q' - decodeTransfer rr .Gamma22 ((n' : ℝ) / 255)| ≤ 3 / 10 ^ 6) : Steep (1 / 10 ^ 5) q q' := by
  rw [dec_gamma22 he] at hq hq'
  have lo : ∀ {c : ℝ} {k : Nat}, 0 ≤ c → c ^ 5 ≤ ((k : ℝ) / 255) ^ 11 → k ≤ n → c ≤ ((n : ℝ) / 255) ^ (2.2 : ℝ) := fun hc h hk =>
    power_grow (by norm_num) ((le_rpow_iff (m := 11) (n := 5) (by norm_num) (by norm_num) hc (by positivity)).mpr h) hk
  refine steep_abs (p := 2.2) h1 hq hq' (power_grows (by norm_num) h1 hlt) ?_
  intro lo' hi δ r band _ hL
  exact band_count 11 18 51 51 180 255 255 (by omega) (fun h => lo (by norm_num) (by norm_num) h) (fun h => lo (by norm_num) (by norm_num) h)
    (fun h => lo (by norm_num) (by norm_num) h) (fun h => lo (by norm_num) (by norm_num) h) (fun h => lo (by norm_num) (by norm_num) h)
    (fun h => by omega) (fun h => by omega) (by norm_num) (by norm_num) (by norm_num) (by norm_num) (by norm_num) (by norm_num)
    (by norm_num) band hL

theorem steep_gamma28 (hq : |q - decodeTransfer rr .Gamma28 ((n : ℝ) / 255)| ≤ 3 / 10 ^ 6)
    (hq' : |q' - decodeTransfer rr .Gamma28 ((n' : ℝ) / 255)| ≤ 3 / 10 ^ 6) : Steep (1 / 10 ^ 5) q q' := by
  rw [dec_gamma28 he] at hq hq'
  have lo : ∀ {c : ℝ} {k : Nat}, 0 ≤ c → c ^ 5 ≤ ((k : ℝ) / 255) ^ 14 → k ≤ n → c ≤ ((n : ℝ) / 255) ^ (2.8 : ℝ) := fun hc h hk =>
    power_grow (by norm_num) ((le_rpow_iff (m := 14) (n := 5) (by norm_num) (by norm_num) hc (by positivity)).mpr h) hk
  refine steep_abs (p := 2.8) h1 hq hq' (power_grows (by norm_num) h1 hlt) ?_
  intro lo' hi δ r band _ hL
  exact band_count 14 23 66 66 229 255 255 (by omega) (fun h => lo (by norm_num) (by norm_num) h) (fun h => lo (by norm_num) (by norm_num) h)
    (fun h => lo (by norm_num) (by norm_num) h) (fun h => lo (by norm_num) (by norm_num) h) (fun h => lo (by norm_num) (by norm_num) h)
    (fun h => by omega) (fun h => by omega) (by norm_num) (by norm_num) (by norm_num) (by norm_num) (by norm_num) (by norm_num)
    (by norm_num) band hL

theorem steep_linear (hq : |q - decodeTransfer rr .Linear ((n : ℝ) / 255)| ≤ 3 / 10 ^ 6)
    (hq' : |q' - decodeTransfer rr .Linear ((n' : ℝ) / 255)| ≤ 3 / 10 ^ 6) : Steep (1 / 10 ^ 5) q q' := by
  refine steep_star (F := fun n => decodeTransfer rr .Linear ((n : ℝ) / 255)) (fun n _ => (star_linear he (n' := n)).1)
    (fun n n' h => (star_linear he).2) ?_ ?_ ?_ ?_ ?_ ?_ h1 hlt h255 hq hq' <;> (simp only [decodeTransfer]; norm_num)

theorem steep_srgb (hq : |q - decodeTransfer rr .SRGB ((n : ℝ) / 255)| ≤ 3 / 10 ^ 6)
    (hq' : |q' - decodeTransfer rr .SRGB ((n' : ℝ) / 255)| ≤ 3 / 10 ^ 6) : Steep (1 / 10 ^ 5) q q' := by
  have lo : ∀ {c x : ℝ}, 0 ≤ c → 0 ≤ x → c ^ 5 ≤ x ^ 12 → c ≤ x ^ (2.4 : ℝ) := fun hc hx h =>
    (le_rpow_iff (m := 12) (n := 5) (by norm_num) (by norm_num) hc hx).mpr h
  refine steep_star (F := fun n => decodeTransfer rr .SRGB ((n : ℝ) / 255)) (fun n _ => (star_srgb he (le_refl n)).1)
    (fun n n' h => (star_srgb he h).2) ?_ ?_ ?_ ?_ ?_ ?_ h1 hlt h255 hq hq'
  · beta_reduce; rw [srgb_low he (by norm_num)]; norm_num
  all_goals beta_reduce; rw [srgb_high he (by norm_num)]; exact lo (by norm_num) (by norm_num) (by norm_num)

theorem steep_sdr (hq : |q - decodeTransfer rr .SDR ((n : ℝ) / 255)| ≤ 3 / 10 ^ 6)
    (hq' : |q' - decodeTransfer rr .SDR ((n' : ℝ) / 255)| ≤ 3 / 10 ^ 6) : Steep (1 / 10 ^ 5) q q' := by
  have lo : ∀ {c x : ℝ}, 0 ≤ c → 0 ≤ x → c ^ 9 ≤ x ^ 20 → c ≤ x ^ (1 / 0.45 : ℝ) := fun hc hx h =>
    (le_rpow_iff (m := 20) (n := 9) (by norm_num) (by norm_num) hc hx).mpr h
  refine steep_star (F := fun n => decodeTransfer rr .SDR ((n : ℝ) / 255)) (fun n _ => (star_sdr he (le_refl n)).1)
    (fun n n' h => (star_sdr he h).2) ?_ ?_ ?_ ?_ ?_ ?_ h1 hlt h255 hq hq'
  · beta_reduce; rw [sdr_low he (by norm_num)]; norm_num
  all_goals beta_reduce; rw [sdr_high he (by norm_num)]; exact lo (by norm_num) (by norm_num) (by norm_num)

theorem steep_hlg (hq : |q - decodeTransfer rr .BT2100HLG ((n : ℝ) / 255)| ≤ 3 / 10 ^ 6)
    (hq' : |q' - decodeTransfer rr .BT2100HLG ((n' : ℝ) / 255)| ≤ 3 / 10 ^ 6) : Steep (1 / 10 ^ 5) q q' := by
  have low : ∀ {k : Nat}, k ≤ 127 → decodeTransfer rr .BT2100HLG ((k : ℝ) / 255) = ((k : ℝ) / 255) ^ 2 / 3 := by
    intro k hk
    have : (k : ℝ) ≤ 127 := by exact_mod_cast hk
    rw [dec_hlg he, max_eq_left (by positivity), if_pos (by norm_num; linarith)]
  have hn1 : (1 : ℝ) ≤ n := by exact_mod_cast h1
  have hn' : (n : ℝ) + 1 ≤ n' := by exact_mod_cast hlt
  have b128 := hlg_128 he
  have big : ∀ {k : Nat}, 128 ≤ k → 839 / 10 ^ 4 ≤ decodeTransfer rr .BT2100HLG ((k : ℝ) / 255) := by
    intro k hk
    have s := hlg_star he (le_refl 128) hk
    have : (128 : ℝ) ≤ k := by exact_mod_cast hk
    have h3 : decodeTransfer rr .BT2100HLG (((128 : ℕ) : ℝ) / 255) * ((128 : ℕ) : ℝ) ≤
        decodeTransfer rr .BT2100HLG (((128 : ℕ) : ℝ) / 255) * k :=
      mul_le_mul_of_nonneg_left (by push_cast; exact this) (by norm_num at b128 ⊢; linarith)
    norm_num at h3 s b128 ⊢
    linarith
  rcases le_or_gt n' 127 with hl' | hl'
  · rw [low (by omega)] at hq
    rw [low hl'] at hq'
    have grow : ∀ {k : Nat} {c : ℝ}, c ≤ ((k : ℝ) / 255) ^ 2 / 3 → k ≤ n → c ≤ ((n : ℝ) / 255) ^ 2 / 3 := by
      intro k c hc hk
      have hk' : (k : ℝ) ≤ n := by exact_mod_cast hk
      have := pow_le_pow_left₀ (by positivity) (show (k : ℝ) / 255 ≤ (n : ℝ) / 255 by linarith) 2
      linarith
    refine steep_abs (p := 2) h1 hq hq' ?_ ?_
    · have k1 : ((n : ℝ) + 1) ^ 2 ≤ (n' : ℝ) ^ 2 := pow_le_pow_left₀ (by positivity) hn' 2
      have k2 := mul_le_mul_of_nonneg_right k1 (show (0 : ℝ) ≤ n by linarith)
      rw [div_pow, div_pow]
      nlinarith
    · intro lo' hi δ r band _ hL
      exact band_count 10 16 47 47 127 127 127 (by omega) (fun h => grow (by norm_num) h) (fun h => grow (by norm_num) h)
        (fun h => grow (by norm_num) h) (fun h => grow (by norm_num) h) (fun h => by omega)
        (fun h => by omega) (fun h => by omega) (by norm_num) (by norm_num) (by norm_num) (by norm_num) (by norm_num) (by norm_num)
        (by norm_num) band hL
  · rcases le_or_gt n 127 with hl | hl
    · have hbig := big hl'
      have hn : (n : ℝ) ≤ 127 := by exact_mod_cast hl
      rw [low hl] at hq
      have grow : ∀ {k : Nat} {c : ℝ}, c ≤ ((k : ℝ) / 255) ^ 2 / 3 → k ≤ n → c ≤ ((n : ℝ) / 255) ^ 2 / 3 := by
        intro k c hc hk
        have hk' : (k : ℝ) ≤ n := by exact_mod_cast hk
        have := pow_le_pow_left₀ (by positivity) (show (k : ℝ) / 255 ≤ (n : ℝ) / 255 by linarith) 2
        linarith
      rcases le_or_gt n 110 with hs | hs
      · have hn : (n : ℝ) ≤ 110 := by exact_mod_cast hs
        refine steep_abs (p := 2 / 10 * n) h1 hq hq' ?_ ?_
        · generalize decodeTransfer rr .BT2100HLG ((n' : ℝ) / 255) = D at *
          have k1 : ((n : ℝ) / 255) ^ 2 ≤ (110 / 255) ^ 2 := pow_le_pow_left₀ (by positivity) (by linarith) 2
          generalize ((n : ℝ) / 255) ^ 2 = z at *
          have k2 : z / 3 * (2 / 10) ≤ D - z / 3 := by norm_num at *; linarith
          have := mul_le_mul_of_nonneg_right k2 (show (0 : ℝ) ≤ n by linarith)
          linarith
        · intro lo' hi δ r band _ hL
          have : r ≤ 2 / 10 := by cases band <;> norm_num
          exact mul_le_mul_of_nonneg_right this (by linarith)
      refine steep_abs (p := 155 / 100) h1 hq hq' ?_ ?_
      · generalize decodeTransfer rr .BT2100HLG ((n' : ℝ) / 255) = D at *
        have k1 : (n : ℝ) * (n + 155 / 100) ≤ 127 * (127 + 155 / 100) := by nlinarith
        have k2 : ((n : ℝ) / 255) ^ 2 / 3 = (n * n : ℝ) / 195075 := by ring
        rw [k2]
        have k3 : 839 / 10 ^ 4 * (n : ℝ) ≤ D * n := mul_le_mul_of_nonneg_right hbig (by linarith)
        have k4 := mul_le_mul_of_nonneg_right k1 (show (0 : ℝ) ≤ n by linarith)
        norm_num at k3 ⊢
        nlinarith
      · intro lo' hi δ r band _ hL
        have b : ∀ {c : ℝ}, c ≤ 6 / 100 → c ≤ ((n : ℝ) / 255) ^ 2 / 3 := fun h => h.trans (grow (k := 111) (by norm_num) hs)
        exact band_count 0 0 0 0 127 127 127 (by omega) (fun h => b (by norm_num)) (fun h => b (by norm_num))
          (fun h => b (by norm_num)) (fun h => b (by norm_num)) (fun h => by omega)
          (fun h => by omega) (fun h => by omega) (by norm_num) (by norm_num) (by norm_num) (by norm_num) (by norm_num) (by norm_num)
          (by norm_num) band hL
    · have hbig := big hl
      have star := hlg_star he hl hlt.le
      have L0 : 0 ≤ decodeTransfer rr .BT2100HLG ((n : ℝ) / 255) := by norm_num at hbig; linarith
      have grow : ∀ {k : Nat} {c : ℝ}, 128 ≤ k → c ≤ decodeTransfer rr .BT2100HLG ((k : ℝ) / 255) → 0 ≤ c → k ≤ n →
          c ≤ decodeTransfer rr .BT2100HLG ((n : ℝ) / 255) := by
        intro k c hk hc c0 hkn
        have h := hlg_star he hk hkn
        have k0 : (128 : ℝ) ≤ k := by exact_mod_cast hk
        have kn : (k : ℝ) ≤ n := by exact_mod_cast hkn
        have := le_trans (mul_le_mul_of_nonneg_left kn (c0.trans hc)) h
        exact hc.trans (le_of_mul_le_mul_right this (by linarith))
      have e179 : 20001 / 10 ^ 5 ≤ decodeTransfer rr .BT2100HLG (((179 : ℕ) : ℝ) / 255) := by
        rw [hlg_high he (by norm_num)]
        have : (212 / 100 : ℝ) ≤ Real.exp ((((179 : ℕ) : ℝ) / 255 - 0.5599107) / 0.17883277) := by
          refine le_exp (by rw [abs_le]; norm_num) ?_
          rw [abs_of_pos (by norm_num)]
          norm_num
        generalize Real.exp ((((179 : ℕ) : ℝ) / 255 - 0.5599107) / 0.17883277) = z at *
        norm_num at this ⊢; linarith
      have e247 : 50001 / 10 ^ 5 ≤ decodeTransfer rr .BT2100HLG (((247 : ℕ) : ℝ) / 255) := by
        rw [hlg_high he (by norm_num)]
        have h2 : (215 / 100 : ℝ) ≤ Real.exp ((((247 : ℕ) : ℝ) / 255 - 0.5599107) / 0.17883277) := by
          refine le_trans (b := (((247 : ℕ) : ℝ) / 255 - 0.5599107) / 0.17883277 + 1) (by norm_num) (Real.add_one_le_exp _)
        have h3 : (6 : ℝ) ≤ Real.exp ((((247 : ℕ) : ℝ) / 255 - 0.5599107) / 0.17883277) := by
          have := Real.quadratic_le_exp_of_nonneg (x := (((247 : ℕ) : ℝ) / 255 - 0.5599107) / 0.17883277 / 2) (by norm_num)
          have e : Real.exp ((((247 : ℕ) : ℝ) / 255 - 0.5599107) / 0.17883277) =
              Real.exp ((((247 : ℕ) : ℝ) / 255 - 0.5599107) / 0.17883277 / 2) ^ 2 := by
            rw [← Real.exp_nat_mul]; congr 1; push_cast; ring
          rw [e]
          have h4 : (25 / 10 : ℝ) ≤ Real.exp ((((247 : ℕ) : ℝ) / 255 - 0.5599107) / 0.17883277 / 2) := le_trans (by norm_num) this
          nlinarith
        generalize Real.exp ((((247 : ℕ) : ℝ) / 255 - 0.5599107) / 0.17883277) = z at *
        norm_num at h3 ⊢; linarith
      refine steep_abs (p := 1) h1 hq hq' ?_ ?_
      · have := mul_le_mul_of_nonneg_left hn' L0
        linarith
      · intro lo' hi δ r band _ hL
        have b : ∀ {c : ℝ}, c ≤ 839 / 10 ^ 4 → c ≤ decodeTransfer rr .BT2100HLG ((n : ℝ) / 255) := fun h => h.trans hbig
        exact band_count 0 0 0 0 0 178 246 (by omega) (fun h => b (by norm_num)) (fun h => b (by norm_num))
          (fun h => b (by norm_num)) (fun h => b (by norm_num)) (fun h => b (by norm_num))
          (fun h => grow (by norm_num) e179 (by norm_num) h) (fun h => grow (by norm_num) e247 (by norm_num) h)
          (by norm_num) (by norm_num) (by norm_num) (by norm_num) (by norm_num) (by norm_num)
          (by norm_num) band hL

end
end Ezk

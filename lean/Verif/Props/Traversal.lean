import Verif.Proofs.Once

/-!
# C17: every 2×2 block is visited exactly once
-/

namespace Ezk.Props
open FOps

variable {F : Type} [FOps F]

/-- **C17**: for every even size and every vector length, each pixel is worked on by exactly one call. -/
theorem C17_each_pixel_once (L w h : Nat) (hL : 0 < L) (hw : w % 2 = 0) (hh : h % 2 = 0) (X Y : Nat) (hX : X < w)
    (hY : Y < h) : (visitCalls L w h).countP (fun k => Touches L k X Y) = 1 := by
  have hm : w % (L * 2) ≤ w := Nat.mod_le _ _
  obtain ⟨k, hk, ht⟩ : ∃ k ∈ visitCalls L w h, Touches L k X Y := by
    by_cases hv : X < w - w % (L * 2)
    · refine ⟨⟨true, X / (L * 2) * (L * 2), Y / 2 * 2⟩, ?_, ?_⟩
      · rw [mem_visitCalls hL, if_pos rfl]
        have := Nat.div_mul_le_self X (L * 2)
        exact ⟨by dsimp only; omega, Nat.mul_mod_left _ _, by dsimp only; omega⟩
      · have e := Nat.div_add_mod X (L * 2)
        have := Nat.mod_lt X (show 0 < L * 2 by omega)
        rw [Nat.mul_comm (L * 2) (X / _)] at e
        exact ⟨by dsimp only; omega, by dsimp only; rw [if_pos rfl]; omega, by dsimp only; omega, by dsimp only; omega⟩
    · refine ⟨⟨false, w - w % (L * 2) + (X - (w - w % (L * 2))) / 2 * 2, Y / 2 * 2⟩, ?_, ?_⟩
      · rw [mem_visitCalls hL, if_neg (by simp)]
        dsimp only
        omega
      · exact ⟨by dsimp only; omega, by dsimp only; rw [if_neg (by simp)]; omega, by dsimp only; omega,
          by dsimp only; omega⟩
  refine countP_one (visitCalls_nodup hL) hk (by simpa using ht) ?_
  intro b hb hb'
  exact touches_unique hL hw hb hk (by simpa using hb') ht

/-- **C17**: no call works on a pixel outside of the image, and every block starts at an even position. -/
theorem C17_inside (L w h : Nat) (hL : 0 < L) (hw : w % 2 = 0) (hh : h % 2 = 0) (k : VisitCall)
    (hk : k ∈ visitCalls L w h) :
    k.x % 2 = 0 ∧ k.y % 2 = 0 ∧ ∀ X Y, Touches L k X Y → X < w ∧ Y < h := by
  have hm : w % (L * 2) ≤ w := Nat.mod_le _ _
  have hev := vectored_even (L := L) hw
  rw [mem_visitCalls hL] at hk
  obtain ⟨b, x, y⟩ := k
  obtain ⟨hy, hx⟩ := hk
  dsimp only at hx hy ⊢
  cases b
  · rw [if_neg (by simp)] at hx
    refine ⟨by omega, by omega, ?_⟩
    rintro X Y ⟨t1, t2, t3, t4⟩
    simp only [Bool.false_eq_true, if_false] at t2
    dsimp only at *
    omega
  · rw [if_pos rfl] at hx
    have he := block_end (by omega) hx.1 (vectored_mod w (L * 2)) hx.2
    refine ⟨?_, by omega, ?_⟩
    · have : x % (L * 2) % 2 = x % 2 := Nat.mod_mod_of_dvd _ (Nat.dvd_mul_left ..)
      omega
    rintro X Y ⟨t1, t2, t3, t4⟩
    simp only [if_true] at t2
    dsimp only at *
    omega

/-- 38×6 with 8 lanes: two vector blocks and three scalar blocks per row pair. -/
example : (visitCalls 8 38 6).length = 15 ∧ (visitCalls 8 38 6).countP (fun k => Touches 8 k 37 5) = 1 := by
  decide +kernel

/-- A traversal asked for an odd size does nothing at all: it panics. -/
theorem C17_odd_panics (c : Cpu F) (j : Job F) (m : Mem) (ho : j.width % 2 = 1 ∨ j.height % 2 = 1) :
    visit c j m = .error (.panic .assertion) := by
  rw [visit]
  by_cases h1 : j.width % 2 ≠ 0
  · rw [if_pos h1]
  · rw [if_neg h1, if_pos (by omega)]

end Ezk.Props

import Verif.Proofs.Traversal
import Mathlib.Data.List.Nodup

/-! # No pixel is visited twice -/

namespace Ezk

/-- The pixels `visit::<V>(x, y)` works on: two rows of `2·LEN` pixels, where `LEN` is 1 for the scalar calls. -/
def Touches (LEN : Nat) (k : VisitCall) (X Y : Nat) : Prop :=
  k.x ≤ X ∧ X < k.x + 2 * (if k.vectored then LEN else 1) ∧ k.y ≤ Y ∧ Y < k.y + 2

instance (LEN : Nat) (k : VisitCall) (X Y : Nat) : Decidable (Touches LEN k X Y) := inferInstanceAs (Decidable (_ ∧ _))

theorem visitCalls_nodup {L w h : Nat} (hL : 0 < L) : (visitCalls L w h).Nodup := by
  rw [visitCalls]
  rw [List.nodup_flatMap]
  refine ⟨fun y _ => ?_, ?_⟩
  · rw [List.nodup_append]
    refine ⟨(nodup_stepBy (by omega)).map ?_, (nodup_stepBy (by omega)).map ?_, ?_⟩
    · intro a b e; exact (VisitCall.mk.inj e).2.1
    · intro a b e
      have := (VisitCall.mk.inj e).2.1
      omega
    · intro a ha b hb e
      simp only [List.mem_map] at ha hb
      obtain ⟨_, _, rfl⟩ := ha
      obtain ⟨_, _, rfl⟩ := hb
      simp at e
  · refine (nodup_stepBy (by omega)).imp ?_
    intro a b hab k ha hb
    simp only [List.mem_append, List.mem_map] at ha hb
    apply hab
    rcases ha with ⟨_, _, rfl⟩ | ⟨_, _, rfl⟩ <;> rcases hb with ⟨_, _, e⟩ | ⟨_, _, e⟩ <;>
      exact ((VisitCall.mk.inj e).2.2).symm

theorem mod_block_unique {L x x' X : Nat} (h1 : x % L = 0) (h2 : x' % L = 0) (a : x ≤ X) (b : X < x + L)
    (c : x' ≤ X) (d : X < x' + L) : x = x' := by
  rcases Nat.lt_trichotomy x x' with h | h | h
  · have := block_end (by omega) h1 h2 h; omega
  · exact h
  · have := block_end (by omega) h2 h1 h; omega

/-- No pixel belongs to two calls. -/
theorem touches_unique {L w h : Nat} (hL : 0 < L) (hw : w % 2 = 0) {k k' : VisitCall} (hk : k ∈ visitCalls L w h)
    (hk' : k' ∈ visitCalls L w h) {X Y : Nat} (ht : Touches L k X Y) (ht' : Touches L k' X Y) : k = k' := by
  rw [mem_visitCalls hL] at hk hk'
  have hev := vectored_even (L := L) hw
  have hm := vectored_mod w (L * 2)
  obtain ⟨b, x, y⟩ := k
  obtain ⟨b', x', y'⟩ := k'
  obtain ⟨t1, t2, t3, t4⟩ := ht
  obtain ⟨s1, s2, s3, s4⟩ := ht'
  obtain ⟨hy, hx⟩ := hk
  obtain ⟨hy', hx'⟩ := hk'
  dsimp only at *
  obtain rfl : y = y' := by omega
  have e1 : ∀ v : Nat, v % (L * 2) = 0 → v < w - w % (L * 2) → v + L * 2 ≤ w - w % (L * 2) :=
    fun v h1 h2 => block_end (by omega) h1 hm h2
  cases b <;> cases b' <;>
    simp only [if_true, if_false, reduceCtorEq, Bool.false_eq_true, ite_true, ite_false] at hx hx' t2 s2
  · obtain rfl : x = x' := by omega
    rfl
  · have := e1 x' hx'.1 hx'.2; omega
  · have := e1 x hx.1 hx.2; omega
  · obtain rfl : x = x' := mod_block_unique hx.1 hx'.1 t1 (by omega) s1 (by omega)
    rfl

theorem countP_one {α : Type} {l : List α} (hn : l.Nodup) {p : α → Bool} {a : α} (ha : a ∈ l) (hp : p a = true)
    (hu : ∀ b ∈ l, p b = true → b = a) : l.countP p = 1 := by
  induction l with
  | nil => simp at ha
  | cons b l ih =>
    rw [List.nodup_cons] at hn
    by_cases hb : p b = true
    · have e := hu b (List.mem_cons_self ..) hb
      subst e
      rw [List.countP_cons_of_pos hb]
      have : l.countP p = 0 := by
        rw [List.countP_eq_zero]
        intro c hc hpc
        have := hu c (List.mem_cons_of_mem _ hc) hpc
        subst this
        exact hn.1 hc
      omega
    · rw [List.countP_cons_of_neg hb]
      refine ih hn.2 ?_ fun c hc => hu c (List.mem_cons_of_mem _ hc)
      rcases List.mem_cons.mp ha with rfl | h
      · exact absurd hp hb
      · exact h

end Ezk

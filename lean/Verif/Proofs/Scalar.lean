import Verif.Spec.Vector

namespace Ezk
open FOps
variable {F : Type} [FOps F]

theorem scalar_lawful (ar : Arith F) : (scalarBackend ar).Lawful := by
  have fin1 : ∀ i : Fin (scalarBackend ar).LEN, i = ⟨0, Nat.one_pos⟩ := by
    intro i; apply Fin.ext; have := i.2; simp [scalarBackend] at this; exact this
  constructor
  · intro a b i; rw [fin1 i]; simp [interleave, scalarBackend]
  · intro a b i; rw [fin1 i]; simp [interleave, scalarBackend]
  · intro a b i; rw [fin1 i]; simp [concat, scalarBackend]
  · intro a b i; rw [fin1 i]; simp [concat, scalarBackend]
  · intro m s
    simp only [scalarBackend, rawRead, bind, Except.bind, pure, Except.pure]
    by_cases h : 1 ≤ s.len
    · simp only [if_pos h]; refine Eq.trans ?_ (if_pos h).symm; congr 1; funext i; rw [fin1 i]; rfl
    · simp only [if_neg h]; exact (if_neg h).symm
  · intro m s
    simp only [scalarBackend, rawRead, bind, Except.bind, pure, Except.pure]
    by_cases h : 2 ≤ s.len
    · simp only [if_pos h, Nat.mul_one]; congr 1; funext i; rw [fin1 i]; rfl
    · simp only [if_neg h, Nat.mul_one]
  · intro m s
    simp only [scalarBackend, rawRead, bind, Except.bind, pure, Except.pure]
    by_cases h : 6 ≤ s.len
    · simp only [if_pos h, Nat.mul_one]; congr 1; funext k c i; rw [fin1 i]; rfl
    · simp only [if_neg h, Nat.mul_one]
  · intro m s
    simp only [scalarBackend, rawRead, bind, Except.bind, pure, Except.pure]
    by_cases h : 8 ≤ s.len
    · simp only [if_pos h, Nat.mul_one]; congr 1; funext k c i; rw [fin1 i]; rfl
    · simp only [if_neg h, Nat.mul_one]
  · intro v m s
    simp only [scalarBackend, rawWrite]
    by_cases h : 1 ≤ s.len
    · simp only [if_pos h]; refine Eq.trans ?_ (if_pos h).symm; congr 2; funext i; rw [fin1 i]; rfl
    · simp only [if_neg h]; exact (if_neg h).symm
  · intro v0 v1 m s
    simp only [scalarBackend, rawWrite, Nat.mul_one]
    by_cases h : 2 ≤ s.len
    · simp only [if_pos h]; congr 2; funext i
      match i with
      | 0 => simp [concat]
      | 1 => simp [concat]
    · simp only [if_neg h]
  · intro v m s
    simp only [scalarBackend, rawWrite, Nat.mul_one]
    by_cases h : 2 ≤ s.len
    · simp only [if_pos h]; congr 2; funext i
      match i with
      | 0 => rfl
      | 1 => rfl
    · simp only [if_neg h]
  · intro v0 v1 m s
    simp only [scalarBackend, rawWrite, Nat.mul_one]
    by_cases h : 4 ≤ s.len
    · simp only [if_pos h]; congr 2; funext i
      match i with
      | 0 => simp [concat]
      | 1 => simp [concat]
      | 2 => simp [concat]
      | 3 => rfl
    · simp only [if_neg h]
  · intro v m s
    simp only [scalarBackend, rawWrite, Nat.mul_one]
    by_cases h : 6 ≤ s.len
    · simp only [if_pos h]; congr 2; funext i
      match i with
      | 0 | 1 | 2 | 3 | 4 | 5 => simp [concat]; try rfl
    · simp only [if_neg h]
  · intro v m s
    simp only [scalarBackend, rawWrite, Nat.mul_one]
    by_cases h : 8 ≤ s.len
    · simp only [if_pos h]; congr 2; funext i
      match i with
      | 0 | 1 | 2 | 3 | 4 | 5 | 6 | 7 => simp [concat]; try rfl
    · simp only [if_neg h]

end Ezk

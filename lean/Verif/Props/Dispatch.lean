import Verif.Spec.Cpu
import Verif.Props.Backends

/-!
# C68: only instructions that the processor has are executed
-/

namespace Ezk.Props
open Ezk Spec

/-- The vector code that is used on a platform can run on a machine: every function with `#[target_feature]` has its features there (to
call it otherwise is undefined behaviour), and so has every instruction. -/
structure Runnable (has : Detected) (p : Platform) : Prop where
  call : ∀ f ∈ callFeatures p, has f
  dynRead : ∀ f ∈ dynReadFeatures p, has f
  math : ∀ f ∈ mathFeatures p, has f
  instructions : ∀ name ∈ intrinsics p, ∃ f, instructionSet name = some f ∧ has f

theorem avx2_instructions : ∀ name ∈ intrinsics .avx2,
    instructionSet name = some .sse2 ∨ instructionSet name = some .avx ∨ instructionSet name = some .avx2 ∨ instructionSet name = some .fma := by
  decide +kernel

theorem avx512_instructions : ∀ name ∈ intrinsics .avx512,
    instructionSet name = some .avx512f ∨ instructionSet name = some .avx512bw := by
  decide +kernel

theorem neon_instructions : ∀ name ∈ intrinsics .neon, instructionSet name = some .neon := by
  decide +kernel

/-- **C68** (partial: an x86 processor with AVX-512 has FMA as well, or the build is without `unstable`; see `C68_fma_false`). On every
machine, every build of the crate chooses code that is part of the build and that the machine can run. -/
theorem C68_runnable_partial (b : Build) {has : Detected} (hc : Consistent has) (hf : b.unstable → has .avx512f → has .fma) :
    b.contains (visitPlatform b has) ∧ Runnable has (visitPlatform b has) := by
  unfold visitPlatform
  split
  · next h =>
    simp only [Bool.and_eq_true] at h
    obtain ⟨⟨h1, h2⟩, h3, h4⟩ := h
    refine ⟨by simp [Build.contains, h1, h2], ⟨?_, ?_, ?_, ?_⟩⟩
    · simp [callFeatures, h3, h4]
    · simp [dynReadFeatures, h3, hf h1 h3]
    · simp [mathFeatures, h3]
    · intro name hn
      rcases avx512_instructions name hn with h | h
      · exact ⟨_, h, h3⟩
      · exact ⟨_, h, h4⟩
  split
  · next h =>
    simp only [Bool.and_eq_true] at h
    obtain ⟨h1, h2, h3⟩ := h
    refine ⟨by simp [Build.contains, h1], ⟨?_, ?_, ?_, ?_⟩⟩
    · simp [callFeatures, h2]
    · simp [dynReadFeatures, h2, h3]
    · simp [mathFeatures, h2, h3]
    · intro name hn
      rcases avx2_instructions name hn with h | h | h | h
      · exact ⟨_, h, hc.2 (hc.1 h2)⟩
      · exact ⟨_, h, hc.1 h2⟩
      · exact ⟨_, h, h2⟩
      · exact ⟨_, h, h3⟩
  split
  · next h =>
    simp only [Bool.and_eq_true] at h
    obtain ⟨h1, h2⟩ := h
    refine ⟨by simpa [Build.contains] using h1, ⟨?_, ?_, ?_, ?_⟩⟩
    · simp [callFeatures, h2]
    · simp [dynReadFeatures, h2]
    · simp [mathFeatures, h2]
    · exact fun name hn => ⟨_, neon_instructions name hn, h2⟩
  · exact ⟨rfl, ⟨by simp [callFeatures], by simp [dynReadFeatures], by simp [mathFeatures], by simp [intrinsics]⟩⟩

/-- **C68**, `copy`: it calls only what is compiled for features the machine has. -/
theorem C68_copy (b : Build) (has : Detected) : ∀ f ∈ copyFeatures b has, has f := by
  unfold copyFeatures
  split
  · next h => simp_all
  split
  · next h => simp_all
  split
  · next h => simp_all
  · simp

/-- **C68** is false of a machine with AVX-512 and without FMA (which an emulator or a hypervisor may present): `visit` does not ask for
FMA, but calls `dyn_read`, which is compiled for it. -/
theorem C68_fma_false : ∃ has : Detected, Consistent has ∧ visitPlatform ⟨.x86_64, true⟩ has = .avx512 ∧
    Feature.fma ∈ dynReadFeatures .avx512 ∧ ¬ has .fma :=
  ⟨fun f => f ≠ .fma, by simp [Consistent], rfl, by decide, by decide⟩

/-- **C68**: vector code is used wherever it can be: the scalar code runs only on machines where none of the vector code of the build
can. -/
theorem C68_vectors_used (b : Build) (has : Detected) (h : visitPlatform b has = .scalar) (p : Platform) (hp : p ≠ .scalar)
    (hb : b.contains p) : ¬ Runnable has p := by
  intro r
  have h1 : ∀ f ∈ callFeatures p, has f = true := r.call
  have h2 : ∀ f ∈ dynReadFeatures p, has f = true := r.dynRead
  revert h
  unfold visitPlatform
  cases p with
  | scalar => exact absurd rfl hp
  | avx2 =>
    have a := h1 .avx2 (by simp [callFeatures])
    have f := h2 .fma (by simp [dynReadFeatures])
    have x : b.isX86 = true := hb
    simp only [a, f, x]
    split <;> simp
  | avx512 =>
    have a := h1 .avx512f (by simp [callFeatures])
    have f := h1 .avx512bw (by simp [callFeatures])
    have x : (b.unstable && b.isX86) = true := hb
    simp [a, f, x]
  | neon =>
    have a := h1 .neon (by simp [callFeatures])
    have x : (decide (b.arch = .aarch64)) = true := hb
    simp only [a, x]
    split
    · simp
    split <;> simp

section
variable {F : Type} [FOps F]

/-- **C68** (partial as C10): on every machine, with every build, `convert` reads and writes nothing outside of the planes. -/
theorem C68_memory_safe_partial (b : Build) (has : Detected) (simd : SimdArith F) (sar : Arith F) (src dst : Img)
    (hu : ∀ sps, src.planes = .ok sps → UniformStrides src.format sps) (m : Mem) :
    convert ((visitPlatform b has).cpu simd sar) src dst m ≠ .error .ub :=
  C10_every_platform_partial _ simd sar src dst hu m

end

/-! ## Examples -/

/-- A processor like Intel's Haswell. -/
def haswell : Detected := fun f => f = .sse2 || f = .avx || f = .avx2 || f = .fma
/-- A processor like AMD's Piledriver: FMA, but not AVX2. -/
def piledriver : Detected := fun f => f = .sse2 || f = .avx || f = .fma

example : visitPlatform ⟨.x86_64, true⟩ haswell = .avx2 ∧ Runnable haswell .avx2 :=
  ⟨rfl, (C68_runnable_partial ⟨.x86_64, true⟩ (has := haswell) ⟨by decide, by decide⟩ (by decide)).2⟩

example : visitPlatform ⟨.x86_64, false⟩ piledriver = .scalar ∧ ¬ Runnable piledriver .avx2 :=
  ⟨rfl, C68_vectors_used ⟨.x86_64, false⟩ piledriver rfl .avx2 (by simp) rfl⟩

example : visitPlatform ⟨.x86_64, false⟩ (fun _ => true) = .avx2 ∧ visitPlatform ⟨.x86_64, true⟩ (fun _ => true) = .avx512 := ⟨rfl, rfl⟩

end Ezk.Props

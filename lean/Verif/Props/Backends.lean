import Verif.Proofs.Backends
import Verif.Props.Convert

/-!
# Properties of the SIMD backends

`Backend.Lawful` (`Verif/Spec/Vector.lean`) is the contract of `trait Vector`: which lane goes where, and exactly which
bytes are read or written.
-/

namespace Ezk.Props
open FOps Spec

variable {F : Type} [FOps F]

/-! ## C19: lane permutations -/

/-- **C19**: the vectors of every platform meet the contract: `zip`, `unzip`, plain and interleaved loads and stores. -/
theorem C19_every_platform_lawful (p : Platform) (simd : SimdArith F) (sar : Arith F) :
    (p.cpu simd sar).vec.Lawful :=
  platform_lawful p simd sar

/-- The number of lanes. -/
def lanes : Platform → Nat
  | .scalar => 1
  | .avx2 => 8
  | .avx512 => 16
  | .neon => 4

/-- **C19**: the vectors have the lengths of the hardware registers. -/
theorem C19_lanes (p : Platform) (simd : SimdArith F) (sar : Arith F) : (p.cpu simd sar).vec.LEN = lanes p := by
  cases p <;> rfl

/-- **C19**: `unzip` undoes `zip`. -/
theorem C19_unzip_zip (p : Platform) (simd : SimdArith F) (sar : Arith F) (a b : Vec (p.cpu simd sar).vec.LEN F) :
    (p.cpu simd sar).vec.unzip ((p.cpu simd sar).vec.zip a b).1 ((p.cpu simd sar).vec.zip a b).2 = (a, b) := by
  have hl := platform_lawful p simd sar
  generalize (p.cpu simd sar).vec = B at *
  have key : ∀ (j : Nat) (h : j < 2 * B.LEN), concat (B.zip a b).1 (B.zip a b).2 j h = interleave a b j h := by
    intro j h
    rw [concat]
    split
    · rw [hl.zip_fst]
    · rw [hl.zip_snd]
      have e : B.LEN + (j - B.LEN) = j := by omega
      simp only [e]
  refine Prod.ext (funext fun i => ?_) (funext fun i => ?_)
  · have e : 2 * i.val / 2 = i := by omega
    rw [hl.unzip_fst, key, interleave, if_pos (by omega)]; simp only [e]
  · have e : (2 * i.val + 1) / 2 = i := by omega
    rw [hl.unzip_snd, key, interleave, if_neg (by omega)]; simp only [e]

/-- **C19**: `zip` undoes `unzip`. -/
theorem C19_zip_unzip (p : Platform) (simd : SimdArith F) (sar : Arith F) (a b : Vec (p.cpu simd sar).vec.LEN F) :
    (p.cpu simd sar).vec.zip ((p.cpu simd sar).vec.unzip a b).1 ((p.cpu simd sar).vec.unzip a b).2 = (a, b) := by
  have hl := platform_lawful p simd sar
  generalize (p.cpu simd sar).vec = B at *
  have key : ∀ (j : Nat) (h : j < 2 * B.LEN), interleave (B.unzip a b).1 (B.unzip a b).2 j h = concat a b j h := by
    intro j h
    rw [interleave]
    split
    · rw [hl.unzip_fst]
      have e : 2 * (j / 2) = j := by omega
      simp only [e]
    · rw [hl.unzip_snd]
      have e : 2 * (j / 2) + 1 = j := by omega
      simp only [e]
  refine Prod.ext (funext fun i => ?_) (funext fun i => ?_)
  · rw [hl.zip_fst, key, concat, dif_pos i.2]
  · have e : B.LEN + i.val - B.LEN = i := by omega
    rw [hl.zip_snd, key, concat, dif_neg (by omega)]; simp only [e]

/-- **C19**: the interleaved operations are those on planes of single channels after splitting the pixels: loading
interleaved pixels and storing them interleaved rounds each byte and keeps it in its place. -/
theorem C19_interleaved_roundtrip (p : Platform) (simd : SimdArith F) (sar : Arith F) (m : Mem) (s t : Slice)
    (hs : 8 * lanes p ≤ s.len) (ht : 8 * lanes p ≤ t.len) :
    ∃ v m', (p.cpu simd sar).vec.loadU8x4 m s = .ok v ∧ (p.cpu simd sar).vec.writeU8x4 v m t = .ok m' ∧
      (∀ j, j < 8 * lanes p → m' (t.addr + j) = (p.cpu simd sar).vec.ar.q8i (ofNat (m (s.addr + j)).toNat)) ∧
      ∀ q, (q < t.addr ∨ t.addr + 8 * lanes p ≤ q) → m' q = m q := by
  have hl := platform_lawful p simd sar
  rw [← C19_lanes p simd sar] at *
  generalize (p.cpu simd sar).vec = B at *
  refine ⟨_, _, (hl.loadU8x4 m s).trans (if_pos hs), (hl.writeU8x4 _ m t).trans (if_pos ht), ?_, ?_⟩
  · intro j hj
    rw [Mem.store, dif_pos (by omega)]
    have e : t.addr + j - t.addr = j := by omega
    simp only [e, concat]
    split
    · rename_i h
      have e : 4 * (((0 : Fin 2) : Nat) * B.LEN + j / 4) + j % 4 = j := by
        rw [show ((0 : Fin 2) : Nat) = 0 from rfl]; omega
      simp only [e]
    · rename_i h
      have e : 4 * (((1 : Fin 2) : Nat) * B.LEN + (j / 4 - B.LEN)) + j % 4 = j := by
        rw [show ((1 : Fin 2) : Nat) = 1 from rfl]; omega
      simp only [e]
  · intro q hq
    rw [Mem.store, dif_neg (by omega)]

example (simd : SimdArith F) (sar : Arith F) (m : Mem) :
    ∃ v m', (Platform.avx2.cpu simd sar).vec.loadU8x4 m ⟨0, 64⟩ = .ok v ∧
      (Platform.avx2.cpu simd sar).vec.writeU8x4 v m ⟨100, 80⟩ = .ok m' ∧
      m' 137 = (Platform.avx2.cpu simd sar).vec.ar.q8i (ofNat (m 37).toNat) ∧ m' 164 = m 164 := by
  obtain ⟨v, m', h1, h2, h3, h4⟩ :=
    C19_interleaved_roundtrip .avx2 simd sar m ⟨0, 64⟩ ⟨100, 80⟩ (by decide) (by decide)
  exact ⟨v, m', h1, h2, by simpa using h3 37 (by decide), h4 164 (Or.inr (by decide))⟩

/-! ## `convert` on every platform -/

/-- **C10** (partial: not for 4:4:4 sources whose planes have different strides): memory safety with the actual
instruction sequences of every platform. -/
theorem C10_every_platform_partial (p : Platform) (simd : SimdArith F) (sar : Arith F) (src dst : Img)
    (hu : ∀ sps, src.planes = .ok sps → UniformStrides src.format sps) (m : Mem) :
    convert (p.cpu simd sar) src dst m ≠ .error .ub :=
  C10_memory_safe_partial (platform_lawful p simd sar) src dst hu m

example (simd : SimdArith F) (sar : Arith F) (m : Mem) :
    convert (Platform.avx512.cpu simd sar) demoSrc demoDst m ≠ .error .ub :=
  C10_every_platform_partial .avx512 simd sar demoSrc demoDst (fun _ h => by cases h; exact demo_uniform) m

/-- **C14** (partial as `C14_every_sample_partial`): the specified picture on every platform. -/
theorem C14_every_platform_partial (p : Platform) (simd : SimdArith F) (sar : Arith F) {src dst : Img}
    {sps dps : List Plane} {m m' : Mem}
    (hs : src.planes = .ok sps) (hd : dst.planes = .ok dps) (hdis : PlanesDisjoint dst.format dps)
    (hsep : Separate src.format sps dst.format dps) (hu : UniformStrides src.format sps)
    (hb : ¬ BadChroma src.format src.color dst.format dst.color) {V : Pic Nat}
    (hV : Depicts src.format sps src.width src.height m V)
    (h : convert (p.cpu simd sar) src dst m = .ok (.ok (), m')) :
    Depicts dst.format dps dst.width dst.height m'
      (converted (columnArith (p.cpu simd sar) dst.width) src.format src.color dst.format dst.color V) :=
  C14_every_sample_partial (platform_lawful p simd sar) hs hd hdis hsep hu hb hV h

example (simd : SimdArith F) (sar : Arith F) (m m' : Mem)
    (h : convert (Platform.neon.cpu simd sar) demoSrc demoDst m = .ok (.ok (), m')) :
    Depicts .I420 demoDstPlanes 4 2 m' (converted (columnArith (Platform.neon.cpu simd sar) 4) .RGB
      (.RGB ⟨.SRGB, .BT709⟩) .I420 (.YUV ⟨.BT2100PQ, .BT2020, .BT2020, false⟩) (shown .RGB [⟨⟨0, 28⟩, 14⟩] m)) :=
  C14_every_platform_partial .neon simd sar (src := demoSrc) (dst := demoDst) rfl rfl demo_disjoint demo_separate
    demo_uniform (by rintro ⟨_, _, i, hi, hm⟩; cases hi; cases hm) (shown_depicts (by decide) m) h

/-- **C18**, an instance: four NEON lanes and the scalar fallback, if scalar code rounded in the same way. -/
example (simd : SimdArith F) (m m1 m2 : Mem)
    (h1 : convert (Platform.neon.cpu simd (Neon.backend simd).ar) demoSrc demoDst m = .ok (.ok (), m1))
    (h2 : convert (Platform.scalar.cpu simd (Neon.backend simd).ar) demoSrc demoDst m = .ok (.ok (), m2)) : m1 = m2 :=
  C18_same_arith_partial (platform_lawful .neon _ _) (platform_lawful .scalar _ _) (src := demoSrc) (dst := demoDst)
    (Neon.backend simd).ar rfl rfl rfl rfl rfl rfl demo_disjoint demo_separate
    (by rintro ⟨_, _, i, hi, hm⟩; cases hi; cases hm) h1 h2

end Ezk.Props

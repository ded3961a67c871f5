import Verif.Proofs.Ictcp
import Verif.Proofs.Demo
import Verif.Props.Backends
import Verif.Model.SimdMath

/-!
# C14, C18: 4:2:0 images with an ICtCp colour space
-/

namespace Ezk.Props
open Ezk F32 Spec

/-- **C14**, what is true of every conversion: the value of every sample of the destination.  It is the one specified
(`C14_as_is_specified`) except for the chroma of 4:2:0 destinations with an ICtCp colour space. -/
theorem C14_as_is {F : Type} [FOps F] {c : Cpu F} {src dst : Img} {sps dps : List Plane} {m m' : Mem}
    (r : Done c src dst sps dps m m') :
    Depicts dst.format dps dst.width dst.height m'
      (convertedAsIs (columnArith c dst.width) c.vec.LEN dst.width src.format src.color dst.format dst.color
        (asRead src.format sps m)) :=
  r.depictsAsIs

/-- Luma, and all of any other destination, is as specified. -/
theorem C14_as_is_specified {F : Type} [FOps F] (ar : Nat → Arith F) (len w : Nat) (sf : PixelFormat) (sc : ColorInfo)
    (df : PixelFormat) (dc : ColorInfo) (V : Pic Nat) (c : Chan) (x y : Nat)
    (h : ¬ (c = .U ∨ c = .V) ∨ vsub df = 1 ∨ ∀ i, dc = .YUV i → i.space ≠ .ICtCpPQ ∧ i.space ≠ .ICtCpHLG) :
    convertedAsIs ar len w sf sc df dc V c x y = converted ar sf sc df dc V c x y := by
  have key : convertedAsIsF ar len w sf sc df dc V c x y = convertedF ar sf sc df dc V c x y := by
    rcases h with h | h
    · cases dc <;> cases c <;> first | rfl | exact absurd (by simp) h
    · rw [convertedAsIsF_of]
      rintro ⟨_, h2, i, rfl, hm⟩
      rcases h with h | h
      · omega
      · obtain ⟨a, b⟩ := h i rfl
        revert hm a b; cases i.space <;> simp [isMatrix]
  simp only [convertedAsIs, converted, quantize, key]

/-! ## The witness -/

/-- A BT.2100 picture, 32×2, black but for a red pixel in column 16 of the upper row. -/
def redSrc : Img := .image ⟨.RGB, .whole ⟨0, 192⟩, [96], 32, 2, .RGB ⟨.BT2100PQ, .BT2020⟩⟩
/-- The same as I420, ICtCp. -/
def redDst : Img := .image ⟨.I420, .whole ⟨256, 96⟩, [32, 16, 16], 32, 2, .YUV ⟨.BT2100PQ, .BT2020, .ICtCpPQ, true⟩⟩
/-- The memory before the conversion. -/
def redMem : Mem := fun a => if a = 48 then 255 else 0
/-- The planes of the destination. -/
def redDstPlanes : List Plane := [⟨⟨256, 64⟩, 32⟩, ⟨⟨320, 16⟩, 16⟩, ⟨⟨336, 16⟩, 16⟩]

theorem red_disjoint : PlanesDisjoint .I420 redDstPlanes := planesDisjoint_of (by decide)

theorem red_separate : Separate .RGB [⟨⟨0, 192⟩, 96⟩] .I420 redDstPlanes := separate_of (by decide)

theorem red_uniform : UniformStrides .RGB [⟨⟨0, 192⟩, 96⟩] := fun h => by simp [isYuv] at h

/-- The conversion succeeds on every platform. -/
theorem red_run (p : Platform) (scalar : Libm) :
    ∃ m', Run (p.real scalar) redSrc redDst [⟨⟨0, 192⟩, 96⟩] redDstPlanes redMem m' :=
  run_exists (src := redSrc) (dst := redDst) (platform_lawful p _ _) rfl rfl red_disjoint red_separate red_uniform (by decide) redMem

/-- The U sample of the cell of the red pixel as stored by AVX2 and AVX-512, in a form without `scalar`. -/
theorem red_stored {p : Platform} {scalar : Libm} {m' : Mem}
    (r : Run (p.real scalar) redSrc redDst [⟨⟨0, 192⟩, 96⟩] redDstPlanes redMem m') (hp : p = .avx2 ∨ p = .avx512) :
    sample .I420 redDstPlanes m' .U 16 0 = some (convertedAsIs (columnArith (p.real x86Libm) 32) (p.real x86Libm).vec.LEN 32
      .RGB redSrc.color .I420 redDst.color (asRead .RGB [⟨⟨0, 192⟩, 96⟩] redMem) .U 16 0) := by
  have h := C14_as_is r.done .U 16 0 ⟨1, 0, 8⟩ (by decide) (by decide) rfl
  refine h.trans (congrArg some ?_)
  have e : (p.real scalar).vec.LEN = (p.real x86Libm).vec.LEN := by rcases hp with rfl | rfl <;> rfl
  rw [e]
  refine convertedAsIs_congr (w := 32) (by rcases hp with rfl | rfl <;> decide) rfl ?_ _ _ _ _ _ _ (by decide) _
  intro x hx
  have hw : x < redDst.width - redDst.width % ((p.real scalar).vec.LEN * 2) := by
    rw [e]; rcases hp with rfl | rfl <;> exact hx
  have hw' : x < 32 - 32 % ((p.real x86Libm).vec.LEN * 2) := by
    rcases hp with rfl | rfl <;> exact hx
  rw [columnArith, columnArith, if_pos hw, if_pos hw']
  rcases hp with rfl | rfl <;> rfl

theorem red_avx2 : convertedAsIs (columnArith (Platform.avx2.real x86Libm) 32) (Platform.avx2.real x86Libm).vec.LEN 32
    .RGB redSrc.color .I420 redDst.color (asRead .RGB [⟨⟨0, 192⟩, 96⟩] redMem) .U 16 0 = 90 := by
  decide +kernel

theorem red_avx512 : convertedAsIs (columnArith (Platform.avx512.real x86Libm) 32) (Platform.avx512.real x86Libm).vec.LEN 32
    .RGB redSrc.color .I420 redDst.color (asRead .RGB [⟨⟨0, 192⟩, 96⟩] redMem) .U 16 0 = 128 := by
  decide +kernel

/-- What the samples should be. -/
theorem red_specified : converted (columnArith (Platform.avx2.real x86Libm) 32)
    .RGB redSrc.color .I420 redDst.color (asRead .RGB [⟨⟨0, 192⟩, 96⟩] redMem) .U 16 0 = 115 := by
  decide +kernel

/-- **C18** is false for 4:2:0 destinations with an ICtCp colour space: AVX2 and AVX-512 have the same arithmetic for every
column, but store 90 and 128, whatever the system's libm. -/
theorem C18_ictcp_false (scalar : Libm) {m1 m2 : Mem}
    (r1 : Run (Platform.avx2.real scalar) redSrc redDst [⟨⟨0, 192⟩, 96⟩] redDstPlanes redMem m1)
    (r2 : Run (Platform.avx512.real scalar) redSrc redDst [⟨⟨0, 192⟩, 96⟩] redDstPlanes redMem m2) :
    sample .I420 redDstPlanes m1 .U 16 0 = some 90 ∧ sample .I420 redDstPlanes m2 .U 16 0 = some 128 :=
  ⟨by rw [red_stored r1 (.inl rfl), red_avx2], by rw [red_stored r2 (.inr rfl), red_avx512]⟩

example (scalar : Libm) : ∃ m1 m2,
    Run (Platform.avx2.real scalar) redSrc redDst [⟨⟨0, 192⟩, 96⟩] redDstPlanes redMem m1 ∧
    Run (Platform.avx512.real scalar) redSrc redDst [⟨⟨0, 192⟩, 96⟩] redDstPlanes redMem m2 ∧ m1 ≠ m2 := by
  obtain ⟨m1, r1⟩ := red_run .avx2 scalar
  obtain ⟨m2, r2⟩ := red_run .avx512 scalar
  refine ⟨m1, m2, r1, r2, fun h => ?_⟩
  obtain ⟨a, b⟩ := C18_ictcp_false scalar r1 r2
  rw [h, b] at a
  cases a

/-- **C14** is false for such destinations: AVX2 stores 90 where 115 is specified (a quarter of a red pixel). -/
theorem C14_ictcp_false : ∃ m', Run (Platform.avx2.real x86Libm) redSrc redDst [⟨⟨0, 192⟩, 96⟩] redDstPlanes redMem m' ∧
    sample .I420 redDstPlanes m' .U 16 0 = some 90 ∧
    converted (columnArith (Platform.avx2.real x86Libm) 32) .RGB redSrc.color .I420 redDst.color
      (shown .RGB [⟨⟨0, 192⟩, 96⟩] redMem) .U 16 0 = 115 := by
  obtain ⟨m', r⟩ := red_run .avx2 x86Libm
  refine ⟨m', r, by rw [red_stored r (.inl rfl), red_avx2], ?_⟩
  decide +kernel

/-- The two pictures `C14_as_is` speaks of in that case. -/
example (m' : Mem) (r : Run (Platform.avx2.real x86Libm) redSrc redDst [⟨⟨0, 192⟩, 96⟩] redDstPlanes redMem m') :
    sample .I420 redDstPlanes m' .U 16 0 ≠ some (converted (columnArith (Platform.avx2.real x86Libm) 32)
      .RGB redSrc.color .I420 redDst.color (asRead .RGB [⟨⟨0, 192⟩, 96⟩] redMem) .U 16 0) := by
  rw [red_stored r (.inl rfl), red_avx2, red_specified]
  decide

end Ezk.Props

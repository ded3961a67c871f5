import Verif.Proofs.NoWrap
import Verif.Props.Convert
import Verif.Proofs.Backends

/-!
# C10, C11, C12: when exactly `convert` returns
-/

namespace Ezk.Props
open Ezk Spec

variable {F : Type} [FOps F]

/-- The condition that comes from the mistake in `I444Reader` (`src/formats/i444/read.rs:44-51`): the planes U and V of a 4:4:4 source are
long enough to find their last row with the stride of Y. -/
def LongPlanes (src : Img) (sps : List Plane) : Prop :=
  isYuv src.format = true ∧ hsub src.format = 1 → 0 < src.width → 0 < src.height → ∀ p0, sps[0]? = some p0 → ∀ i < 3, ∀ p, sps[i]? = some p →
    (src.height - 1) * p0.stride + rowBytes src.format 0 src.width ≤ p.slice.len

theorem readSafe_iff {src dst : Img} {sps dps : List Plane} (hr : Returned src dst sps dps) :
    ReadSafe src.format sps dst.width dst.height ↔ LongPlanes src sps := by
  have h4 : is444 src.format = true ↔ isYuv src.format = true ∧ hsub src.format = 1 := by cases src.format <;> decide
  rw [ReadSafe, LongPlanes, h4, hr.width, hr.height]

/-- **C12**, exactly: `convert` returns `Ok` iff that is the verdict and the planes of a 4:4:4 source are long enough for the way it is
read.  Nothing is assumed about strides, overlap or the contents of the memory. -/
theorem C12_ok_iff {c : Cpu F} (hc : c.vec.Lawful) {src dst : Img} {m : Mem} :
    (∃ m', convert c src dst m = .ok (.ok (), m')) ↔
      verdict src dst = .ok (.ok ()) ∧ ∀ sps, src.planes = .ok sps → LongPlanes src sps := by
  constructor
  · rintro ⟨m', h⟩
    have hv := (convert_report h).1
    obtain ⟨⟨sps, v1⟩, ⟨dps, v2⟩, _⟩ := verdict_ok hv
    have hr := returned_of_verdict hv v1.planes v2.planes
    refine ⟨hv, fun sps' h' => ?_⟩
    rw [v1.planes] at h'
    cases h'
    exact (readSafe_iff hr).1 (readSafe_of_ok hc hr h)
  · rintro ⟨hv, hl⟩
    obtain ⟨⟨sps, v1⟩, ⟨dps, v2⟩, _⟩ := verdict_ok hv
    have hr := returned_of_verdict hv v1.planes v2.planes
    obtain ⟨m', h1, _⟩ := convert_frame hc hr.vsrc hr.vdst hr.width hr.height hr.evenW hr.evenH hr.colors
      ((readSafe_iff hr).2 (hl _ v1.planes)) m
    exact ⟨m', h1⟩

/-- **C12**: if the verdict is `Ok` but the planes are not long enough, the result is a panic of a range out of bounds or undefined
behaviour, nothing else.  (Both happen: `C10_skewed_source_ub`, `C11_skewed_source_panics`.) -/
theorem C12_otherwise {c : Cpu F} (hc : c.vec.Lawful) {src dst : Img} {m : Mem} (hv : verdict src dst = .ok (.ok ()))
    {sps : List Plane} (hs : src.planes = .ok sps) (hl : ¬ LongPlanes src sps) :
    convert c src dst m = .error (.panic .index) ∨ convert c src dst m = .error .ub := by
  have ho := convert_outOfRange hc hv m
  rcases h : convert c src dst m with e | ⟨r, m'⟩
  · rcases ho e h with rfl | rfl
    · exact .inl rfl
    · exact .inr rfl
  · have hr := (convert_report h).1
    rw [hv] at hr
    cases hr
    exact absurd (((C12_ok_iff hc).1 ⟨m', h⟩).2 sps hs) hl

theorem verdict_returns {src dst : Img} (bs : src.boundsCheck = .ok (.ok ())) (bd : dst.boundsCheck = .ok (.ok ())) (e : Fault) :
    verdict src dst ≠ .error e := by
  have cs : checkBounds src = .ok (.ok ()) := by rw [checkBounds, bs]; rfl
  have cd : checkBounds dst = .ok (.ok ()) := by rw [checkBounds, bd]; rfl
  have cc : ∀ t, checkColor t = .ok (.ok ()) ∨ checkColor t = .ok (.error .invalidColorInfo) := by
    intro t; rw [checkColor]; split <;> simp
  rw [verdict]
  split
  · nofun
  split
  · nofun
  rw [cs, cd]
  split
  · nofun
  · rcases cc src with h1 | h1 <;> rcases cc dst with h2 | h2 <;> rw [h1, h2] <;> nofun

/-- **C11**, exactly: a conversion of valid images with a 4:4:4 source returns iff it is `InvalidColorInfo` or the planes are long enough. -/
theorem C11_returns_iff {c : Cpu F} (hc : c.vec.Lawful) {src dst : Img} {m : Mem} {sps : List Plane} (hs : src.planes = .ok sps)
    (bs : src.boundsCheck = .ok (.ok ())) (bd : dst.boundsCheck = .ok (.ok ())) :
    (∃ r m', convert c src dst m = .ok (r, m')) ↔ verdict src dst ≠ .ok (.ok ()) ∨ LongPlanes src sps := by
  constructor
  · rintro ⟨r, m', h⟩
    by_cases hv : verdict src dst = .ok (.ok ())
    · right
      have := (convert_report h).1
      rw [hv] at this
      cases this
      exact ((C12_ok_iff hc).1 ⟨m', h⟩).2 sps hs
    · exact .inl hv
  · intro h
    by_cases hv : verdict src dst = .ok (.ok ())
    · obtain ⟨m', h⟩ := (C12_ok_iff hc (m := m)).2 ⟨hv, fun sps' h' => by
        rw [hs] at h'
        cases h'
        exact h.resolve_left (fun h => h hv)⟩
      exact ⟨_, m', h⟩
    · rcases hr : verdict src dst with e | e | ⟨⟩
      · exact absurd hr (verdict_returns bs bd e)
      · exact ⟨_, m, convert_of_verdict hr⟩
      · exact absurd hr hv

/-- **C10**, exactly: a conversion ends in undefined behaviour only if the verdict is `Ok` and the planes of a 4:4:4 source are too short
for the stride of Y. -/
theorem C10_only_444 {c : Cpu F} (hc : c.vec.Lawful) {src dst : Img} {m : Mem} (h : convert c src dst m = .error .ub) :
    verdict src dst = .ok (.ok ()) ∧ ∃ sps, src.planes = .ok sps ∧ ¬ LongPlanes src sps := by
  rcases hv : verdict src dst with e | e | ⟨⟩
  · rw [convert_of_fault hv] at h
    cases h
    exact absurd hv (verdict_panics src dst)
  · rw [convert_of_verdict hv] at h; cases h
  · obtain ⟨⟨sps, v1⟩, -, _⟩ := verdict_ok hv
    refine ⟨rfl, sps, v1.planes, fun hl => ?_⟩
    obtain ⟨m', h'⟩ := (C12_ok_iff hc (m := m)).2 ⟨hv, fun sps' h' => by rw [v1.planes] at h'; cases h'; exact hl⟩
    rw [h'] at h
    cases h

/-! ## Cases -/

/-- 4:4:4 with a longer stride for Y, and enough bytes behind the last rows of U and V. -/
def skewedButLong : Img := .raw .I444 2 2 [⟨⟨0, 8⟩, 4⟩, ⟨⟨8, 6⟩, 2⟩, ⟨⟨14, 6⟩, 2⟩] (.YUV ⟨.SDR, .BT709, .BT709, true⟩)

example (p : Platform) (simd : SimdArith F) (sar : Arith F) (m : Mem) :
    ∃ m', convert (p.cpu simd sar) skewedButLong rgbTarget m = .ok (.ok (), m') :=
  (C12_ok_iff (platform_lawful p simd sar)).2 ⟨by decide +kernel, fun sps h => by
    cases h
    intro _ _ _ p0 h0 i hi p hp
    cases h0
    obtain rfl | rfl | rfl : i = 0 ∨ i = 1 ∨ i = 2 := by omega
    all_goals (cases hp; decide)⟩

example (p : Platform) (simd : SimdArith F) (sar : Arith F) (m : Mem) :
    convert (p.cpu simd sar) skewedSource rgbTarget m = .error (.panic .index) ∨
      convert (p.cpu simd sar) skewedSource rgbTarget m = .error .ub :=
  C12_otherwise (platform_lawful p simd sar) (by decide +kernel) rfl fun h =>
    absurd (h ⟨rfl, rfl⟩ (by decide) (by decide) _ rfl 1 (by decide) _ rfl) (by decide)

end Ezk.Props

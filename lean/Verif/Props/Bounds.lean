import Verif.Proofs.Layout

/-!
# C01, C02: `bounds_check`
-/

namespace Ezk.Props
open Spec

/-- **C01.** If `bounds_check` returns `Ok`, then the planes can be obtained and every sample of every pixel with a
complete cell is inside its plane's slice and inside its row. -/
theorem C01_bounds_check_sound (t : Img) (hok : t.boundsCheck = .ok (.ok ())) :
    ∃ ps, t.planes = .ok ps ∧
      ∀ (c : Chan) (x y : Nat) (l : Loc), HasCell t.format c t.width t.height x y →
        sampleLoc t.format c x y = some l → Addressable ps l (sampleBytes t.format) := by
  unfold Img.boundsCheck at hok
  cases hp : t.planes with
  | error e => rw [hp] at hok; cases hok
  | ok ps =>
    rw [hp] at hok
    have hok : t.format.boundsCheck ps t.width t.height = .ok (.ok ()) := hok
    obtain ⟨h1, h2⟩ := (boundsCheck_ok _ _ _ _).1 hok
    exact ⟨ps, rfl, fun c x y l hc hl => addressable_of_fits h1 h2 hl hc⟩

/-- **C01**, for even sizes: every channel of *every* pixel. -/
theorem C01_bounds_check_sound_even (t : Img) (hok : t.boundsCheck = .ok (.ok ()))
    (hw : t.width % 2 = 0) (hh : t.height % 2 = 0) :
    ∃ ps, t.planes = .ok ps ∧
      ∀ (c : Chan) (x y : Nat) (l : Loc), x < t.width → y < t.height →
        sampleLoc t.format c x y = some l → Addressable ps l (sampleBytes t.format) := by
  obtain ⟨ps, h1, h2⟩ := C01_bounds_check_sound t hok
  exact ⟨ps, h1, fun c x y l hx hy hl => h2 c x y l (HasCell.of_even hw hh hx hy) hl⟩

/-- **C01**, the limit of the claim: with odd sizes `bounds_check` does not promise chroma for the last column.
A 3×2 NV12 image with tight planes is accepted although the V sample of pixel (2,0) is outside of its plane. -/
theorem C01_odd_sizes_not_covered :
    ∃ t : Img, t.boundsCheck = .ok (.ok ()) ∧
      ∃ ps, t.planes = .ok ps ∧ ∃ l, sampleLoc t.format .V 2 0 = some l ∧ 2 < t.width ∧ 0 < t.height ∧
        ¬ Addressable ps l (sampleBytes t.format) := by
  refine ⟨.raw .NV12 3 2 [⟨⟨0, 6⟩, 3⟩, ⟨⟨6, 3⟩, 3⟩] (.RGB ⟨.Linear, .BT709⟩), by decide, _, rfl, _, rfl,
    by decide, by decide, ?_⟩
  rintro ⟨p, hp, h, -⟩
  cases hp
  revert h
  decide

/-- Non-vacuity of C01: a padded 4×2 I420 image. -/
example : (Img.raw .I420 4 2 [⟨⟨0, 20⟩, 8⟩, ⟨⟨20, 4⟩, 4⟩, ⟨⟨24, 2⟩, 2⟩] (.RGB ⟨.Linear, .BT709⟩)).boundsCheck
    = .ok (.ok ()) := by decide

/-- **C02.** `bounds_check` returns `Ok` exactly when there are enough planes and each one fits. -/
theorem C02_bounds_check_ok (f : PixelFormat) (ps : List Plane) (w h : Nat) :
    f.boundsCheck ps w h = .ok (.ok ()) ↔
      planeCount f ≤ ps.length ∧ ∀ i < planeCount f, ∀ p, ps[i]? = some p → PlaneFits f w h i p :=
  boundsCheck_ok f ps w h

/-- **C02.** It returns `Err` exactly when planes are missing (with the counts), or when some plane violates its
minimum while all earlier planes fit; the reported numbers are that plane's index, minimum and actual value. -/
theorem C02_bounds_check_error (f : PixelFormat) (ps : List Plane) (w h : Nat) (e : BoundsCheckError) :
    f.boundsCheck ps w h = .ok (.error e) ↔
      (ps.length < planeCount f ∧ e = .invalidNumberOfPlanes ⟨planeCount f, ps.length⟩) ∨
      planeCount f ≤ ps.length ∧ ∃ i < planeCount f, ∃ p, ps[i]? = some p ∧ PlaneViolation f w h i p e ∧
        ∀ j < i, ∀ q, ps[j]? = some q → PlaneFits f w h j q :=
  boundsCheck_error f ps w h e

/-- **C02.** It panics exactly when a size overflows `usize` and all earlier planes fit; there is no other panic
and no undefined behaviour. -/
theorem C02_bounds_check_panic (f : PixelFormat) (ps : List Plane) (w h : Nat) (flt : Fault) :
    f.boundsCheck ps w h = .error flt ↔
      flt = .panic .overflow ∧ planeCount f ≤ ps.length ∧
      ∃ i < planeCount f, ∃ p, ps[i]? = some p ∧ PlaneOverflow f w h i p ∧
        ∀ j < i, ∀ q, ps[j]? = some q → PlaneFits f w h j q :=
  boundsCheck_fault f ps w h flt

/-- All three outcomes of C02 occur, the second plane being the culprit. -/
example : PixelFormat.boundsCheck .NV12 [⟨⟨0, 8⟩, 4⟩, ⟨⟨8, 4⟩, 4⟩] 4 2 = .ok (.ok ()) := by decide
example : PixelFormat.boundsCheck .NV12 [⟨⟨0, 8⟩, 4⟩, ⟨⟨8, 3⟩, 4⟩] 4 2 = .ok (.error (.invalidPlaneSize 1 4 3)) := by
  decide
example : PixelFormat.boundsCheck .NV12 [⟨⟨0, 16⟩, 4⟩, ⟨⟨16, 3⟩, 2 ^ 63⟩] 4 4 = .error (.panic .overflow) := by
  decide

end Ezk.Props

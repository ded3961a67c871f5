import Verif.Proofs.Run

/-!
# Successful conversions, whatever the strides of the source
-/

namespace Ezk
open FOps Spec

variable {F : Type} [FOps F]

/-- The readers see the picture `asRead`. -/
theorem seen_asRead {f : PixelFormat} {ps : List Plane} {w h : Nat} (m : Mem) : Seen f ps w h m (asRead f ps m) := by
  intro c X Y l p p0 _ _ hl hp hp0
  have e : is444 f = true ↔ isYuv f = true ∧ hsub f = 1 := by cases f <;> simp [is444, isYuv, hsub]
  simp only [asRead, hl, hp, hp0, val_eq, e, Nat.add_assoc, and_assoc]

theorem asRead_cell {f : PixelFormat} {ps : List Plane} {m : Mem} {c : Chan} {X Y : Nat} (hy : isYuv f = true)
    (hc : c = .U ∨ c = .V) : asRead f ps m c X Y = asRead f ps m c (X / hsub f * hsub f) (Y / vsub f * vsub f) := by
  have e : ∀ X : Nat, X / 2 * 2 / 2 = X / 2 := fun X => by omega
  rcases hc with rfl | rfl <;> cases f <;>
    simp [asRead, sampleLoc, hsub, vsub, isYuv, e] at hy ⊢

/-- A call of `convert` that returned `Ok`. `disjoint` and `separate` are what Rust's borrow rules guarantee. -/
structure Done (c : Cpu F) (src dst : Img) (sps dps : List Plane) (m m' : Mem) : Prop where
  lawful : c.vec.Lawful
  srcPlanes : src.planes = .ok sps
  dstPlanes : dst.planes = .ok dps
  disjoint : PlanesDisjoint dst.format dps
  separate : Separate src.format sps dst.format dps
  ok : convert c src dst m = .ok (.ok (), m')

variable {c : Cpu F} {src dst : Img} {sps dps : List Plane} {m m' : Mem}

theorem Run.done (r : Run c src dst sps dps m m') : Done c src dst sps dps m m' :=
  ⟨r.lawful, r.srcPlanes, r.dstPlanes, r.disjoint, r.separate, r.ok⟩

theorem Done.returned (r : Done c src dst sps dps m m') : Returned src dst sps dps :=
  Ezk.returned r.ok r.srcPlanes r.dstPlanes

theorem Done.painted (r : Done c src dst sps dps m m') :
    Painted dst.format dps dst.width dst.height
      (cellByte (cpuBlk c dst.width) dst.format
        (floatBlk (cpuBlk c dst.width) src.format src.color dst.format dst.color (asRead src.format sps m)))
      (InDom dst.format dst.width dst.height) m m' := by
  have h := r.returned
  obtain ⟨m1, h1, h2⟩ := convert_main r.lawful h.vsrc h.vdst h.width h.height h.evenW h.evenH h.colors
    (readSafe_of_ok r.lawful h r.ok) r.disjoint r.separate (seen_asRead m)
  rw [r.ok] at h1
  injection h1 with h1
  injection h1 with _ h1
  rw [h1]; exact h2

theorem Done.depicts (r : Done c src dst sps dps m m') (hb : ¬ BadChroma src.format src.color dst.format dst.color) :
    Depicts dst.format dps dst.width dst.height m'
      (converted (columnArith c dst.width) src.format src.color dst.format dst.color (asRead src.format sps m)) := by
  intro ch X Y l hX hY hl
  have h := r.returned
  have hp := r.painted
  rw [floatBlk_eq hb] at hp
  rw [painted_sample hp h.vdst.fits h.evenW h.evenH hX hY hl, cpuBlk_columnArith]
  congr 1
  refine convertedF_cell (w := dst.width) (h := dst.height) ?_ ?_ ?_ hX hY hl
  · intro X
    have := cpuBlk_pair c h.evenW X
    rwa [cpuBlk_columnArith] at this
  · exact h.colors.imp id And.right
  · intro c X Y hy hc _ _
    exact asRead_cell hy hc

end Ezk

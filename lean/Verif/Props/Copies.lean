import Verif.Props.Copy
import Verif.Props.Lossless

/-!
# C70: a copy is as good as the original
-/

namespace Ezk.Props
open Ezk Spec

section
variable {F : Type} [FOps F] {c : Cpu F} {src mid dst dst' : Img} {sps mps dps dps' : List Plane} {m m1 m2 m' : Mem}

/-- **C70** (partial: not for 4:4:4 sources whose planes have different strides). An image and its copy are converted to the same image,
whatever the arithmetic. -/
theorem C70_convert_copy_partial (hcopy : copyImpl src mid m = .ok (.ok (), m1)) (hmd : PlanesDisjoint mid.format mps)
    (hms : Separate src.format sps mid.format mps) (hcol : mid.color = src.color) (r : Run c src dst sps dps m m')
    (r2 : Run c mid dst' mps dps' m1 m2) (hf : dst'.format = dst.format) (hc : dst'.color = dst.color) (ch : Chan) {x y : Nat}
    (hx : x < dst.width) (hy : y < dst.height) :
    sample dst'.format dps' m2 ch x y = sample dst.format dps m' ch x y := by
  have hk := copy_checks hcopy
  have hV : Depicts src.format sps src.width src.height m (shown src.format sps m) := shown_depicts r.returned.sfits.1 m
  refine (C16_layout_independent_partial r.lawful r.srcPlanes r2.srcPlanes r.dstPlanes r2.dstPlanes r.disjoint r2.disjoint r.separate
    r2.separate r.uniform r2.uniform hk.format hcol.symm hf.symm hc.symm hk.width hk.height hV ?_ r.ok r2.ok ch x y hx hy).symm
  intro c' x' y' l hx' hy' hl
  rw [C36_samples hcopy r.srcPlanes r2.srcPlanes hmd hms c' hx' hy']
  exact hV c' x' y' l (hk.width ▸ hx') (hk.height ▸ hy') (hk.format ▸ hl)

/-- **C70** (partial: as above). A copy of the converted image is the image one gets by converting to where the copy is. -/
theorem C70_copy_converted_partial (r : Run c src mid sps mps m m1) (hcopy : copyImpl mid dst m1 = .ok (.ok (), m2))
    (hmd : PlanesDisjoint dst.format dps) (hms : Separate mid.format mps dst.format dps) (hcol : dst.color = mid.color)
    (r2 : Run c src dst sps dps m m') (ch : Chan) {x y : Nat} (hx : x < dst.width) (hy : y < dst.height) :
    sample dst.format dps m2 ch x y = sample dst.format dps m' ch x y := by
  have hk := copy_checks hcopy
  rw [C36_samples hcopy r.dstPlanes r2.dstPlanes hmd hms ch hx hy]
  have hV : Depicts src.format sps src.width src.height m (shown src.format sps m) := shown_depicts r.returned.sfits.1 m
  exact C16_layout_independent_partial r.lawful r.srcPlanes r2.srcPlanes r.dstPlanes r2.dstPlanes r.disjoint r2.disjoint r.separate
    r2.separate r.uniform r2.uniform rfl rfl hk.format hcol.symm rfl rfl hV hV r.ok r2.ok ch x y (hk.width ▸ hx) (hk.height ▸ hy)

end

section
variable {p : Platform} {simd scalar : F32.Libm} {src dst : Img} {sps dps : List Plane} {m m1 m2 : Mem}

/-- **C70** (partial: as above, and the samples are in the depth of the format). Between images of the same format and colour, `copy` and
`convert` do the same, on every platform. -/
theorem C70_copy_is_convert_partial (r : Run (p.ieee simd scalar) src dst sps dps m m1) (hcopy : copyImpl src dst m = .ok (.ok (), m2))
    (hc : src.color = dst.color) (hd : InDepth src.format src.width src.height (shown src.format sps m)) (ch : Chan) {x y : Nat}
    (hx : x < dst.width) (hy : y < dst.height) : sample dst.format dps m1 ch x y = sample dst.format dps m2 ch x y := by
  have hk := copy_checks hcopy
  have hV : Depicts src.format sps src.width src.height m (shown src.format sps m) := shown_depicts r.returned.sfits.1 m
  rw [C36_samples hcopy r.srcPlanes r.dstPlanes r.disjoint r.separate ch hx hy]
  cases hl : sampleLoc dst.format ch x y with
  | none => rw [sample, sample, hk.format, hl]; rfl
  | some l =>
    rw [C23_lossless_partial r hk.format hc hV hd ch x y l hx hy hl, hV ch x y l (hk.width ▸ hx) (hk.height ▸ hy) (hk.format ▸ hl)]

/-- **C70** for `copy` and `convert` fails for samples above the depth: 16383 in a 12-bit image. -/
theorem C70_out_of_depth_false (simd scalar : F32.Libm) (m : Mem) (h : sample .I012 (i012Planes 0) m .Y 1 0 = some 16383) :
    ∃ m1 m2, convert (Platform.scalar.ieee simd scalar) (i012At 0) (i012At 100) m = .ok (.ok (), m1) ∧
      copyImpl (i012At 0) (i012At 100) m = .ok (.ok (), m2) ∧
      sample .I012 (i012Planes 100) m1 .Y 1 0 ≠ sample .I012 (i012Planes 100) m2 .Y 1 0 := by
  obtain ⟨m1, r, h1⟩ := C23_out_of_depth simd scalar m h
  obtain ⟨m2, h2⟩ := C36_ok (src := i012At 0) (dst := i012At 100) (sps := i012Planes 0) (dps := i012Planes 100)
    ⟨rfl, rfl, rfl, rfl, rfl, by decide, by decide⟩ (by decide) rfl rfl (planesDisjoint_of (by decide)) (separate_of (by decide)) m
  refine ⟨m1, m2, r.ok, h2, ?_⟩
  rw [h1]
  have := C36_samples (sps := i012Planes 0) (dps := i012Planes 100) h2 rfl rfl (planesDisjoint_of (by decide)) (separate_of (by decide))
    .Y (x := 1) (y := 0) (by decide) (by decide)
  have e : sample .I012 (i012Planes 100) m2 .Y 1 0 = some 16383 := this.trans h
  rw [e]
  decide

/-! ## Cases -/

/-- A 12-bit image, copied and converted to RGB. -/
example (p : Platform) (simd scalar : F32.Libm) (m : Mem) : ∃ m1 m2 m',
    copyImpl (i012At 0) (i012At 100) m = .ok (.ok (), m1) ∧
    convert (p.ieee simd scalar) (i012At 100) (.raw .RGB 4 2 [⟨⟨200, 24⟩, 12⟩] (.RGB ⟨.SDR, .BT709⟩)) m1 = .ok (.ok (), m2) ∧
    convert (p.ieee simd scalar) (i012At 0) (.raw .RGB 4 2 [⟨⟨200, 24⟩, 12⟩] (.RGB ⟨.SDR, .BT709⟩)) m = .ok (.ok (), m') ∧
    ∀ ch x y, x < 4 → y < 2 → sample .RGB [⟨⟨200, 24⟩, 12⟩] m2 ch x y = sample .RGB [⟨⟨200, 24⟩, 12⟩] m' ch x y := by
  obtain ⟨m1, h1⟩ := C36_ok (src := i012At 0) (dst := i012At 100) (sps := i012Planes 0) (dps := i012Planes 100)
    ⟨rfl, rfl, rfl, rfl, rfl, by decide, by decide⟩ (by decide) rfl rfl (planesDisjoint_of (by decide)) (separate_of (by decide)) m
  have run : ∀ (a : Nat), a ∈ [0, 100] → ∀ m, ∃ m', Run (p.ieee simd scalar) (i012At a) (.raw .RGB 4 2 [⟨⟨200, 24⟩, 12⟩] (.RGB ⟨.SDR, .BT709⟩))
      (i012Planes a) [⟨⟨200, 24⟩, 12⟩] m m' := by
    intro a ha m
    simp only [List.mem_cons, List.not_mem_nil, or_false] at ha
    rcases ha with rfl | rfl <;>
    exact run_exists (platform_lawful p _ _) rfl rfl (planesDisjoint_of (by decide)) (separate_of (by decide))
      (uniform_of (by decide)) (by decide) m
  obtain ⟨m2, r2⟩ := run 100 (by decide) m1
  obtain ⟨m', r⟩ := run 0 (by decide) m
  exact ⟨m1, m2, m', h1, r2.ok, r.ok, fun ch x y hx hy => C70_convert_copy_partial h1 (planesDisjoint_of (by decide))
    (separate_of (by decide)) rfl r r2 rfl rfl ch hx hy⟩

end
end Ezk.Props

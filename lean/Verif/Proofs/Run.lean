import Verif.Proofs.Needs

/-!
# Successful conversions
-/

namespace Ezk
open FOps Spec

variable {F : Type} [FOps F]

theorem shown_depicts {f : PixelFormat} {ps : List Plane} {w h : Nat} (hn : planeCount f ≤ ps.length) (m : Mem) :
    Depicts f ps w h m (shown f ps m) := by
  intro c x y l _ _ hl
  have : l.plane < planeCount f := by
    cases f <;> cases c <;> simp only [sampleLoc, Option.some.injEq, reduceCtorEq] at hl <;> subst hl <;> simp [planeCount]
  have hp : ps[l.plane]? = some (ps[l.plane]'(by omega)) := List.getElem?_eq_getElem _
  simp only [shown, sample, hl, Option.bind_some, locAddr, hp, Option.map_some, Option.getD_some]

/-- A call of `convert` that returned `Ok`. `disjoint` and `separate` are what Rust's borrow rules guarantee;
`uniform` excludes 4:4:4 sources with planes of different strides (they are misread, see C10, C11). -/
structure Run (c : Cpu F) (src dst : Img) (sps dps : List Plane) (m m' : Mem) : Prop where
  lawful : c.vec.Lawful
  srcPlanes : src.planes = .ok sps
  dstPlanes : dst.planes = .ok dps
  disjoint : PlanesDisjoint dst.format dps
  separate : Separate src.format sps dst.format dps
  uniform : UniformStrides src.format sps
  ok : convert c src dst m = .ok (.ok (), m')

section
variable {c : Cpu F} {src dst : Img} {sps dps : List Plane} {m m' : Mem}

theorem Run.returned (r : Run c src dst sps dps m m') : Returned src dst sps dps :=
  Ezk.returned r.ok r.srcPlanes r.dstPlanes

/-- Every sample of the destination. -/
theorem Run.sample (r : Run c src dst sps dps m m') {V : Pic Nat}
    (hV : Depicts src.format sps src.width src.height m V) {ch : Chan} {x y : Nat} {l : Loc} (hx : x < dst.width)
    (hy : y < dst.height) (hl : sampleLoc dst.format ch x y = some l) :
    Spec.sample dst.format dps m' ch x y = some (quantize (columnArith c dst.width) dst.format
      (floatBlk (cpuBlk c dst.width) src.format src.color dst.format dst.color V) ch (cellX dst.format ch x)
      (cellY dst.format ch y)) := by
  have hr := r.returned
  rw [painted_sample (hr.painted r.lawful r.uniform r.disjoint r.separate hV r.ok) hr.vdst.fits hr.evenW hr.evenH hx hy hl,
    cpuBlk_columnArith]

/-- Every sample of the destination, as specified. -/
theorem Run.depicts (r : Run c src dst sps dps m m') (hb : ¬ BadChroma src.format src.color dst.format dst.color)
    {V : Pic Nat} (hV : Depicts src.format sps src.width src.height m V) :
    Depicts dst.format dps dst.width dst.height m'
      (converted (columnArith c dst.width) src.format src.color dst.format dst.color V) :=
  r.returned.depicts r.lawful r.uniform r.disjoint r.separate hV r.ok hb

theorem readPic_congr {ar : Nat → Arith F} (f : PixelFormat) (col : ColorInfo) {V W : Pic Nat} {x y : Nat}
    (h : ∀ c, V c x y = W c x y) (c : Chan) : readPic ar f col V c x y = readPic ar f col W c x y := by
  have hn : ∀ c, normalize ar f V c x y = normalize ar f W c x y := fun c => by rw [normalize, normalize, h]
  have hw : ∀ c, withAlpha f (normalize ar f V) c x y = withAlpha f (normalize ar f W) c x y := by
    intro c; rw [withAlpha, withAlpha]; split
    · rfl
    · exact hn c
  cases col with
  | RGB i => exact hw c
  | YUV i =>
    rw [readPic, readPic]
    split
    · cases c <;> simp only [decode, hn]
    · exact hw c

theorem adaptPic_congr {ar : Nat → Arith F} (sc dc : ColorInfo) {p q : Pic F} {x y : Nat}
    (h : ∀ c, p c x y = q c x y) (c : Chan) : adaptPic ar sc dc p c x y = adaptPic ar sc dc q c x y := by
  rw [adaptPic, adaptPic]; split
  · exact h c
  · cases c <;> simp only [changeColor, h]

end
end Ezk

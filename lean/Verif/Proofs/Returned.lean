import Verif.Proofs.Result
import Verif.Props.Buffers

/-!
# Consequences of `convert` having returned
-/

namespace Ezk
open FOps Spec

variable {F : Type} [FOps F]

/-! ## Images panic, they do not cause undefined behaviour -/

/-- The step may panic but causes no undefined behaviour. -/
def OnlyPanics {α : Type} (r : Exec α) : Prop := r ≠ .error .ub

theorem OnlyPanics.ok {α : Type} (a : α) : OnlyPanics (.ok a : Exec α) := nofun

theorem OnlyPanics.bind {α β : Type} {r : Exec α} {k : α → Exec β} (hr : OnlyPanics r)
    (hk : ∀ a, r = .ok a → OnlyPanics (k a)) : OnlyPanics (r >>= k) := by
  rcases r with e | a
  · intro h
    exact hr (by cases h; rfl)
  · exact hk a rfl

theorem addU_panics (a b : Nat) : OnlyPanics (addU a b) := by rw [addU]; split <;> nofun
theorem mulU_panics (a b : Nat) : OnlyPanics (mulU a b) := by rw [mulU]; split <;> nofun
theorem addP_panics (a b : Nat) : OnlyPanics (addP a b) := by rw [addP]; split <;> nofun
theorem mulP_panics (a b : Nat) : OnlyPanics (mulP a b) := by rw [mulP]; split <;> nofun
theorem splitAt_panics (s : Slice) (n : Nat) : OnlyPanics (s.splitAt n) := by rw [Slice.splitAt]; split <;> nofun

theorem op_panics (o : Op) (n : Nat) : OnlyPanics (o.op n) := by
  cases o <;> simp only [Op.op] <;> first | exact mulU_panics _ _ | exact OnlyPanics.ok _ | (rw [divU]; split <;> nofun)

theorem mapM_panics {α β : Type} {f : α → Exec β} (hf : ∀ a, OnlyPanics (f a)) (l : List α) : OnlyPanics (l.mapM f) := by
  induction l with
  | nil => exact OnlyPanics.ok _
  | cons a l ih =>
    rw [List.mapM_cons]
    exact (hf a).bind fun b _ => ih.bind fun bs _ => OnlyPanics.ok _

theorem cropPlane_panics (d : PlaneDesc) (p : Plane) (w : Window) : OnlyPanics (cropPlane d p w) := by
  rw [cropPlane]
  refine (op_panics _ _).bind fun x _ => (op_panics _ _).bind fun y _ => (mulP_panics _ _).bind fun _ _ =>
    (addP_panics _ _).bind fun _ _ => (mulP_panics _ _).bind fun _ _ => (splitAt_panics _ _).bind fun _ _ =>
    (op_panics _ _).bind fun _ _ => (mulP_panics _ _).bind fun _ _ => (splitAt_panics _ _).bind fun _ _ => OnlyPanics.ok _

theorem Img.planes_panics (t : Img) : OnlyPanics t.planes := by
  induction t with
  | image i =>
    rw [Img.planes, Image.planes]
    cases i.buffer with
    | whole b =>
      refine OnlyPanics.bind ?_ fun _ _ => OnlyPanics.ok _
      intro h
      obtain ⟨k, hk⟩ := Props.C05_infer_panic _ _ _ _ _ _ h
      cases hk
    | split ps => exact OnlyPanics.ok _
  | cropped t w ih => exact ih.bind fun ps _ => mapM_panics (fun a => cropPlane_panics _ _ _) _
  | raw => exact OnlyPanics.ok _

theorem Img.boundsCheck_panics (t : Img) : OnlyPanics t.boundsCheck := by
  rw [Img.boundsCheck]
  refine t.planes_panics.bind fun ps _ h => ?_
  have := ((boundsCheck_fault _ _ _ _ _).1 h).1
  cases this

theorem firstProblem_panics (vs : List (Exec (Except ConvertError Unit))) (h : ∀ v ∈ vs, OnlyPanics v) :
    OnlyPanics (firstProblem vs) := by
  induction vs with
  | nil => exact OnlyPanics.ok _
  | cons v vs ih =>
    refine (h v (List.mem_cons_self ..)).bind fun r _ => ?_
    cases r with
    | error e => exact OnlyPanics.ok _
    | ok u => exact ih fun v hv => h v (List.mem_cons_of_mem _ hv)

theorem checkBounds_panics (t : Img) : OnlyPanics (checkBounds t) := by
  rw [checkBounds]
  refine t.boundsCheck_panics.bind fun r _ => ?_
  cases r <;> exact OnlyPanics.ok _

theorem checkColor_panics (t : Img) : OnlyPanics (checkColor t) := by
  rw [checkColor]; split <;> exact OnlyPanics.ok _

theorem verdict_panics (src dst : Img) : OnlyPanics (verdict src dst) := by
  rw [verdict]
  split
  · exact OnlyPanics.ok _
  · split
    · exact OnlyPanics.ok _
    · split
      · refine firstProblem_panics _ fun v hv => ?_
        simp only [List.mem_cons, List.not_mem_nil, or_false] at hv
        rcases hv with rfl | rfl <;> exact checkBounds_panics _
      · refine firstProblem_panics _ fun v hv => ?_
        simp only [List.mem_cons, List.not_mem_nil, or_false] at hv
        rcases hv with rfl | rfl | rfl | rfl <;> first | exact checkBounds_panics _ | exact checkColor_panics _

/-! ## Returned `Ok` -/

/-- What is known after `Ok`. -/
structure Returned (src dst : Img) (sps dps : List Plane) : Prop where
  vsrc : Valid src sps
  vdst : Valid dst dps
  width : src.width = dst.width
  height : src.height = dst.height
  evenW : dst.width % 2 = 0
  evenH : dst.height % 2 = 0
  colors : ColorsOk src dst

theorem returned_of_verdict {src dst : Img} {sps dps : List Plane} (h : verdict src dst = .ok (.ok ()))
    (hs : src.planes = .ok sps) (hd : dst.planes = .ok dps) : Returned src dst sps dps := by
  obtain ⟨⟨sps', v1⟩, ⟨dps', v2⟩, h1, h2, h3, h4, h5⟩ := verdict_ok h
  obtain rfl : sps' = sps := by have := v1.planes; rw [hs] at this; injection this with this; exact this.symm
  obtain rfl : dps' = dps := by have := v2.planes; rw [hd] at this; injection this with this; exact this.symm
  exact ⟨v1, v2, h1, h2, h3, h4, h5⟩

theorem returned {c : Cpu F} {src dst : Img} {sps dps : List Plane} {m m' : Mem}
    (h : convert c src dst m = .ok (.ok (), m')) (hs : src.planes = .ok sps) (hd : dst.planes = .ok dps) :
    Returned src dst sps dps :=
  returned_of_verdict (convert_report h).1 hs hd

theorem Returned.sfits {src dst : Img} {sps dps : List Plane} (h : Returned src dst sps dps) :
    Fits src.format sps dst.width dst.height := by
  have := h.vsrc.fits
  rwa [h.width, h.height] at this

/-- The memory after a successful conversion. -/
theorem Returned.painted {c : Cpu F} (hc : c.vec.Lawful) {src dst : Img} {sps dps : List Plane}
    (h : Returned src dst sps dps) (hu : UniformStrides src.format sps) (hdis : PlanesDisjoint dst.format dps)
    (hsep : Separate src.format sps dst.format dps) {m m' : Mem} {V : Pic Nat}
    (hV : Depicts src.format sps src.width src.height m V) (hm : convert c src dst m = .ok (.ok (), m')) :
    Painted dst.format dps dst.width dst.height
      (cellByte (cpuBlk c dst.width) dst.format
        (floatBlk (cpuBlk c dst.width) src.format src.color dst.format dst.color V))
      (InDom dst.format dst.width dst.height) m m' := by
  rw [h.width, h.height] at hV
  obtain ⟨m1, h1, h2⟩ := convert_main hc h.vsrc h.vdst h.width h.height h.evenW h.evenH h.colors
    (readSafe_of_uniform h.sfits hu) hdis hsep (seen_of_depicts hu hV)
  rw [hm] at h1
  injection h1 with h1
  injection h1 with _ h1
  rw [h1]; exact h2

theorem Returned.depicts {c : Cpu F} (hc : c.vec.Lawful) {src dst : Img} {sps dps : List Plane}
    (h : Returned src dst sps dps) (hu : UniformStrides src.format sps) (hdis : PlanesDisjoint dst.format dps)
    (hsep : Separate src.format sps dst.format dps) {m m' : Mem} {V : Pic Nat}
    (hV : Depicts src.format sps src.width src.height m V) (hm : convert c src dst m = .ok (.ok (), m'))
    (hb : ¬ BadChroma src.format src.color dst.format dst.color) :
    Depicts dst.format dps dst.width dst.height m'
      (converted (columnArith c dst.width) src.format src.color dst.format dst.color V) := by
  intro ch X Y l hX hY hl
  have hp := h.painted hc hu hdis hsep hV hm
  rw [floatBlk_eq hb] at hp
  rw [painted_sample hp h.vdst.fits h.evenW h.evenH hX hY hl, cpuBlk_columnArith]
  congr 1
  rw [h.width, h.height] at hV
  refine convertedF_cell (w := dst.width) (h := dst.height) ?_ ?_ ?_ hX hY hl
  · intro X
    have := cpuBlk_pair c h.evenW X
    rwa [cpuBlk_columnArith] at this
  · exact h.colors.imp id And.right
  · intro c X Y hy hc hX hY
    exact Depicts.cell hV hy hc hX hY

/-- Two memories painted the same way are equal. -/
theorem painted_unique {f : PixelFormat} {ps : List Plane} {w h : Nat} {g1 g2 : Nat → Nat → Nat → UInt8}
    {m0 m1 m2 : Mem} (h1 : Painted f ps w h g1 (InDom f w h) m0 m1) (h2 : Painted f ps w h g2 (InDom f w h) m0 m2)
    (hg : ∀ i row col, InDom f w h i row col → g1 i row col = g2 i row col) : m1 = m2 := by
  funext a
  by_cases ha : Outside f ps w h a
  · rw [h1.outside a ha, h2.outside a ha]
  · simp only [Outside, Classical.not_forall, Decidable.not_not] at ha
    obtain ⟨i, row, col, p, hd, hp, rfl⟩ := ha
    rw [h1.inside i row col p hd hp hd, h2.inside i row col p hd hp hd, hg i row col hd]

end Ezk

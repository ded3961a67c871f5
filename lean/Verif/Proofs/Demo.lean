import Verif.Proofs.Run
import Verif.Proofs.Backends
import Verif.Props.Convert

/-!
# Checking the hypotheses about concrete images by computation
-/

namespace Ezk
open FOps Spec

variable {F : Type} [FOps F]

/-- Two planes are apart. -/
def apart (p q : Plane) : Bool := p.slice.addr + p.slice.len ≤ q.slice.addr || q.slice.addr + q.slice.len ≤ p.slice.addr

theorem apart_disjoint {p q : Plane} (h : apart p q = true) : SliceDisjoint p.slice q.slice := by
  intro a h1 h2 h3 h4
  simp only [apart, Bool.or_eq_true, decide_eq_true_eq] at h
  omega

theorem separate_of {sf df : PixelFormat} {sps dps : List Plane} (h : (sps.all fun p => dps.all fun q => apart p q) = true) :
    Separate sf sps df dps := by
  intro i j p q _ _ hp hq
  rw [List.all_eq_true] at h
  have := h p (List.mem_of_getElem? hp)
  rw [List.all_eq_true] at this
  exact apart_disjoint (this q (List.mem_of_getElem? hq))

theorem planesDisjoint_of {f : PixelFormat} {ps : List Plane}
    (h : ((List.range ps.length).all fun i => (List.range ps.length).all fun j =>
      i == j || (match ps[i]?, ps[j]? with | some p, some q => apart p q | _, _ => true)) = true) :
    PlanesDisjoint f ps := by
  intro i j p q _ _ hij hp hq
  have li : i < ps.length := (List.getElem?_eq_some_iff.mp hp).1
  have lj : j < ps.length := (List.getElem?_eq_some_iff.mp hq).1
  rw [List.all_eq_true] at h
  have := h i (List.mem_range.mpr li)
  rw [List.all_eq_true] at this
  have := this j (List.mem_range.mpr lj)
  rw [hp, hq] at this
  simp only [Bool.or_eq_true, beq_iff_eq] at this
  exact apart_disjoint (this.resolve_left hij)

theorem uniform_of {f : PixelFormat} {ps : List Plane}
    (h : (ps.all fun p => match ps[0]? with | some p0 => p.stride == p0.stride | none => true) = true ∨
      ¬ (isYuv f = true ∧ hsub f = 1)) : UniformStrides f ps := by
  intro hy i _ p p0 hp h0
  rcases h with h | h
  · rw [List.all_eq_true] at h
    have := h p (List.mem_of_getElem? hp)
    rw [h0] at this
    simpa using this
  · exact absurd hy h

/-- A conversion of concrete images runs. -/
theorem run_exists {c : Cpu F} (hc : c.vec.Lawful) {src dst : Img} {sps dps : List Plane}
    (hs : src.planes = .ok sps) (hd : dst.planes = .ok dps) (hdis : PlanesDisjoint dst.format dps)
    (hsep : Separate src.format sps dst.format dps) (hu : UniformStrides src.format sps)
    (hv : verdict src dst = .ok (.ok ())) (m : Mem) : ∃ m', Run c src dst sps dps m m' := by
  obtain ⟨m', h⟩ := (Props.C12_ok_iff_partial (c := c) (src := src) (dst := dst) (m := m) hc
    (fun sps' h => by rw [hs] at h; cases h; exact hu)).2 hv
  exact ⟨m', hc, hs, hd, hdis, hsep, hu, h⟩

end Ezk

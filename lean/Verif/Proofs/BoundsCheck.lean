import Verif.Proofs.Geometry

namespace Ezk
open Spec

theorem readPlanesAux_eq (e : Nat) : ∀ (n i : Nat) (ps : List Plane),
    readPlanesAux e n i ps = if n ≤ ps.length then .ok (ps.take n) else .error ⟨e, i + ps.length⟩
  | 0, i, ps => by simp [readPlanesAux]
  | n + 1, i, [] => by simp [readPlanesAux]
  | n + 1, i, p :: ps => by
    rw [readPlanesAux, readPlanesAux_eq e n (i + 1) ps]
    by_cases h : n ≤ ps.length
    · simp [h]
    · simp [h]; omega

theorem readPlanes_eq (n : Nat) (ps : List Plane) :
    readPlanes n ps = if n ≤ ps.length then .ok (ps.take n) else .error ⟨n, ps.length⟩ := by
  simp [readPlanes, readPlanesAux_eq]

/-- One step of the loop. -/
theorem boundsCheckLoop_cons (f : PixelFormat) (w h i : Nat) (d : PlaneDesc) (ds : List PlaneDesc) (p : Plane)
    (ps : List Plane) (hd : DescOk f i d) :
    PixelFormat.boundsCheckLoop w h (d :: ds) (p :: ps) i =
      if ¬ rowBytes f i w < usizeSize then .error (.panic .overflow)
      else if p.stride < rowBytes f i w then .ok (.error (.invalidStride i (rowBytes f i w) p.stride))
      else if ¬ p.stride * rowCount f i h < usizeSize then .error (.panic .overflow)
      else if p.slice.len < p.stride * rowCount f i h then
        .ok (.error (.invalidPlaneSize i (p.stride * rowCount f i h) p.slice.len))
      else PixelFormat.boundsCheckLoop w h ds ps (i + 1) := by
  rw [PixelFormat.boundsCheckLoop, hd.packed, hd.rows]
  by_cases h1 : rowBytes f i w < usizeSize
  · by_cases h2 : p.stride < rowBytes f i w
    · simp [h1, h2, bind, Except.bind, pure, Except.pure]
    · by_cases h3 : p.stride * rowCount f i h < usizeSize
      · by_cases h4 : p.slice.len < p.stride * rowCount f i h
        · simp [h1, h2, mulU_ok h3, h3, h4, bind, Except.bind, pure, Except.pure]
        · simp [h1, h2, mulU_ok h3, h3, h4, bind, Except.bind]
      · simp [h1, h2, mulU_err h3, h3, bind, Except.bind]
  · simp [h1, bind, Except.bind]

theorem boundsCheckLoop_ok (f : PixelFormat) (w h : Nat) :
    ∀ (ds : List PlaneDesc) (ps : List Plane) (i : Nat), ds.length = ps.length →
      (∀ k d, ds[k]? = some d → DescOk f (i + k) d) →
      (PixelFormat.boundsCheckLoop w h ds ps i = .ok (.ok ()) ↔
        ∀ k p, ps[k]? = some p → PlaneFits f w h (i + k) p)
  | [], [], i, _, _ => by simp [PixelFormat.boundsCheckLoop]
  | d :: ds, p :: ps, i, hl, hd => by
    have hd0 : DescOk f i d := by simpa using hd 0 d
    rw [boundsCheckLoop_cons f w h i d ds p ps hd0]
    have ih := boundsCheckLoop_ok f w h ds ps (i + 1) (by simpa using hl) (fun k d hk => by
      have := hd (k + 1) d (by simpa using hk)
      rwa [show i + (k + 1) = i + 1 + k by omega] at this)
    constructor
    · intro hr k q hq
      split at hr
      · cases hr
      split at hr
      · cases hr
      split at hr
      · cases hr
      split at hr
      · cases hr
      rename_i h1 h2 h3 h4
      cases k with
      | zero =>
        simp only [List.getElem?_cons_zero, Option.some.injEq] at hq
        subst hq
        exact ⟨by simpa using h1, by simpa using h2, by simpa using h3, by simpa using h4⟩
      | succ k =>
        have := ih.1 hr k q (by simpa using hq)
        rwa [show i + 1 + k = i + (k + 1) by omega] at this
    · intro hp
      have h0 := hp 0 p (by simp)
      rw [if_neg (by simpa using h0.packed_usize), if_neg (by simpa using h0.stride_ge),
        if_neg (by simpa using h0.size_usize), if_neg (by simpa using h0.size_le), ih]
      intro k q hq
      have := hp (k + 1) q (by simpa using hq)
      rwa [show i + (k + 1) = i + 1 + k by omega] at this

theorem boundsCheckLoop_error (f : PixelFormat) (w h : Nat) (e : BoundsCheckError) :
    ∀ (ds : List PlaneDesc) (ps : List Plane) (i : Nat), ds.length = ps.length →
      (∀ k d, ds[k]? = some d → DescOk f (i + k) d) →
      (PixelFormat.boundsCheckLoop w h ds ps i = .ok (.error e) ↔
        ∃ k p, ps[k]? = some p ∧ PlaneViolation f w h (i + k) p e ∧
          ∀ j < k, ∀ q, ps[j]? = some q → PlaneFits f w h (i + j) q)
  | [], [], i, _, _ => by simp [PixelFormat.boundsCheckLoop]
  | d :: ds, p :: ps, i, hl, hd => by
    have hd0 : DescOk f i d := by simpa using hd 0 d
    rw [boundsCheckLoop_cons f w h i d ds p ps hd0]
    have ih := boundsCheckLoop_error f w h e ds ps (i + 1) (by simpa using hl) (fun k d hk => by
      have := hd (k + 1) d (by simpa using hk)
      rwa [show i + (k + 1) = i + 1 + k by omega] at this)
    constructor
    · intro hr
      split at hr
      · cases hr
      rename_i h1
      split at hr
      · rename_i h2
        cases hr
        exact ⟨0, p, by simp, .stride (by simpa using h1) h2, by simp⟩
      rename_i h2
      split at hr
      · cases hr
      rename_i h3
      split at hr
      · rename_i h4
        cases hr
        exact ⟨0, p, by simp, .size (by simpa using h1) (by simpa using h2) (by simpa using h3) h4, by simp⟩
      rename_i h4
      obtain ⟨k, q, hq, hv, hf⟩ := ih.1 hr
      refine ⟨k + 1, q, by simpa using hq, ?_, ?_⟩
      · rwa [show i + (k + 1) = i + 1 + k by omega]
      · intro j hj r hr
        cases j with
        | zero =>
          simp only [List.getElem?_cons_zero, Option.some.injEq] at hr
          subst hr
          exact ⟨by simpa using h1, by simpa using h2, by simpa using h3, by simpa using h4⟩
        | succ j =>
          have := hf j (by omega) r (by simpa using hr)
          rwa [show i + 1 + j = i + (j + 1) by omega] at this
    · rintro ⟨k, q, hq, hv, hf⟩
      cases k with
      | zero =>
        simp only [List.getElem?_cons_zero, Option.some.injEq] at hq
        subst hq
        cases hv with
        | stride a b => rw [if_neg (by simpa using a), if_pos (by simpa using b)]; rfl
        | size a b c d =>
          rw [if_neg (by simpa using a), if_neg (by simpa using b), if_neg (by simpa using c),
            if_pos (by simpa using d)]; rfl
      | succ k =>
        have h0 := hf 0 (by omega) p (by simp)
        rw [if_neg (by simpa using h0.packed_usize), if_neg (by simpa using h0.stride_ge),
          if_neg (by simpa using h0.size_usize), if_neg (by simpa using h0.size_le), ih]
        refine ⟨k, q, by simpa using hq, ?_, ?_⟩
        · rwa [show i + (k + 1) = i + 1 + k by omega] at hv
        · intro j hj r hr
          have := hf (j + 1) (by omega) r (by simpa using hr)
          rwa [show i + (j + 1) = i + 1 + j by omega] at this

theorem boundsCheckLoop_fault (f : PixelFormat) (w h : Nat) (flt : Fault) :
    ∀ (ds : List PlaneDesc) (ps : List Plane) (i : Nat), ds.length = ps.length →
      (∀ k d, ds[k]? = some d → DescOk f (i + k) d) →
      (PixelFormat.boundsCheckLoop w h ds ps i = .error flt ↔
        flt = .panic .overflow ∧ ∃ k p, ps[k]? = some p ∧ PlaneOverflow f w h (i + k) p ∧
          ∀ j < k, ∀ q, ps[j]? = some q → PlaneFits f w h (i + j) q)
  | [], [], i, _, _ => by simp [PixelFormat.boundsCheckLoop]
  | d :: ds, p :: ps, i, hl, hd => by
    have hd0 : DescOk f i d := by simpa using hd 0 d
    rw [boundsCheckLoop_cons f w h i d ds p ps hd0]
    have ih := boundsCheckLoop_fault f w h flt ds ps (i + 1) (by simpa using hl) (fun k d hk => by
      have := hd (k + 1) d (by simpa using hk)
      rwa [show i + (k + 1) = i + 1 + k by omega] at this)
    constructor
    · intro hr
      split at hr
      · rename_i h1
        cases hr
        exact ⟨rfl, 0, p, by simp, .inl (by simpa using h1), by simp⟩
      rename_i h1
      split at hr
      · cases hr
      rename_i h2
      split at hr
      · rename_i h3
        cases hr
        exact ⟨rfl, 0, p, by simp, .inr ⟨by simpa using h2, by simpa using h3⟩, by simp⟩
      rename_i h3
      split at hr
      · cases hr
      rename_i h4
      obtain ⟨hflt, k, q, hq, hv, hf⟩ := ih.1 hr
      refine ⟨hflt, k + 1, q, by simpa using hq, ?_, ?_⟩
      · rwa [show i + (k + 1) = i + 1 + k by omega]
      · intro j hj r hr
        cases j with
        | zero =>
          simp only [List.getElem?_cons_zero, Option.some.injEq] at hr
          subst hr
          exact ⟨by simpa using h1, by simpa using h2, by simpa using h3, by simpa using h4⟩
        | succ j =>
          have := hf j (by omega) r (by simpa using hr)
          rwa [show i + 1 + j = i + (j + 1) by omega] at this
    · rintro ⟨rfl, k, q, hq, hv, hf⟩
      cases k with
      | zero =>
        simp only [List.getElem?_cons_zero, Option.some.injEq] at hq
        subst hq
        rcases hv with a | ⟨b, c⟩
        · rw [if_pos (by simpa using a)]
        · by_cases a : rowBytes f i w < usizeSize
          · rw [if_neg (by simpa using a), if_neg (by simpa using b), if_pos (by simpa using c)]
          · rw [if_pos a]
      | succ k =>
        have h0 := hf 0 (by omega) p (by simp)
        rw [if_neg (by simpa using h0.packed_usize), if_neg (by simpa using h0.stride_ge),
          if_neg (by simpa using h0.size_usize), if_neg (by simpa using h0.size_le), ih]
        refine ⟨rfl, k, q, by simpa using hq, ?_, ?_⟩
        · rwa [show i + (k + 1) = i + 1 + k by omega] at hv
        · intro j hj r hr
          have := hf (j + 1) (by omega) r (by simpa using hr)
          rwa [show i + (j + 1) = i + 1 + j by omega] at this

theorem planeDesc_ok0 (f : PixelFormat) : ∀ k d, f.planeDesc[k]? = some d → DescOk f (0 + k) d := by
  intro k d h; simpa using planeDesc_ok f k d h

theorem take_getElem? {α : Type} {l : List α} {n k : Nat} {a : α} :
    (l.take n)[k]? = some a ↔ k < n ∧ l[k]? = some a := by
  rw [List.getElem?_take]
  split
  · simp_all
  · simp; omega

/-- `bounds_check` succeeds. -/
theorem boundsCheck_ok (f : PixelFormat) (ps : List Plane) (w h : Nat) :
    f.boundsCheck ps w h = .ok (.ok ()) ↔
      planeCount f ≤ ps.length ∧ ∀ i < planeCount f, ∀ p, ps[i]? = some p → PlaneFits f w h i p := by
  rw [PixelFormat.boundsCheck, readPlanes_eq, planeDesc_length]
  split
  · rename_i h1
    split at h1
    · cases h1
    · rename_i h2; simp; omega
  · rename_i h1
    split at h1
    · rename_i hle
      cases h1
      rw [boundsCheckLoop_ok f w h _ _ _ (by rw [planeDesc_length]; simp; omega) (planeDesc_ok0 f)]
      simp only [take_getElem?, hle, true_and, Nat.zero_add]
      exact ⟨fun H i hi p hp => H i p ⟨hi, hp⟩, fun H i p hp => H i hp.1 p hp.2⟩
    · cases h1

theorem boundsCheck_error (f : PixelFormat) (ps : List Plane) (w h : Nat) (e : BoundsCheckError) :
    f.boundsCheck ps w h = .ok (.error e) ↔
      (ps.length < planeCount f ∧ e = .invalidNumberOfPlanes ⟨planeCount f, ps.length⟩) ∨
      planeCount f ≤ ps.length ∧ ∃ i < planeCount f, ∃ p, ps[i]? = some p ∧ PlaneViolation f w h i p e ∧
        ∀ j < i, ∀ q, ps[j]? = some q → PlaneFits f w h j q := by
  rw [PixelFormat.boundsCheck, readPlanes_eq, planeDesc_length]
  split
  · rename_i h1
    split at h1
    · cases h1
    · rename_i h2
      cases h1
      simp only [Except.ok.injEq, Except.error.injEq]
      constructor
      · rintro rfl; left; exact ⟨by omega, rfl⟩
      · rintro (⟨-, rfl⟩ | ⟨h, -⟩)
        · rfl
        · omega
  · rename_i h1
    split at h1
    · rename_i hle
      cases h1
      rw [boundsCheckLoop_error f w h e _ _ _ (by rw [planeDesc_length]; simp; omega) (planeDesc_ok0 f)]
      simp only [take_getElem?, hle, true_and, Nat.zero_add]
      constructor
      · rintro ⟨i, p, ⟨hi, hp⟩, hv, hf⟩
        exact .inr ⟨i, hi, p, hp, hv, fun j hj q hq => hf j hj q ⟨by omega, hq⟩⟩
      · rintro (⟨h, -⟩ | ⟨i, hi, p, hp, hv, hf⟩)
        · omega
        · exact ⟨i, p, ⟨hi, hp⟩, hv, fun j hj q hq => hf j hj q hq.2⟩
    · cases h1

theorem boundsCheck_fault (f : PixelFormat) (ps : List Plane) (w h : Nat) (flt : Fault) :
    f.boundsCheck ps w h = .error flt ↔
      flt = .panic .overflow ∧ planeCount f ≤ ps.length ∧
      ∃ i < planeCount f, ∃ p, ps[i]? = some p ∧ PlaneOverflow f w h i p ∧
        ∀ j < i, ∀ q, ps[j]? = some q → PlaneFits f w h j q := by
  rw [PixelFormat.boundsCheck, readPlanes_eq, planeDesc_length]
  split
  · rename_i h1
    split at h1
    · cases h1
    · rename_i h2
      simp; omega
  · rename_i h1
    split at h1
    · rename_i hle
      cases h1
      rw [boundsCheckLoop_fault f w h flt _ _ _ (by rw [planeDesc_length]; simp; omega) (planeDesc_ok0 f)]
      simp only [take_getElem?, hle, true_and, Nat.zero_add]
      constructor
      · rintro ⟨rfl, i, p, ⟨hi, hp⟩, hv, hf⟩
        exact ⟨rfl, i, hi, p, hp, hv, fun j hj q hq => hf j hj q ⟨by omega, hq⟩⟩
      · rintro ⟨rfl, i, hi, p, hp, hv, hf⟩
        exact ⟨rfl, i, p, ⟨hi, hp⟩, hv, fun j hj q hq => hf j hj q hq.2⟩
    · cases h1

end Ezk

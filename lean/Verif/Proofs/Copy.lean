import Verif.Model.Convert
import Verif.Proofs.Run

/-!
# `copy`: rows, planes, images
-/

namespace Ezk
open Spec

/-! ## Rows -/

theorem copyRows_append (n : Nat) : ∀ (l₁ l₂ : List (Slice × Slice)) (m : Mem),
    copyRows n (l₁ ++ l₂) m = copyRows n l₁ m >>= copyRows n l₂
  | [], _, _ => rfl
  | r :: l₁, l₂, m => by
    simp only [List.cons_append, copyRows, bind_assoc]
    cases copyRow n m r with
    | error e => rfl
    | ok m1 => exact copyRows_append n l₁ l₂ m1

/-- The rows of two planes, paired. -/
def rowPairs (s d : Slice) (ss ds k : Nat) : List (Slice × Slice) :=
  (List.range k).map fun i => (⟨s.addr + i * ss, ss⟩, ⟨d.addr + i * ds, ds⟩)

theorem zip_range_map {α β : Type} (f : Nat → α) (g : Nat → β) (a b : Nat) :
    ((List.range a).map f).zip ((List.range b).map g) = (List.range (min a b)).map fun i => (f i, g i) := by
  apply List.ext_getElem?
  intro i
  by_cases h : i < min a b
  · have ha : i < a := by omega
    have hb : i < b := by omega
    simp [List.getElem?_zip_eq_some, List.getElem?_map, ha, hb, h]
  · rw [List.getElem?_eq_none (by simp; omega), List.getElem?_eq_none (by simp; omega)]

theorem chunks_zip {s d : Slice} {ss ds : Nat} (h1 : 0 < ss) (h2 : 0 < ds) :
    ∃ a b, s.chunksExact ss = .ok a ∧ d.chunksExact ds = .ok b ∧
      a.zip b = rowPairs s d ss ds (min (s.len / ss) (d.len / ds)) :=
  ⟨_, _, by rw [Slice.chunksExact, if_neg (by omega)], by rw [Slice.chunksExact, if_neg (by omega)],
    by rw [zip_range_map]; rfl⟩

theorem copyRow_ok {n ss ds a b : Nat} (h1 : n ≤ ss) (h2 : n ≤ ds) (m : Mem) :
    copyRow n m (⟨a, ss⟩, ⟨b, ds⟩) = .ok (m.store b n fun i => m (a + i)) := by
  simp only [copyRow, Slice.takeTo, if_pos h1, if_pos h2, rawRead, rawWrite, Nat.le_refl, if_true, bind, Except.bind]

/-- What copying `k` rows of `n` bytes does. -/
structure RowsCopied (s d : Slice) (ss ds n k : Nat) (m m' : Mem) : Prop where
  inside : ∀ r < k, ∀ c < n, m' (d.addr + r * ds + c) = m (s.addr + r * ss + c)
  outside : ∀ a, (∀ r < k, ¬ (d.addr + r * ds ≤ a ∧ a < d.addr + r * ds + n)) → m' a = m a

theorem copyRows_ok {s d : Slice} {ss ds n : Nat} (h1 : n ≤ ss) (h2 : n ≤ ds) (hsep : SliceDisjoint s d) :
    ∀ k, k * ss ≤ s.len → k * ds ≤ d.len → ∀ m, ∃ m', copyRows n (rowPairs s d ss ds k) m = .ok m' ∧
      RowsCopied s d ss ds n k m m' := by
  intro k
  induction k with
  | zero => exact fun _ _ m => ⟨m, rfl, fun r hr => absurd hr (by omega), fun _ _ => rfl⟩
  | succ k ih =>
    intro hs hd m
    rw [Nat.succ_mul] at hs hd
    obtain ⟨m1, e1, r1⟩ := ih (by omega) (by omega) m
    refine ⟨m1.store (d.addr + k * ds) n fun i => m1 (s.addr + k * ss + i), ?_, ?_, ?_⟩
    · rw [rowPairs, List.range_succ, List.map_append, copyRows_append]
      rw [rowPairs] at e1
      rw [e1, ok_bind]
      simp only [List.map_cons, List.map_nil, copyRows]
      rw [copyRow_ok h1 h2, ok_bind]
    · intro r hr c hc
      by_cases hrk : r = k
      · subst hrk
        rw [Mem.store, dif_pos ⟨by omega, by omega⟩]
        show m1 (s.addr + r * ss + (d.addr + r * ds + c - (d.addr + r * ds))) = _
        rw [show d.addr + r * ds + c - (d.addr + r * ds) = c by omega]
        refine r1.outside _ fun r' hr' hin => ?_
        have h3 : (r' + 1) * ds ≤ r * ds := Nat.mul_le_mul_right _ (by omega)
        rw [Nat.succ_mul] at h3
        exact hsep (s.addr + r * ss + c) (by omega) (by omega) (by omega) (by omega)
      · have h3 : (r + 1) * ds ≤ k * ds := Nat.mul_le_mul_right _ (by omega)
        rw [Nat.succ_mul] at h3
        rw [Mem.store, dif_neg (by omega)]
        exact r1.inside r (by omega) c hc
    · intro a ha
      rw [Mem.store, dif_neg (ha k (by omega))]
      exact r1.outside a fun r hr => ha r (by omega)

/-! ## Planes -/

/-- The number of rows `copy` moves. -/
def copiedRows (s d : Plane) : Nat := min (s.slice.len / s.stride) (d.slice.len / d.stride)

theorem RowsCopied.away {s d : Plane} {n : Nat} {m m' : Mem}
    (h : RowsCopied s.slice d.slice s.stride d.stride n (copiedRows s d) m m') (hn : n ≤ d.stride) {a : Nat}
    (ha : ¬ d.slice.Has a) : m' a = m a := by
  refine h.outside a fun r hr hin => ha ?_
  have h3 : (r + 1) * d.stride ≤ d.slice.len :=
    Nat.le_trans (Nat.mul_le_mul_right _ (by rw [copiedRows] at hr; omega)) (Nat.div_mul_le_self d.slice.len d.stride)
  rw [Nat.succ_mul] at h3
  exact ⟨by omega, by omega⟩

/-- A row position of plane pair `t`. -/
theorem row_has {s d : Plane} {n r c : Nat} (hn : n ≤ d.stride) (hr : r < copiedRows s d) (hc : c < n) :
    d.slice.Has (d.slice.addr + r * d.stride + c) := by
  have h3 : (r + 1) * d.stride ≤ d.slice.len :=
    Nat.le_trans (Nat.mul_le_mul_right _ (by rw [copiedRows] at hr; omega)) (Nat.div_mul_le_self d.slice.len d.stride)
  rw [Nat.succ_mul] at h3
  exact ⟨by omega, by omega⟩

theorem row_has_src {s d : Plane} {n r c : Nat} (hn : n ≤ s.stride) (hr : r < copiedRows s d) (hc : c < n) :
    s.slice.Has (s.slice.addr + r * s.stride + c) := by
  have h3 : (r + 1) * s.stride ≤ s.slice.len :=
    Nat.le_trans (Nat.mul_le_mul_right _ (by rw [copiedRows] at hr; omega)) (Nat.div_mul_le_self s.slice.len s.stride)
  rw [Nat.succ_mul] at h3
  exact ⟨by omega, by omega⟩

/-- The planes can be copied. -/
structure Copyable (w : Nat) (n : Nat) (desc : PlaneDesc) (s d : Plane) : Prop where
  bytes : desc.packedStride w = .ok n
  src : n ≤ s.stride
  dst : n ≤ d.stride
  srcPos : 0 < s.stride
  dstPos : 0 < d.stride

theorem copyPlanes_step {w n : Nat} {desc : PlaneDesc} {s d : Plane} (h : Copyable w n desc s d)
    (hsep : SliceDisjoint s.slice d.slice) (rest : List (PlaneDesc × Plane × Plane)) (m : Mem) :
    ∃ m1, RowsCopied s.slice d.slice s.stride d.stride n (copiedRows s d) m m1 ∧
      copyPlanes w ((desc, s, d) :: rest) m = copyPlanes w rest m1 := by
  obtain ⟨a, b, ea, eb, ez⟩ := chunks_zip (s := s.slice) (d := d.slice) h.srcPos h.dstPos
  obtain ⟨m1, e1, r1⟩ := copyRows_ok h.src h.dst hsep (copiedRows s d)
    (Nat.le_trans (Nat.mul_le_mul_right _ (Nat.min_le_left _ _)) (Nat.div_mul_le_self _ _))
    (Nat.le_trans (Nat.mul_le_mul_right _ (Nat.min_le_right _ _)) (Nat.div_mul_le_self _ _)) m
  refine ⟨m1, r1, ?_⟩
  have hb := h.bytes
  simp only [PlaneDesc.packedStride] at hb
  cases ho : desc.widthOp.op w with
  | error e => rw [ho] at hb; cases hb
  | ok o =>
    rw [ho, ok_bind] at hb
    obtain ⟨hlt, rfl⟩ := mulU_eq_ok.1 hb
    simp only [copyPlanes, ho, ok_bind, mulP_ok hlt, ea, eb, ez]
    rw [show min (s.slice.len / s.stride) (d.slice.len / d.stride) = copiedRows s d from rfl, e1, ok_bind]

/-- All planes of an image, the rows of which have `n` bytes. -/
structure PlanesCopied (n : Nat → Nat) (sps dps : List Plane) (k : Nat) (m m' : Mem) : Prop where
  inside : ∀ i < k, ∀ s d, sps[i]? = some s → dps[i]? = some d → ∀ r < copiedRows s d, ∀ c < n i,
    m' (d.slice.addr + r * d.stride + c) = m (s.slice.addr + r * s.stride + c)
  outside : ∀ a, (∀ i < k, ∀ s d, sps[i]? = some s → dps[i]? = some d → ∀ r < copiedRows s d,
    ¬ (d.slice.addr + r * d.stride ≤ a ∧ a < d.slice.addr + r * d.stride + n i)) → m' a = m a

theorem copyPlanes_ok {w : Nat} : ∀ (ds : List PlaneDesc) (n : Nat → Nat) (sps dps : List Plane) (m : Mem),
    ds.length ≤ sps.length → ds.length ≤ dps.length →
    (∀ i desc s d, ds[i]? = some desc → sps[i]? = some s → dps[i]? = some d → Copyable w (n i) desc s d) →
    (∀ i j s d, i < ds.length → j < ds.length → sps[i]? = some s → dps[j]? = some d → SliceDisjoint s.slice d.slice) →
    (∀ i j p q, i < ds.length → j < ds.length → i ≠ j → dps[i]? = some p → dps[j]? = some q →
      SliceDisjoint p.slice q.slice) →
    ∃ m', copyPlanes w (ds.zip (sps.zip dps)) m = .ok m' ∧ PlanesCopied n sps dps ds.length m m'
  | [], n, sps, dps, m, _, _, _, _, _ => by
    refine ⟨m, ?_, fun i hi => absurd hi (by simp), fun _ _ => rfl⟩
    rw [List.zip_nil_left, copyPlanes]
  | desc :: ds, n, [], dps, m, h1, _, _, _, _ => by simp at h1
  | desc :: ds, n, s :: sps, [], m, _, h2, _, _, _ => by simp at h2
  | desc :: ds, n, s :: sps, d :: dps, m, h1, h2, hc, hsep, hdis => by
    simp only [List.length_cons, Nat.add_le_add_iff_right] at h1 h2
    have c0 := hc 0 desc s d rfl rfl rfl
    obtain ⟨m1, r1, e1⟩ := copyPlanes_step c0 (hsep 0 0 s d (by simp) (by simp) rfl rfl) (ds.zip (sps.zip dps)) m
    obtain ⟨m', e2, r2⟩ := copyPlanes_ok ds (fun i => n (i + 1)) sps dps m1 h1 h2
      (fun i desc' s' d' a b c => hc (i + 1) desc' s' d' (by simpa using a) (by simpa using b) (by simpa using c))
      (fun i j s' d' a b c e => hsep (i + 1) (j + 1) s' d' (by simpa using a) (by simpa using b) (by simpa using c)
        (by simpa using e))
      (fun i j p q a b hij c e => hdis (i + 1) (j + 1) p q (by simpa using a) (by simpa using b) (by omega)
        (by simpa using c) (by simpa using e))
    refine ⟨m', by rw [List.zip_cons_cons, List.zip_cons_cons, e1, e2], ?_, ?_⟩
    · intro i hi s' d' hs' hd' r hr c hcn
      cases i with
      | zero =>
        cases hs'; cases hd'
        rw [r2.outside, r1.inside r hr c hcn]
        intro j hj s2 d2 hs2 hd2 r2 hr2 hin
        have hj2 := hc (j + 1) _ s2 d2 (by rw [List.getElem?_cons_succ]; exact List.getElem?_eq_getElem hj) (by simpa using hs2) (by simpa using hd2)
        have ha := row_has c0.dst hr hcn
        have hb : d2.slice.Has (d.slice.addr + r * d.stride + c) := by
          have := row_has (c := d.slice.addr + r * d.stride + c - (d2.slice.addr + r2 * d2.stride)) hj2.dst hr2 (by omega)
          rwa [show d2.slice.addr + r2 * d2.stride + (d.slice.addr + r * d.stride + c - (d2.slice.addr + r2 * d2.stride)) =
            d.slice.addr + r * d.stride + c by omega] at this
        exact hdis 0 (j + 1) d d2 (by simp) (by simpa using hj) (by omega) rfl (by simpa using hd2) _ ha.1 ha.2 hb.1 hb.2
      | succ i =>
        have hi' : i < ds.length := by simpa using hi
        have hs2 : sps[i]? = some s' := by simpa using hs'
        have hd2 : dps[i]? = some d' := by simpa using hd'
        rw [r2.inside i hi' s' d' hs2 hd2 r hr c hcn]
        refine r1.away c0.dst fun hin => ?_
        have ci := hc (i + 1) _ s' d' (by rw [List.getElem?_cons_succ]; exact List.getElem?_eq_getElem hi') hs' hd'
        have ha := row_has_src ci.src hr hcn
        exact hsep (i + 1) 0 s' d hi (by simp) hs' rfl _ ha.1 ha.2 hin.1 hin.2
    · intro a ha
      rw [r2.outside a fun i hi s' d' hs' hd' => ha (i + 1) (by simpa using hi) s' d' (by simpa using hs') (by simpa using hd')]
      exact r1.outside a fun r hr => ha 0 (by simp) s d rfl rfl r hr

/-- A stride of zero panics. -/
theorem copyPlanes_strides {w : Nat} : ∀ (ds : List PlaneDesc) (sps dps : List Plane) (m m' : Mem),
    copyPlanes w (ds.zip (sps.zip dps)) m = .ok m' → ∀ i s d, i < ds.length → sps[i]? = some s → dps[i]? = some d →
      0 < s.stride ∧ 0 < d.stride
  | [], _, _, _, _, _, i, _, _, hi, _, _ => by simp at hi
  | _ :: _, [], _, _, _, _, _, _, _, _, hs, _ => by simp at hs
  | _ :: _, _ :: _, [], _, _, _, _, _, _, _, _, hd => by simp at hd
  | desc :: ds, s :: sps, d :: dps, m, m', h, i, s', d', hi, hs, hd => by
    rw [List.zip_cons_cons, List.zip_cons_cons, copyPlanes] at h
    cases ho : desc.widthOp.op w with
    | error e => rw [ho] at h; cases h
    | ok o =>
      rw [ho, ok_bind] at h
      cases hn : mulP o desc.bytesPerPrimitive with
      | error e => rw [hn] at h; cases h
      | ok n =>
        rw [hn, ok_bind] at h
        by_cases h1 : s.stride = 0
        · rw [Slice.chunksExact, if_pos h1] at h; cases h
        by_cases h2 : d.stride = 0
        · rw [Slice.chunksExact, if_neg h1, ok_bind, Slice.chunksExact, if_pos h2] at h; cases h
        rw [Slice.chunksExact, if_neg h1, ok_bind, Slice.chunksExact, if_neg h2, ok_bind] at h
        cases i with
        | zero => cases hs; cases hd; omega
        | succ i =>
          cases hr : copyRows n (((List.range (s.slice.len / s.stride)).map fun i => ⟨s.slice.addr + i * s.stride, s.stride⟩).zip
            ((List.range (d.slice.len / d.stride)).map fun i => ⟨d.slice.addr + i * d.stride, d.stride⟩)) m with
          | error e => rw [hr] at h; cases h
          | ok m1 =>
            rw [hr, ok_bind] at h
            exact copyPlanes_strides ds sps dps m1 m' h i s' d' (by simpa using hi) (by simpa using hs) (by simpa using hd)

/-! ## Images -/

/-- What `copy` checks. -/
theorem copyImpl_eq (src dst : Img) (m : Mem) :
    copyImpl src dst m =
      if src.width ≠ dst.width ∨ src.height ≠ dst.height then .ok (.error .mismatchedImageSize, m)
      else if src.width % 2 = 1 ∨ src.height % 2 = 1 then .ok (.error .oddImageDimensions, m)
      else if src.format ≠ dst.format then .error (.panic .assertion)
      else do
        match ← firstProblem [checkBounds src, checkBounds dst] with
        | .error e => return (.error e, m)
        | .ok () =>
          let m ← copyPlanes src.width (src.format.planeDesc.zip ((← src.planes).zip (← dst.planes))) m
          return (.ok (), m) := by
  unfold copyImpl verifyInputWindows
  by_cases h1 : src.width ≠ dst.width ∨ src.height ≠ dst.height
  · rw [if_pos h1, if_pos h1]; rfl
  rw [if_neg h1, if_neg h1]
  by_cases h2 : src.width % 2 = 1 ∨ src.height % 2 = 1
  · rw [if_pos h2, if_pos h2]; rfl
  rw [if_neg h2, if_neg h2]
  dsimp only
  by_cases h3 : src.format ≠ dst.format
  · rw [if_pos h3, if_pos h3]
  rw [if_neg h3, if_neg h3]
  simp only [firstProblem, checkBounds]
  rcases src.boundsCheck with e | (e | _)
  · rfl
  · rfl
  · rcases dst.boundsCheck with e | (e | _) <;> rfl

end Ezk

import Verif.Spec.Strips
import Verif.Proofs.Refine

/-!
# `split_planes` cuts an image into its strips
-/

namespace Ezk
open Spec

/-! ## Arithmetic of strips -/

theorem rowCount_even_add (f : PixelFormat) (i : Nat) {a : Nat} (b : Nat) (ha : a % 2 = 0) :
    rowCount f i (a + b) = rowCount f i a + rowCount f i b := by
  cases f <;> simp only [rowCount] <;> (try split) <;> omega

theorem rowCount_mono (f : PixelFormat) (i : Nat) {a b : Nat} (h : a ≤ b) : rowCount f i a ≤ rowCount f i b := by
  cases f <;> simp only [rowCount] <;> (try split) <;> omega

theorem stripStart_even (height n k : Nat) : stripStart height n k % 2 = 0 := by rw [stripStart]; omega
theorem stripHeight_even (height n k : Nat) : stripHeight height n k % 2 = 0 := by rw [stripHeight]; omega

theorem stripStart_zero (height n : Nat) : stripStart height n 0 = 0 := by simp [stripStart]

theorem stripStart_succ (height n k : Nat) :
    stripStart height n (k + 1) = stripStart height n k + stripHeight height n k := by
  simp only [stripStart, stripHeight, Nat.add_mul, Nat.one_mul]
  generalize k * (height / 2 / n) = a
  generalize height / 2 / n = b
  generalize height / 2 % n = c
  split <;> omega

theorem stripStart_end {height n : Nat} (hn : 0 < n) : stripStart height n n = height / 2 * 2 := by
  rw [stripStart]
  have h1 := Nat.div_add_mod (height / 2) n
  have h2 := Nat.mod_lt (height / 2) hn
  rw [Nat.min_eq_right (by omega)]
  omega

theorem stripStart_mono (height n : Nat) {j k : Nat} (h : j ≤ k) : stripStart height n j ≤ stripStart height n k := by
  induction k with
  | zero => obtain rfl : j = 0 := by omega
            exact Nat.le_refl _
  | succ k ih =>
    by_cases hj : j = k + 1
    · rw [hj]; exact Nat.le_refl _
    · rw [stripStart_succ]; have := ih (by omega); omega

theorem stripHeight_pos {height n : Nat} (hn : 0 < n) (h : n ≤ height / 2) (k : Nat) : 0 < stripHeight height n k := by
  rw [stripHeight]
  have : 0 < height / 2 / n := Nat.div_pos h hn
  omega

/-! ## The loop -/

theorem splitAt_ok {s : Slice} {n : Nat} (h : n ≤ s.len) :
    s.splitAt n = .ok (⟨s.addr, n⟩, ⟨s.addr + n, s.len - n⟩) := by rw [Slice.splitAt, if_pos h]

theorem splitStrip_eq (h : Nat) : ∀ (ds : List PlaneDesc) (ps : List Plane) (c : Nat → Nat),
    (∀ (i : Nat) (d : PlaneDesc), ds[i]? = some d → d.heightOp.op h = .ok (c i)) →
    (∀ (i : Nat) (p : Plane), i < ds.length → ps[i]? = some p → p.stride * c i < usizeSize ∧ p.stride * c i ≤ p.slice.len) →
    splitStrip h ds ps = .ok ((ps.take ds.length).mapIdx (fun i p => ⟨⟨p.slice.addr, p.stride * c i⟩, p.stride⟩),
      ps.mapIdx fun i p => if i < ds.length then
        ⟨⟨p.slice.addr + p.stride * c i, p.slice.len - p.stride * c i⟩, p.stride⟩ else p)
  | [], ps, c, _, _ => by
    rw [splitStrip]
    simp only [List.length_nil, List.take_zero, List.mapIdx_nil, Nat.not_lt_zero, if_false]
    congr 2
    apply List.ext_getElem? 
    intro i
    simp
  | _ :: _, [], c, _, _ => by simp [splitStrip]
  | d :: ds, p :: ps, c, h1, h2 => by
    have ih := splitStrip_eq h ds ps (fun i => c (i + 1)) (fun i d hd => h1 (i + 1) d (by simpa using hd))
      (fun i p hi hp => h2 (i + 1) p (by simpa using hi) (by simpa using hp))
    obtain ⟨a1, a2⟩ := h2 0 p (by simp) (by simp)
    rw [splitStrip, h1 0 d (by simp), ok_bind, mulU_ok a1, ok_bind, splitAt_ok a2, ok_bind]
    dsimp only
    rw [ih, ok_bind]
    simp only [List.length_cons, List.take_succ_cons, List.mapIdx_cons, Nat.zero_lt_succ, if_true, Nat.add_lt_add_iff_right]
    rfl

/-- The planes from row `o` on. -/
def advance (f : PixelFormat) (ps : List Plane) (o : Nat) : List Plane :=
  ps.mapIdx fun i p => if i < planeCount f then
    ⟨⟨p.slice.addr + p.stride * rowCount f i o, p.slice.len - p.stride * rowCount f i o⟩, p.stride⟩ else p

theorem advance_zero (f : PixelFormat) (ps : List Plane) : advance f ps 0 = ps := by
  apply List.ext_getElem?
  intro i
  have : rowCount f i 0 = 0 := by cases f <;> simp [rowCount]
  simp only [advance, List.getElem?_mapIdx]
  cases ps[i]? with
  | none => rfl
  | some p => simp [this]

theorem splitStrip_advance {f : PixelFormat} {ps : List Plane} {w H : Nat} (hf : Fits f ps w H) {o h : Nat}
    (ho : o % 2 = 0) (hoh : o + h ≤ H) :
    splitStrip h f.planeDesc (advance f ps o) = .ok (stripPlanes f ps o h, advance f ps (o + h)) := by
  rw [splitStrip_eq h _ _ (fun i => rowCount f i h) (fun i d hd => (planeDesc_ok f i d hd).rows h)]
  · congr 2
    · apply List.ext_getElem?
      intro i
      simp only [advance, stripPlanes, planeDesc_length, List.getElem?_mapIdx, List.getElem?_take]
      by_cases hi : i < planeCount f
      · cases ps[i]? with
        | none => simp [hi]
        | some p => simp [hi, stripPlane]
      · simp [hi]
    · apply List.ext_getElem?
      intro i
      simp only [advance, planeDesc_length, List.getElem?_mapIdx]
      cases ps[i]? with
      | none => simp
      | some p =>
        by_cases hi : i < planeCount f
        · simp only [Option.map_some, hi, if_true, rowCount_even_add f i h ho, Nat.mul_add, Option.some.injEq, Plane.mk.injEq,
            Slice.mk.injEq, and_true]
          omega
        · simp [hi]
  · intro i p hi hp
    rw [planeDesc_length] at hi
    simp only [advance, List.getElem?_mapIdx, Option.map_eq_some_iff, hi, if_true] at hp
    obtain ⟨q, hq, rfl⟩ := hp
    have hfit := hf.2 i hi q hq
    have e1 := rowCount_mono f i hoh
    rw [rowCount_even_add f i h ho] at e1
    have e2 := Nat.mul_le_mul_left q.stride e1
    rw [Nat.mul_add] at e2
    have e3 := hfit.size_usize
    have e4 := hfit.size_le
    simp only [usizeSize]
    omega

theorem splitLoop_eq {f : PixelFormat} {ps : List Plane} {w H : Nat} (hf : Fits f ps w H) {n : Nat} (hn : 0 < n)
    (hH : H < usizeSize) : ∀ (l k : Nat), k + l = n →
    splitLoop f.planeDesc (H / 2 / n) l (H / 2 % n - k) (advance f ps (stripStart H n k)) =
      .ok ((List.range' k l).map fun k =>
        (stripHeight H n k, stripPlanes f ps (stripStart H n k) (stripHeight H n k)))
  | 0, k, _ => rfl
  | l + 1, k, hk => by
    have ih := splitLoop_eq hf hn hH l (k + 1) (by omega)
    have hle : stripStart H n k + stripHeight H n k ≤ H / 2 * 2 := by
      rw [← stripStart_succ, ← stripStart_end hn]; exact stripStart_mono _ _ (by omega)
    have e0 : H / 2 / n + (if H / 2 % n - k > 0 then 1 else 0) = stripHeight H n k / 2 := by
      rw [stripHeight]
      by_cases h : k < H / 2 % n
      · rw [if_pos h, if_pos (by omega)]; omega
      · rw [if_neg h, if_neg (by omega)]; omega
    have e1 : (if H / 2 % n - k > 0 then H / 2 % n - k - 1 else H / 2 % n - k) = H / 2 % n - (k + 1) := by
      split <;> omega
    have e2 : stripHeight H n k / 2 * 2 = stripHeight H n k := by have := stripHeight_even H n k; omega
    rw [splitLoop]
    dsimp only
    rw [addP_ok (by rw [e0]; omega), ok_bind, e0, e1, mulU_ok (by rw [e2]; omega), e2, ok_bind,
      splitStrip_advance hf (stripStart_even _ _ _) (by omega), ok_bind]
    dsimp only
    rw [← stripStart_succ, ih]
    rfl

theorem splitPlanes_eq {f : PixelFormat} {ps : List Plane} {w H : Nat} (hf : Fits f ps w H) (hH : H < usizeSize)
    {threads : Nat} (ht : 0 < threads) (h2 : 2 ≤ H) :
    splitPlanes f.planeDesc ps H threads =
      .ok ((strips H threads).map fun s => (s.2, stripPlanes f ps s.1 s.2)) := by
  have hn : 0 < min threads (H / 2) := by omega
  have := splitLoop_eq hf hn hH (min threads (H / 2)) 0 (by omega)
  rw [stripStart_zero, advance_zero, Nat.sub_zero] at this
  rw [splitPlanes, divU, if_neg (by omega), ok_bind, modU, if_neg (by omega), ok_bind, this, strips, stripCount, List.map_map,
    List.range_eq_range']
  rfl

end Ezk

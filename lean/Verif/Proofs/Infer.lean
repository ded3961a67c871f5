import Verif.Proofs.Layout

namespace Ezk
open Spec

/-- Sizes of the planes for given strides, starting with plane `i`. -/
def planeSizes (f : PixelFormat) (h : Nat) : (i : Nat) → List Nat → List Nat
  | _, [] => []
  | i, s :: ss => s * rowCount f i h :: planeSizes f h (i + 1) ss

theorem planeSizes_getElem? (f : PixelFormat) (h : Nat) : ∀ (ss : List Nat) (i k : Nat),
    (planeSizes f h i ss)[k]? = ss[k]?.map fun s => s * rowCount f (i + k) h
  | [], i, k => by simp [planeSizes]
  | s :: ss, i, 0 => by simp [planeSizes]
  | s :: ss, i, k + 1 => by
    simp [planeSizes, planeSizes_getElem? f h ss (i + 1) k, show i + 1 + k = i + (k + 1) by omega]

theorem planeSizes_length (f : PixelFormat) (h : Nat) : ∀ (ss : List Nat) (i : Nat),
    (planeSizes f h i ss).length = ss.length
  | [], i => by simp [planeSizes]
  | s :: ss, i => by simp [planeSizes, planeSizes_length f h ss (i + 1)]

/-- Consecutive slices of the given sizes. -/
def carve : Nat → List Nat → List Slice
  | _, [] => []
  | a, n :: ns => ⟨a, n⟩ :: carve (a + n) ns

theorem carve_length : ∀ (ns : List Nat) (a : Nat), (carve a ns).length = ns.length
  | [], a => by simp [carve]
  | n :: ns, a => by simp [carve, carve_length ns]

theorem carve_getElem? : ∀ (ns : List Nat) (a k : Nat),
    (carve a ns)[k]? = ns[k]?.map fun n => ⟨a + (ns.take k).sum, n⟩
  | [], a, k => by simp [carve]
  | n :: ns, a, 0 => by simp [carve]
  | n :: ns, a, k + 1 => by
    simp only [carve, List.getElem?_cons_succ, carve_getElem? ns (a + n) k, List.take_succ_cons, List.sum_cons]
    simp [Nat.add_assoc]

theorem inferLoop_ok (f : PixelFormat) (h : Nat) :
    ∀ (ds : List PlaneDesc) (ss : List Nat) (i : Nat) (buf : Slice), ds.length = ss.length →
      (∀ k d, ds[k]? = some d → DescOk f (i + k) d) →
      (∀ n ∈ planeSizes f h i ss, n < usizeSize) → (planeSizes f h i ss).sum ≤ buf.len →
      inferLoop h (ds.zip ss) buf = .ok (carve buf.addr (planeSizes f h i ss))
  | [], [], i, buf, _, _, _, _ => by simp [inferLoop, planeSizes, carve]
  | d :: ds, s :: ss, i, buf, hl, hd, hn, hs => by
    have hd0 : DescOk f i d := by simpa using hd 0 d
    simp only [planeSizes, List.sum_cons, List.mem_cons, forall_eq_or_imp] at hs hn
    have ih := inferLoop_ok f h ds ss (i + 1) ⟨buf.addr + s * rowCount f i h, buf.len - s * rowCount f i h⟩
      (by simpa using hl) (fun k d hk => by
        have := hd (k + 1) d (by simpa using hk)
        rwa [show i + (k + 1) = i + 1 + k by omega] at this) hn.2 (by simp; omega)
    simp only [List.zip_cons_cons, inferLoop, hd0.rows]
    have hm : mulU (rowCount f i h) s = .ok (s * rowCount f i h) := by
      rw [mulU_ok (by rw [Nat.mul_comm]; exact hn.1), Nat.mul_comm]
    simp only [bind, Except.bind, hm, Slice.splitAt]
    rw [if_pos (by omega)]
    simp only [planeSizes, carve, ih]
    rfl

theorem inferLoop_panic (f : PixelFormat) (h : Nat) :
    ∀ (ds : List PlaneDesc) (ss : List Nat) (i : Nat) (buf : Slice), ds.length = ss.length →
      (∀ k d, ds[k]? = some d → DescOk f (i + k) d) →
      ¬ ((∀ n ∈ planeSizes f h i ss, n < usizeSize) ∧ (planeSizes f h i ss).sum ≤ buf.len) →
      inferLoop h (ds.zip ss) buf = .error (.panic .overflow) ∨
      inferLoop h (ds.zip ss) buf = .error (.panic .splitAt)
  | [], [], i, buf, _, _, hn => by simp [planeSizes] at hn
  | d :: ds, s :: ss, i, buf, hl, hd, hn => by
    have hd0 : DescOk f i d := by simpa using hd 0 d
    simp only [List.zip_cons_cons, inferLoop, hd0.rows]
    by_cases h1 : s * rowCount f i h < usizeSize
    · have hm : mulU (rowCount f i h) s = .ok (s * rowCount f i h) := by
        rw [mulU_ok (by rw [Nat.mul_comm]; exact h1), Nat.mul_comm]
      by_cases h2 : s * rowCount f i h ≤ buf.len
      · have ih := inferLoop_panic f h ds ss (i + 1) ⟨buf.addr + s * rowCount f i h, buf.len - s * rowCount f i h⟩
          (by simpa using hl) (fun k d hk => by
            have := hd (k + 1) d (by simpa using hk)
            rwa [show i + (k + 1) = i + 1 + k by omega] at this) (by
              rintro ⟨ha, hb⟩
              apply hn
              simp only [planeSizes, List.sum_cons, List.mem_cons, forall_eq_or_imp]
              simp only at hb
              exact ⟨⟨h1, ha⟩, by omega⟩)
        simp only [bind, Except.bind, hm, Slice.splitAt, if_pos h2]
        rcases ih with ih | ih <;> simp [ih]
      · simp only [bind, Except.bind, hm, Slice.splitAt, if_neg h2]
        simp
    · have hm : mulU (rowCount f i h) s = .error (.panic .overflow) :=
        mulU_err (by rw [Nat.mul_comm]; exact h1)
      simp only [bind, Except.bind, hm]
      simp

theorem packedMapM (f : PixelFormat) (w : Nat) :
    ∀ (ds : List PlaneDesc) (i : Nat), (∀ k d, ds[k]? = some d → DescOk f (i + k) d) →
      ds.mapM (fun d => d.packedStride w) =
        if ∀ k < ds.length, rowBytes f (i + k) w < usizeSize then
          .ok ((List.range ds.length).map fun k => rowBytes f (i + k) w)
        else .error (.panic .overflow)
  | [], i, _ => by simp [pure, Except.pure]
  | d :: ds, i, hd => by
    have hd0 : DescOk f i d := by simpa using hd 0 d
    have ih := packedMapM f w ds (i + 1) (fun k d hk => by
      have := hd (k + 1) d (by simpa using hk)
      rwa [show i + (k + 1) = i + 1 + k by omega] at this)
    rw [List.mapM_cons, hd0.packed, ih]
    by_cases h1 : rowBytes f i w < usizeSize
    · rw [if_pos h1]
      by_cases h2 : ∀ k < ds.length, rowBytes f (i + 1 + k) w < usizeSize
      · rw [if_pos h2, if_pos]
        · simp [bind, Except.bind, pure, Except.pure, List.range_succ_eq_map, Function.comp_def]
          intro a _
          rw [show i + 1 + a = i + (a + 1) by omega]
        · intro k hk
          cases k with
          | zero => exact h1
          | succ k =>
            have := h2 k (by simpa using hk)
            rwa [show i + 1 + k = i + (k + 1) by omega] at this
      · rw [if_neg h2, if_neg]
        · rfl
        · intro hc
          apply h2
          intro k hk
          have := hc (k + 1) (by simpa using hk)
          rwa [show i + (k + 1) = i + 1 + k by omega] at this
    · have : ¬ ∀ k < (d :: ds).length, rowBytes f (i + k) w < usizeSize := by
        intro hc
        exact h1 (hc 0 (by simp))
      rw [if_neg h1, if_neg this]
      rfl

/-- The packed strides of the specification. -/
def specStrides (f : PixelFormat) (w : Nat) : List Nat := (List.range (planeCount f)).map fun k => rowBytes f k w

theorem packedStrides_eq (f : PixelFormat) (w : Nat) :
    f.packedStrides w = if ∀ k < planeCount f, rowBytes f k w < usizeSize then .ok (specStrides f w)
      else .error (.panic .overflow) := by
  rw [PixelFormat.packedStrides, packedMapM f w _ 0 (planeDesc_ok0 f)]
  simp [planeDesc_length, specStrides]

theorem infer_multi (f : PixelFormat) (hf : planeCount f ≠ 1) (buf : Slice) (w h : Nat) (st : Option (List Nat)) :
    infer f buf w h st = inferImpl f.planeDesc buf w h st := by
  cases f <;> simp [planeCount] at hf <;> rfl

theorem infer_single (f : PixelFormat) (hf : planeCount f = 1) (buf : Slice) (w h : Nat) (st : Option (List Nat)) :
    infer f buf w h st = .ok [buf] := by
  cases f <;> simp [planeCount] at hf <;> rfl

theorem inferImpl_some (f : PixelFormat) (buf : Slice) (w h : Nat) (ss : List Nat)
    (hl : ss.length = planeCount f) :
    inferImpl f.planeDesc buf w h (some ss) = inferLoop h (f.planeDesc.zip ss) buf := by
  simp [inferImpl, planeDesc_length, hl, bind, Except.bind]

theorem inferImpl_some_bad (f : PixelFormat) (buf : Slice) (w h : Nat) (ss : List Nat)
    (hl : ss.length ≠ planeCount f) :
    inferImpl f.planeDesc buf w h (some ss) = .error (.panic .unwrap) := by
  simp [inferImpl, planeDesc_length, hl, bind, Except.bind]

theorem inferImpl_none (f : PixelFormat) (buf : Slice) (w h : Nat) :
    inferImpl f.planeDesc buf w h none =
      if ∀ k < planeCount f, rowBytes f k w < usizeSize then inferLoop h (f.planeDesc.zip (specStrides f w)) buf
      else .error (.panic .overflow) := by
  have := packedStrides_eq f w
  rw [PixelFormat.packedStrides] at this
  simp only [inferImpl, this]
  split <;> rfl

end Ezk

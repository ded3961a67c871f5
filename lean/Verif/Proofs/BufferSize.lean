import Verif.Proofs.Infer

namespace Ezk
open Spec

theorem mul3 (a b c size : Nat) (hc : 0 < c) :
    (do addU size (← mulU (← mulU a b) c) : Exec Nat) =
      if size + a * b * c < usizeSize then .ok (size + a * b * c) else .error (.panic .overflow) := by
  have h1 : a * b ≤ a * b * c := Nat.le_mul_of_pos_right _ hc
  by_cases h : size + a * b * c < usizeSize
  · rw [mulU_ok (by omega), if_pos h]
    simp only [bind, Except.bind]
    rw [mulU_ok (by omega)]
    simp only
    rw [addU_ok h]
  · rw [if_neg h]
    by_cases h2 : a * b < usizeSize
    · rw [mulU_ok h2]
      simp only [bind, Except.bind]
      by_cases h3 : a * b * c < usizeSize
      · rw [mulU_ok h3]
        simp only
        rw [addU_err h]
      · rw [mulU_err h3]
    · rw [mulU_err h2]; rfl

theorem mulU_cases (w k : Nat) :
    mulU w k = .ok (k * w) ∨ (mulU w k = .error (.panic .overflow) ∧ usizeSize ≤ k * w) := by
  by_cases h : w * k < usizeSize
  · exact .inl (by rw [mulU_ok h, Nat.mul_comm])
  · exact .inr ⟨mulU_err h, by rw [Nat.mul_comm]; omega⟩

/-- One step of `buffer_size`. -/
theorem bufferSizeLoop_cons (f : PixelFormat) (w h i : Nat) (d : PlaneDesc) (ds : List PlaneDesc) (size : Nat)
    (hd : f.planeDesc[i]? = some d) (hh : 0 < h) :
    PixelFormat.bufferSizeLoop w h (d :: ds) size =
      if size + rowBytes f i w * rowCount f i h < usizeSize then
        PixelFormat.bufferSizeLoop w h ds (size + rowBytes f i w * rowCount f i h)
      else .error (.panic .overflow) := by
  have hok := planeDesc_ok f i d hd
  have key : ∃ a c : Nat, 0 < c ∧ d.bytesPerPrimitive = c ∧ rowBytes f i w = a * c ∧
      (d.widthOp.op w = .ok a ∨
        (d.widthOp.op w = .error (.panic .overflow) ∧ usizeSize ≤ a ∧ 0 < rowCount f i h)) := by
    have hi := hok.idx
    clear hok
    cases f <;> simp only [planeCount] at hi <;>
      first
      | (obtain rfl | rfl | rfl : i = 0 ∨ i = 1 ∨ i = 2 := by omega) <;> cases hd <;>
        first
        | exact ⟨w, _, by decide, rfl, by simp [rowBytes, Nat.mul_comm], .inl rfl⟩
        | exact ⟨w / 2, _, by decide, rfl, by simp [rowBytes, Nat.mul_comm], .inl rfl⟩
      | (obtain rfl | rfl : i = 0 ∨ i = 1 := by omega) <;> cases hd <;>
        exact ⟨w, _, by decide, rfl, by simp [rowBytes, Nat.mul_comm], .inl rfl⟩
      | (obtain rfl : i = 0 := by omega) <;> cases hd <;>
        (refine ⟨rowBytes _ 0 w, 1, by decide, rfl, (Nat.mul_one _).symm, ?_⟩
         simp only [Op.op, rowBytes]
         rcases mulU_cases w _ with h2 | ⟨h2, h3⟩
         · exact .inl h2
         · exact .inr ⟨h2, h3, by simpa [rowCount] using hh⟩)
  obtain ⟨a, c, hc, h1, h2, h3⟩ := key
  rw [PixelFormat.bufferSizeLoop, hok.rows]
  rcases h3 with h3 | ⟨h3, h4, h5⟩
  · rw [h3]
    have m3 := mul3 a (rowCount f i h) c size hc
    rw [h2, show a * c * rowCount f i h = a * rowCount f i h * c by
      rw [Nat.mul_assoc, Nat.mul_comm c, ← Nat.mul_assoc]]
    simp only [bind, Except.bind, h1] at m3 ⊢
    cases hm : mulU a (rowCount f i h) with
    | error e =>
      rw [hm] at m3
      simp only at m3 ⊢
      split at m3
      · cases m3
      · rw [if_neg (by assumption)]; exact m3
    | ok v =>
      rw [hm] at m3
      simp only at m3 ⊢
      cases hm2 : mulU v c with
      | error e =>
        rw [hm2] at m3
        simp only at m3 ⊢
        split at m3
        · cases m3
        · rw [if_neg (by assumption)]; exact m3
      | ok v2 =>
        rw [hm2] at m3
        simp only at m3 ⊢
        rw [m3]
        by_cases hs : size + a * rowCount f i h * c < usizeSize
        · simp only [if_pos hs]
        · simp only [if_neg hs]
  · rw [h3]
    simp only [bind, Except.bind]
    rw [if_neg]
    rw [h2]
    have : a ≤ a * c * rowCount f i h := by
      rw [Nat.mul_assoc]
      exact Nat.le_mul_of_pos_right _ (Nat.mul_pos hc h5)
    omega

theorem bufferSizeLoop_eq (f : PixelFormat) (w h : Nat) (hh : 0 < h) :
    ∀ (ds : List PlaneDesc) (i size : Nat), f.planeDesc.drop i = ds → size < usizeSize →
      PixelFormat.bufferSizeLoop w h ds size =
        if size + ((List.range ds.length).map fun k => rowBytes f (i + k) w * rowCount f (i + k) h).sum < usizeSize
        then .ok (size + ((List.range ds.length).map fun k => rowBytes f (i + k) w * rowCount f (i + k) h).sum)
        else .error (.panic .overflow)
  | [], i, size, _, hs => by
    simp only [PixelFormat.bufferSizeLoop, List.length_nil, List.range_zero, List.map_nil, List.sum_nil,
      Nat.add_zero, if_pos hs]
  | d :: ds, i, size, hd, hs => by
    have hdi : f.planeDesc[i]? = some d := by
      have := congrArg (·[0]?) hd
      simpa using this
    rw [bufferSizeLoop_cons f w h i d ds size hdi hh]
    have hsum : ((List.range (d :: ds).length).map fun k => rowBytes f (i + k) w * rowCount f (i + k) h).sum =
        rowBytes f i w * rowCount f i h +
          ((List.range ds.length).map fun k => rowBytes f (i + 1 + k) w * rowCount f (i + 1 + k) h).sum := by
      rw [List.length_cons, List.range_succ_eq_map]
      simp only [List.map_cons, List.sum_cons, List.map_map, Nat.add_zero]
      congr 2
      apply List.map_congr_left
      intro k _
      simp [show i + (k + 1) = i + 1 + k by omega]
    rw [hsum]
    by_cases h1 : size + rowBytes f i w * rowCount f i h < usizeSize
    · rw [if_pos h1, bufferSizeLoop_eq f w h hh ds (i + 1) _ (by
        rw [← List.drop_drop, hd]; rfl) h1]
      simp only [Nat.add_assoc]
    · rw [if_neg h1, if_neg (by omega)]

theorem bufferSize_eq (f : PixelFormat) (w h : Nat) (hh : 0 < h) :
    f.bufferSize w h =
      if packedSize f w h < usizeSize then .ok (packedSize f w h) else .error (.panic .overflow) := by
  rw [PixelFormat.bufferSize, bufferSizeLoop_eq f w h hh _ 0 0 (by simp) (by decide)]
  simp only [planeDesc_length, Nat.zero_add, packedSize]
  rfl

/-- With height 0 nothing is stored. -/
theorem bufferSize_zero_height (f : PixelFormat) (w : Nat) :
    f.bufferSize w 0 = .ok 0 ∨ f.bufferSize w 0 = .error (.panic .overflow) := by
  by_cases h2 : w * 2 < 18446744073709551616 <;> by_cases h3 : w * 3 < 18446744073709551616 <;>
  by_cases h4 : w * 4 < 18446744073709551616 <;>
  cases f <;> simp [PixelFormat.bufferSize, PixelFormat.planeDesc, I420_PLANES, I422_PLANES, I444_PLANES,
    I01X_PLANES, I21X_PLANES, I41X_PLANES, NV12_PLANES, YUYV_PLANES, RGBA_PLANES, RGB_PLANES,
    PixelFormat.bufferSizeLoop, Op.op, mulU, divU, addU, bind, Except.bind, h2, h3, h4]

/-- Each packed row fits in `usize` when the whole image does. -/
theorem rowBytes_le_packedSize (f : PixelFormat) (w h i : Nat) (hh : 0 < h) (hi : i < planeCount f) :
    rowBytes f i w ≤ packedSize f w h := by
  have hw : rowBytes f i w ≤ rowBytes f 0 w := by
    cases f <;> simp [rowBytes] <;> split <;> omega
  have h0 : rowBytes f 0 w ≤ rowBytes f 0 w * rowCount f 0 h := by
    apply Nat.le_mul_of_pos_right
    cases f <;> simpa [rowCount] using hh
  have : rowBytes f 0 w * rowCount f 0 h ≤ packedSize f w h := by
    cases f <;> simp [packedSize, planeCount, List.range_succ] <;> omega
  omega

theorem planeSizes_eq_mapIdx (f : PixelFormat) (h : Nat) (ss : List Nat) :
    planeSizes f h 0 ss = ss.mapIdx fun i s => s * rowCount f i h := by
  apply List.ext_getElem?
  intro k
  simp [planeSizes_getElem?, List.getElem?_mapIdx]

theorem planeSizes_spec (f : PixelFormat) (w h : Nat) :
    planeSizes f h 0 (specStrides f w) =
      (List.range (planeCount f)).map fun i => rowBytes f i w * rowCount f i h := by
  apply List.ext_getElem?
  intro k
  rw [planeSizes_getElem?, specStrides]
  simp only [List.getElem?_map, Option.map_map, Nat.zero_add]
  by_cases hk : k < planeCount f
  · simp [List.getElem?_range hk]
  · simp [List.getElem?_eq_none (by simpa using hk : (List.range (planeCount f)).length ≤ k)]

end Ezk

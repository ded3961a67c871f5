import Verif.Proofs.BufferSize

namespace Ezk
open Spec

/-- The planes of a whole-buffer image of a single-plane format. -/
theorem Image.planes_single (img : Image) (buf : Slice) (hb : img.buffer = .whole buf)
    (hf : planeCount img.format = 1) :
    img.planes = .ok (([buf].zip img.strides).map fun p => ⟨p.1, p.2⟩) := by
  simp only [Image.planes, hb, infer_single _ hf, bind, Except.bind, pure, Except.pure]

theorem Image.planes_multi (img : Image) (buf : Slice) (hb : img.buffer = .whole buf)
    (hf : planeCount img.format ≠ 1) (hl : img.strides.length = planeCount img.format)
    (hn : ∀ n ∈ planeSizes img.format img.height 0 img.strides, n < usizeSize)
    (hs : (planeSizes img.format img.height 0 img.strides).sum ≤ buf.len) :
    img.planes = .ok (((carve buf.addr (planeSizes img.format img.height 0 img.strides)).zip img.strides).map
      fun p => ⟨p.1, p.2⟩) := by
  simp only [Image.planes, hb, infer_multi _ hf, inferImpl_some _ _ _ _ _ hl]
  rw [inferLoop_ok img.format img.height _ _ 0 _ (by rw [planeDesc_length, hl]) (planeDesc_ok0 _) hn hs]
  rfl

theorem Image.planes_multi_panic (img : Image) (buf : Slice) (hb : img.buffer = .whole buf)
    (hf : planeCount img.format ≠ 1)
    (h : ¬ (img.strides.length = planeCount img.format ∧
      (∀ n ∈ planeSizes img.format img.height 0 img.strides, n < usizeSize) ∧
      (planeSizes img.format img.height 0 img.strides).sum ≤ buf.len)) :
    ∃ k, img.planes = .error (.panic k) := by
  simp only [Image.planes, hb, infer_multi _ hf]
  by_cases hl : img.strides.length = planeCount img.format
  · rw [inferImpl_some _ _ _ _ _ hl]
    rcases inferLoop_panic img.format img.height img.format.planeDesc img.strides 0 buf
      (by rw [planeDesc_length, hl]) (planeDesc_ok0 _) (fun hc => h ⟨hl, hc.1, hc.2⟩) with h1 | h1
    · exact ⟨_, by rw [h1]; rfl⟩
    · exact ⟨_, by rw [h1]; rfl⟩
  · rw [inferImpl_some_bad _ _ _ _ _ hl]
    exact ⟨_, rfl⟩

/-- `packed` whole-buffer image. -/
def packedImage (f : PixelFormat) (buf : Slice) (w h : Nat) (c : ColorInfo) : Image :=
  ⟨f, .whole buf, specStrides f w, w, h, c⟩

theorem specStrides_length (f : PixelFormat) (w : Nat) : (specStrides f w).length = planeCount f := by
  simp [specStrides]

theorem specStrides_getElem? (f : PixelFormat) (w k : Nat) (hk : k < planeCount f) :
    (specStrides f w)[k]? = some (rowBytes f k w) := by
  simp [specStrides, List.getElem?_range hk]

theorem sum_mem_le : ∀ (l : List Nat) (n : Nat), n ∈ l → n ≤ l.sum
  | [], n, h => by cases h
  | a :: l, n, h => by
    rcases List.mem_cons.1 h with rfl | h
    · simp
    · have := sum_mem_le l n h; simp; omega

/-- A packed image is valid iff its buffer is long enough. -/
theorem packedImage_boundsCheck (f : PixelFormat) (buf : Slice) (w h : Nat) (c : ColorInfo)
    (hr : ∀ k < planeCount f, rowBytes f k w < usizeSize) (hsz : packedSize f w h < usizeSize) :
    (Img.image (packedImage f buf w h c)).boundsCheck = .ok (.ok ()) ↔ packedSize f w h ≤ buf.len := by
  have hps : (planeSizes f h 0 (specStrides f w)).sum = packedSize f w h := by
    rw [planeSizes_spec]; rfl
  by_cases hf : planeCount f = 1
  · have hp : (Img.image (packedImage f buf w h c)).planes = _ := Image.planes_single (packedImage f buf w h c) buf rfl hf
    simp only [Img.boundsCheck, hp, bind, Except.bind]
    simp only [Img.format, Img.width, Img.height, packedImage]
    rw [boundsCheck_ok]
    have hss : specStrides f w = [rowBytes f 0 w] := by simp [specStrides, hf]
    have hpk : packedSize f w h = rowBytes f 0 w * rowCount f 0 h := by simp [packedSize, hf]
    rw [hss, hf]
    simp only [List.zip_cons_cons, List.zip_nil_right, List.map_cons, List.map_nil, List.length_singleton,
      Nat.le_refl, true_and]
    constructor
    · intro H
      have := (H 0 (by omega) _ List.getElem?_cons_zero).size_le
      simpa [hpk] using this
    · intro H i hi p hpi
      obtain rfl : i = 0 := by omega
      simp only [List.getElem?_cons_zero, Option.some.injEq] at hpi
      subst hpi
      exact ⟨hr 0 (by omega), Nat.le_refl _, by simpa [← hpk] using hsz, by simpa [← hpk] using H⟩
  · by_cases hle : packedSize f w h ≤ buf.len
    · have hp : (Img.image (packedImage f buf w h c)).planes = _ :=
        Image.planes_multi (packedImage f buf w h c) buf rfl hf (specStrides_length f w)
          (fun n hn => by
            have := sum_mem_le _ _ hn
            simp only [packedImage, hps] at this
            omega) (by simp only [packedImage, hps]; exact hle)
      simp only [Img.boundsCheck, hp, bind, Except.bind]
      simp only [Img.format, Img.width, Img.height, packedImage]
      rw [boundsCheck_ok]
      simp only [hle, iff_true]
      refine ⟨by simp [carve_length, planeSizes_length, specStrides_length], ?_⟩
      intro i hi p hpi
      simp only [List.getElem?_map, List.getElem?_zip_eq_some, Option.map_eq_some_iff, Prod.exists,
        carve_getElem?, planeSizes_getElem?, specStrides_getElem? f w i hi] at hpi
      obtain ⟨a, b, ⟨⟨n, ⟨s, hs, hn⟩, ha⟩, hb⟩, rfl⟩ := hpi
      simp only [Nat.zero_add, Option.map_some, Option.some.injEq] at hs hn ha hb
      subst hs hn hb ha
      have hmem : rowBytes f i w * rowCount f i h ∈ planeSizes f h 0 (specStrides f w) := by
        rw [planeSizes_spec, List.mem_map]
        exact ⟨i, by simpa using hi, rfl⟩
      have hlt := sum_mem_le _ _ hmem
      rw [hps] at hlt
      refine ⟨hr i hi, Nat.le_refl _, Nat.lt_of_le_of_lt hlt hsz, Nat.le_refl _⟩
    · simp only [hle, iff_false]
      obtain ⟨k, hk⟩ := Image.planes_multi_panic (packedImage f buf w h c) buf rfl hf (by
        rintro ⟨-, -, h3⟩
        simp only [packedImage, hps] at h3
        exact hle h3)
      have hk' : (Img.image (packedImage f buf w h c)).planes = _ := hk
      simp [Img.boundsCheck, hk', bind, Except.bind]

/-- Result of `Image::new` in terms of the bounds check, for given strides. -/
def newResult (img : Image) : Exec (Except BoundsCheckError Unit) → Exec (Except ImageError Image)
  | .error e => .error e
  | .ok (.error e) => .ok (.error (.boundsCheck e))
  | .ok (.ok ()) => .ok (.ok img)

theorem newResult_ok {img img' : Image} {r} (h : newResult img r = .ok (.ok img')) : r = .ok (.ok ()) ∧ img' = img := by
  rcases r with _ | _ | _ <;> simp_all [newResult]

theorem new_some (f : PixelFormat) (buf : Buffer) (ss : List Nat) (w h : Nat) (c : ColorInfo)
    (hw : 0 < w) (hh : 0 < h) :
    Image.new f buf (some ss) w h c =
      newResult ⟨f, buf, ss, w, h, c⟩ (Img.image ⟨f, buf, ss, w, h, c⟩).boundsCheck := by
  simp only [Image.new, show ¬ (w = 0 ∨ h = 0) by omega, if_false, bind, Except.bind]
  generalize (Img.image ⟨f, buf, ss, w, h, c⟩).boundsCheck = r
  rcases r with _ | _ | _ <;> rfl

theorem new_none (f : PixelFormat) (buf : Buffer) (w h : Nat) (c : ColorInfo)
    (hw : 0 < w) (hh : 0 < h) :
    Image.new f buf none w h c =
      if ∀ k < planeCount f, rowBytes f k w < usizeSize then Image.new f buf (some (specStrides f w)) w h c
      else .error (.panic .overflow) := by
  rw [new_some f buf _ w h c hw hh]
  simp only [Image.new, show ¬ (w = 0 ∨ h = 0) by omega, if_false, bind, Except.bind]
  rw [packedStrides_eq]
  by_cases hr : ∀ k < planeCount f, rowBytes f k w < usizeSize
  · rw [if_pos hr, if_pos hr]
    simp only
    generalize (Img.image ⟨f, buf, specStrides f w, w, h, c⟩).boundsCheck = r
    rcases r with _ | _ | _ <;> rfl
  · rw [if_neg hr, if_neg hr]

/-- What a successful constructor returns. -/
theorem new_eq_ok {f : PixelFormat} {buf : Buffer} {ss : Option (List Nat)} {w h : Nat} {c : ColorInfo} {img : Image}
    (hok : Image.new f buf ss w h c = .ok (.ok img)) :
    0 < w ∧ 0 < h ∧ (Img.image img).boundsCheck = .ok (.ok ()) ∧
      img = ⟨f, buf, ss.getD (specStrides f w), w, h, c⟩ := by
  by_cases h0 : w = 0 ∨ h = 0
  · simp [Image.new, h0, pure, Except.pure] at hok
  · have hw : 0 < w := by omega
    have hh : 0 < h := by omega
    cases ss with
    | some s =>
      rw [new_some _ _ _ _ _ _ hw hh] at hok
      obtain ⟨h1, rfl⟩ := newResult_ok hok
      exact ⟨hw, hh, h1, rfl⟩
    | none =>
      rw [new_none _ _ _ _ _ hw hh] at hok
      split at hok
      · rw [new_some _ _ _ _ _ _ hw hh] at hok
        obtain ⟨h1, rfl⟩ := newResult_ok hok
        exact ⟨hw, hh, h1, rfl⟩
      · cases hok

end Ezk

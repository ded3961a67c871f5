import Verif.Proofs.Image

/-!
# C03–C06: buffer sizes, plane inference and constructors
-/

namespace Ezk.Props
open Spec

/-! ## C03 -/

/-- **C03.** `buffer_size` is the size of a packed image, or panics if that does not fit in `usize`. -/
theorem C03_buffer_size (f : PixelFormat) (w h : Nat) (hh : 0 < h) :
    f.bufferSize w h =
      if packedSize f w h < 2 ^ 64 then .ok (packedSize f w h) else .error (.panic .overflow) :=
  bufferSize_eq f w h hh

/-- **C03**, height 0: nothing is stored and the size is 0; the intermediate `width * k` of a single-plane format
may still overflow. -/
theorem C03_buffer_size_zero_height (f : PixelFormat) (w : Nat) :
    f.bufferSize w 0 = .ok 0 ∨ f.bufferSize w 0 = .error (.panic .overflow) :=
  bufferSize_zero_height f w

/-- **C03.** A buffer is accepted by `from_buffer` with default strides exactly if it has at least the
`buffer_size(w, h)` bytes. -/
theorem C03_from_buffer_accepts (f : PixelFormat) (buf : Slice) (w h n : Nat) (c : ColorInfo)
    (hw : 0 < w) (hh : 0 < h) (hn : f.bufferSize w h = .ok n) :
    (∃ img, Image.fromBuffer f buf none w h c = .ok (.ok img)) ↔ n ≤ buf.len := by
  rw [bufferSize_eq f w h hh] at hn
  split at hn
  · rename_i hlt
    simp only [Except.ok.injEq] at hn
    subst hn
    have hr : ∀ k < planeCount f, rowBytes f k w < usizeSize := fun k hk =>
      Nat.lt_of_le_of_lt (rowBytes_le_packedSize f w h k hh hk) hlt
    rw [← packedImage_boundsCheck f buf w h c hr hlt, Image.fromBuffer, new_none _ _ _ _ _ hw hh, if_pos hr,
      new_some _ _ _ _ _ _ hw hh]
    constructor
    · rintro ⟨img, h1⟩
      exact (newResult_ok h1).1
    · intro h1
      exact ⟨packedImage f buf w h c, by
        show newResult (packedImage f buf w h c) (Img.image (packedImage f buf w h c)).boundsCheck = _
        rw [h1]; rfl⟩
  · cases hn

/-- **C03.** In particular exactly `buffer_size` bytes are enough … -/
theorem C03_exact_size_accepted (f : PixelFormat) (addr w h n : Nat) (c : ColorInfo)
    (hw : 0 < w) (hh : 0 < h) (hn : f.bufferSize w h = .ok n) :
    ∃ img, Image.fromBuffer f ⟨addr, n⟩ none w h c = .ok (.ok img) :=
  (C03_from_buffer_accepts f ⟨addr, n⟩ w h n c hw hh hn).2 (Nat.le_refl _)

/-- … and with one byte less the image is rejected, by an error or a panic. -/
theorem C03_one_byte_less_rejected (f : PixelFormat) (addr w h n : Nat) (c : ColorInfo)
    (hw : 0 < w) (hh : 0 < h) (hn : f.bufferSize w h = .ok (n + 1)) :
    ¬ ∃ img, Image.fromBuffer f ⟨addr, n⟩ none w h c = .ok (.ok img) := by
  rw [C03_from_buffer_accepts f ⟨addr, n⟩ w h (n + 1) c hw hh hn]
  simp

/-- The rejection is not always an `Err`: for a multi-plane format `from_buffer` panics (`split_at` past the end
inside `infer`) instead of returning the `BoundsCheckError` its signature promises. -/
theorem C03_short_buffer_panics :
    ∃ (f : PixelFormat) (buf : Slice) (c : ColorInfo),
      Image.fromBuffer f buf none 4 2 c = .error (.panic .splitAt) :=
  ⟨.I420, ⟨0, 11⟩, .RGB ⟨.Linear, .BT709⟩, by decide⟩

/-- For the single-plane formats it is an `Err`. -/
example : Image.fromBuffer .RGBA ⟨0, 31⟩ none 4 2 (.RGB ⟨.Linear, .BT709⟩) =
    .ok (.error (.boundsCheck (.invalidPlaneSize 0 32 31))) := by decide

/-- Non-vacuity of C03: sizes of 6×4 images. -/
example : PixelFormat.bufferSize .I420 6 4 = .ok 36 ∧ PixelFormat.bufferSize .I210 6 4 = .ok 96 := by decide

/-! ## C04 -/

/-- **C04.** Whatever `Image::blank` returns passes `bounds_check`, has the requested format, size and colour, all its
bytes are zero and no other byte changed. -/
theorem C04_blank_valid (m m' : Mem) (addr : Nat) (f : PixelFormat) (w h : Nat) (c : ColorInfo) (img : Image)
    (hok : Image.blank m addr f w h c = .ok (img, m')) :
    (Img.image img).boundsCheck = .ok (.ok ()) ∧
      img.format = f ∧ img.width = w ∧ img.height = h ∧ img.color = c ∧
      ∃ n, img.buffer = .whole ⟨addr, n⟩ ∧ f.bufferSize w h = .ok n ∧
        (∀ a, addr ≤ a → a < addr + n → m' a = 0) ∧ (∀ a, ¬ (addr ≤ a ∧ a < addr + n) → m' a = m a) := by
  unfold Image.blank at hok
  cases hb : f.bufferSize w h with
  | error e => simp [hb, bind, Except.bind] at hok
  | ok n =>
    by_cases hcap : n ≤ isizeMax
    · rw [packedStrides_eq] at hok
      by_cases hr : ∀ k < planeCount f, rowBytes f k w < usizeSize
      · simp only [hb, Image.vecZeroed, hcap, if_true, if_pos hr, bind, Except.bind, pure, Except.pure,
          Except.ok.injEq, Prod.mk.injEq] at hok
        obtain ⟨rfl, rfl⟩ := hok
        have hn : packedSize f w h = n := by
          by_cases hh : 0 < h
          · rw [bufferSize_eq f w h hh] at hb
            split at hb
            · simpa using hb
            · cases hb
          · obtain rfl : h = 0 := by omega
            have h0 : packedSize f w 0 = 0 := by
              cases f <;> simp [packedSize, planeCount, rowCount, List.range_succ]
            rcases bufferSize_zero_height f w with h1 | h1 <;> rw [h1] at hb
            · rw [h0]; simpa using hb
            · cases hb
        have hlt : packedSize f w h < usizeSize := by rw [hn]; simp [isizeMax, usizeSize] at hcap ⊢; omega
        refine ⟨?_, rfl, rfl, rfl, rfl, n, rfl, rfl, ?_, ?_⟩
        · exact (packedImage_boundsCheck f ⟨addr, n⟩ w h c hr hlt).2 (by rw [hn]; exact Nat.le_refl _)
        · intro a h1 h2
          simp [Mem.store, h1, h2]
        · intro a h1
          simp only [Mem.store, dif_neg h1]
      · simp [hb, Image.vecZeroed, hcap, if_neg hr, bind, Except.bind] at hok
    · simp [hb, Image.vecZeroed, hcap, bind, Except.bind] at hok

/-- **C04.** `Image::blank` does not panic when the image fits in an allocation. -/
theorem C04_blank_total (m : Mem) (addr : Nat) (f : PixelFormat) (w h : Nat) (c : ColorInfo)
    (hh : 0 < h) (hs : packedSize f w h ≤ 2 ^ 63 - 1) :
    ∃ img m', Image.blank m addr f w h c = .ok (img, m') := by
  have hlt : packedSize f w h < usizeSize := by simp [usizeSize]; omega
  have hr : ∀ k < planeCount f, rowBytes f k w < usizeSize := fun k hk =>
    Nat.lt_of_le_of_lt (rowBytes_le_packedSize f w h k hh hk) hlt
  refine ⟨⟨f, .whole ⟨addr, packedSize f w h⟩, specStrides f w, w, h, c⟩,
    m.store addr (packedSize f w h) fun _ => 0, ?_⟩
  simp only [Image.blank, bufferSize_eq f w h hh, if_pos hlt, Image.vecZeroed, isizeMax, if_pos hs,
      packedStrides_eq, if_pos hr, bind, Except.bind, pure, Except.pure]

/-- Non-vacuity of C04. -/
example : packedSize .I412 1920 1080 ≤ 2 ^ 63 - 1 := by decide

/-! ## C05 -/

/-- **C05.** For a multi-plane format and given strides, `infer` succeeds exactly when the number of strides is right,
no plane size overflows and the buffer holds all planes; plane `i` then starts right after planes `0..i` and has
exactly `stride * rows` bytes. -/
theorem C05_infer_ok (f : PixelFormat) (hf : planeCount f ≠ 1) (buf : Slice) (w h : Nat) (ss : List Nat)
    (out : List Slice) :
    infer f buf w h (some ss) = .ok out ↔
      ss.length = planeCount f ∧ (∀ n ∈ stridedSizes f h ss, n < 2 ^ 64) ∧ (stridedSizes f h ss).sum ≤ buf.len ∧
      out.length = planeCount f ∧
      ∀ i < planeCount f, out[i]? =
        (stridedSizes f h ss)[i]?.map fun n => ⟨buf.addr + ((stridedSizes f h ss).take i).sum, n⟩ := by
  have hss : stridedSizes f h ss = planeSizes f h 0 ss := (planeSizes_eq_mapIdx f h ss).symm
  rw [infer_multi f hf, hss]
  by_cases hl : ss.length = planeCount f
  · rw [inferImpl_some _ _ _ _ _ hl]
    by_cases hc : (∀ n ∈ planeSizes f h 0 ss, n < usizeSize) ∧ (planeSizes f h 0 ss).sum ≤ buf.len
    · rw [inferLoop_ok f h _ _ 0 _ (by rw [planeDesc_length, hl]) (planeDesc_ok0 _) hc.1 hc.2]
      constructor
      · intro h1
        simp only [Except.ok.injEq] at h1
        subst h1
        refine ⟨hl, hc.1, hc.2, by rw [carve_length, planeSizes_length, hl], fun i _ => ?_⟩
        rw [carve_getElem?]
      · rintro ⟨-, -, -, h4, h5⟩
        congr 1
        apply List.ext_getElem?
        intro i
        by_cases hi : i < planeCount f
        · rw [h5 i hi, carve_getElem?]
        · rw [List.getElem?_eq_none (by rw [carve_length, planeSizes_length, hl]; omega),
            List.getElem?_eq_none (by omega)]
    · rcases inferLoop_panic f h f.planeDesc ss 0 buf (by rw [planeDesc_length, hl]) (planeDesc_ok0 _) hc
        with h1 | h1 <;> rw [h1] <;> constructor <;> intro h2
      · cases h2
      · exact absurd ⟨h2.2.1, h2.2.2.1⟩ hc
      · cases h2
      · exact absurd ⟨h2.2.1, h2.2.2.1⟩ hc
  · rw [inferImpl_some_bad _ _ _ _ _ hl]
    constructor
    · intro h1; cases h1
    · intro h1; exact absurd h1.1 hl

/-- **C05.** Otherwise `infer` panics; it has no undefined behaviour. -/
theorem C05_infer_panic (f : PixelFormat) (buf : Slice) (w h : Nat) (ss : Option (List Nat)) (flt : Fault)
    (he : infer f buf w h ss = .error flt) : ∃ k, flt = .panic k := by
  by_cases hf : planeCount f = 1
  · rw [infer_single f hf] at he; cases he
  · have aux : ∀ ss : List Nat, ss.length = planeCount f → inferLoop h (f.planeDesc.zip ss) buf = .error flt →
        ∃ k, flt = .panic k := by
      intro ss hl he
      by_cases hc : (∀ n ∈ planeSizes f h 0 ss, n < usizeSize) ∧ (planeSizes f h 0 ss).sum ≤ buf.len
      · rw [inferLoop_ok f h _ _ 0 _ (by rw [planeDesc_length, hl]) (planeDesc_ok0 _) hc.1 hc.2] at he
        cases he
      · rcases inferLoop_panic f h f.planeDesc ss 0 buf (by rw [planeDesc_length, hl]) (planeDesc_ok0 _) hc
          with h1 | h1 <;> rw [h1] at he <;> cases he <;> exact ⟨_, rfl⟩
    rw [infer_multi f hf] at he
    cases ss with
    | some ss =>
      by_cases hl : ss.length = planeCount f
      · rw [inferImpl_some _ _ _ _ _ hl] at he
        exact aux ss hl he
      · rw [inferImpl_some_bad _ _ _ _ _ hl] at he
        cases he; exact ⟨_, rfl⟩
    | none =>
      rw [inferImpl_none] at he
      split at he
      · exact aux _ (specStrides_length f w) he
      · cases he; exact ⟨_, rfl⟩

/-- **C05.** The planes are inside the buffer and pairwise disjoint. -/
theorem C05_infer_disjoint (f : PixelFormat) (hf : planeCount f ≠ 1) (buf : Slice) (w h : Nat) (ss : List Nat)
    (out : List Slice) (hok : infer f buf w h (some ss) = .ok out) :
    (∀ s ∈ out, ∀ a, s.Has a → buf.Has a) ∧
    ∀ (i j : Nat) (s t : Slice), i < j → out[i]? = some s → out[j]? = some t → ∀ a : Nat, s.Has a → ¬ t.Has a := by
  obtain ⟨hl, -, hsum, hlen, hget⟩ := (C05_infer_ok f hf buf w h ss out).1 hok
  generalize hz : stridedSizes f h ss = z at *
  have hzl : z.length = planeCount f := by rw [← hz]; simp [stridedSizes, hl]
  have take_succ : ∀ i n, z[i]? = some n → (z.take (i + 1)).sum = (z.take i).sum + n := by
    intro i n hi
    rw [List.take_add_one, hi]
    simp
  have take_le : ∀ i j, i ≤ j → (z.take i).sum ≤ (z.take j).sum := by
    intro i j hij
    have : z.take j = z.take i ++ (z.take j).drop i := by
      have := (List.take_append_drop i (z.take j)).symm
      rwa [List.take_take, Nat.min_eq_left hij] at this
    rw [this]; simp
  have take_all : ∀ i, (z.take i).sum ≤ z.sum := by
    intro i
    have := take_le i (max i z.length) (Nat.le_max_left _ _)
    rwa [List.take_of_length_le (Nat.le_max_right _ _)] at this
  have loc : ∀ (i : Nat) (s : Slice), out[i]? = some s → ∃ n, z[i]? = some n ∧ s = ⟨buf.addr + (z.take i).sum, n⟩ := by
    intro i s hs
    have hi : i < planeCount f := by
      have := List.getElem?_eq_some_iff.1 hs
      obtain ⟨h1, -⟩ := this
      omega
    rw [hget i hi, Option.map_eq_some_iff] at hs
    obtain ⟨n, h1, h2⟩ := hs
    exact ⟨n, h1, h2.symm⟩
  constructor
  · intro s hs a ha
    obtain ⟨i, hi⟩ := List.mem_iff_getElem?.1 hs
    obtain ⟨n, h1, rfl⟩ := loc i s hi
    have h2 := take_succ i n h1
    have h3 := take_all (i + 1)
    simp only [Slice.Has] at ha ⊢
    omega
  · intro i j s t hij hs ht a ha hb
    obtain ⟨n, h1, rfl⟩ := loc i s hs
    obtain ⟨n', h1', rfl⟩ := loc j t ht
    have h2 := take_succ i n h1
    have h3 := take_le (i + 1) j hij
    simp only [Slice.Has] at ha hb
    omega

/-- **C05.** Default strides are the packed ones (a panic if one overflows). -/
theorem C05_infer_default (f : PixelFormat) (hf : planeCount f ≠ 1) (buf : Slice) (w h : Nat)
    (hr : ∀ k < planeCount f, rowBytes f k w < 2 ^ 64) :
    infer f buf w h none = infer f buf w h (some ((List.range (planeCount f)).map fun k => rowBytes f k w)) := by
  rw [infer_multi f hf, infer_multi f hf, inferImpl_none, if_pos hr,
    inferImpl_some _ _ _ _ _ (by simp)]
  rfl

/-- **C05.** A single-plane format's plane is the whole buffer, whatever the strides are. -/
theorem C05_infer_single (f : PixelFormat) (hf : planeCount f = 1) (buf : Slice) (w h : Nat)
    (ss : Option (List Nat)) : infer f buf w h ss = .ok [buf] := infer_single f hf buf w h ss

/-- Non-vacuity of C05: three padded planes cut from one buffer. -/
example : infer .I420 ⟨100, 50⟩ 4 4 (some [8, 3, 4]) = .ok [⟨100, 32⟩, ⟨132, 6⟩, ⟨138, 8⟩] := by decide
example : infer .I420 ⟨100, 45⟩ 4 4 (some [8, 3, 4]) = .error (.panic .splitAt) := by decide

/-! ## C06, constructors -/

/-- **C06.** If a constructor returns `Ok`, the image has non-zero dimensions, the requested attributes, and passes
`bounds_check`. -/
theorem C06_constructed_valid (f : PixelFormat) (buf : Buffer) (ss : Option (List Nat)) (w h : Nat) (c : ColorInfo)
    (img : Image) (hok : Image.new f buf ss w h c = .ok (.ok img)) :
    0 < img.width ∧ 0 < img.height ∧ (Img.image img).boundsCheck = .ok (.ok ()) ∧
      img.format = f ∧ img.width = w ∧ img.height = h ∧ img.color = c ∧ img.buffer = buf := by
  obtain ⟨h1, h2, h3, rfl⟩ := new_eq_ok hok
  exact ⟨h1, h2, h3, rfl, rfl, rfl, rfl, rfl⟩

/-- **C06.** Zero dimensions are rejected before anything else is looked at (no panic, whatever the other arguments). -/
theorem C06_zero_dimensions (f : PixelFormat) (buf : Buffer) (ss : Option (List Nat)) (w h : Nat) (c : ColorInfo)
    (h0 : w = 0 ∨ h = 0) : Image.new f buf ss w h c = .ok (.error .invalidDimensions) := by
  simp [Image.new, h0, pure, Except.pure]

/-- **C06.** `from_planes` never panics unless a size overflows, and then accepts exactly the images passing
`bounds_check` of the given planes. -/
theorem C06_from_planes (f : PixelFormat) (planes : List Slice) (ss : List Nat) (w h : Nat) (c : ColorInfo)
    (hw : 0 < w) (hh : 0 < h) :
    (∃ img, Image.fromPlanes f planes (some ss) w h c = .ok (.ok img)) ↔
      planeCount f ≤ min planes.length ss.length ∧
      ∀ i < planeCount f, ∀ s st, planes[i]? = some s → ss[i]? = some st → PlaneFits f w h i ⟨s, st⟩ := by
  rw [Image.fromPlanes, new_some _ _ _ _ _ _ hw hh]
  have key : (Img.image ⟨f, .split planes, ss, w, h, c⟩).boundsCheck = .ok (.ok ()) ↔
      planeCount f ≤ min planes.length ss.length ∧
      ∀ i < planeCount f, ∀ s st, planes[i]? = some s → ss[i]? = some st → PlaneFits f w h i ⟨s, st⟩ := by
    show f.boundsCheck ((planes.zip ss).map fun p => ⟨p.1, p.2⟩) w h = _ ↔ _
    rw [boundsCheck_ok]
    simp only [List.length_map, List.length_zip]
    refine and_congr_right fun _ => forall₂_congr fun i _ => ?_
    constructor
    · intro H s st h1 h2
      apply H
      simp only [List.getElem?_map, List.getElem?_zip_eq_some, Option.map_eq_some_iff, Prod.exists]
      exact ⟨s, st, ⟨h1, h2⟩, rfl⟩
    · intro H p hp
      simp only [List.getElem?_map, List.getElem?_zip_eq_some, Option.map_eq_some_iff, Prod.exists] at hp
      obtain ⟨s, st, ⟨h1, h2⟩, rfl⟩ := hp
      exact H s st h1 h2
  rw [← key]
  constructor
  · rintro ⟨img, h1⟩; exact (newResult_ok h1).1
  · intro h1; exact ⟨_, by rw [h1]; rfl⟩

/-- Non-vacuity of C06. -/
example : ∃ img, Image.fromPlanes .NV12 [⟨0, 32⟩, ⟨40, 16⟩] (some [8, 8]) 6 4 (.RGB ⟨.Linear, .BT709⟩) = .ok (.ok img) :=
  ⟨_, rfl⟩
example : ∃ img, Image.fromBuffer .NV12 ⟨0, 48⟩ (some [8, 8]) 6 4 (.RGB ⟨.Linear, .BT709⟩) = .ok (.ok img) :=
  ⟨_, rfl⟩

end Ezk.Props

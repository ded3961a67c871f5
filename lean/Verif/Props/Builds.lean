import Verif.Proofs.NoWrapMore
import Verif.Props.Backends

/-!
# C69: debug and release builds do the same

A build with overflow checks and debug assertions differs from one without in two ways only.  An overflow of a plain `+` or `*` panics
there and wraps around here: `Fault.panic .wrap`.  And the `debug_assert!`s in `src/primitive.rs` are checked.
-/

namespace Ezk.Props
open Ezk Spec

variable {F : Type} [FOps F]

/-- **C69** (partial: images with slices of less than 2^62 bytes, or images with at least one row; see `C69_false`). In a conversion no
plain operator overflows, whatever the images and their memory. -/
theorem C69_convert_partial {c : Cpu F} (hc : c.vec.Lawful) {src dst : Img} (hs : Possible (2 ^ 63) src) (hd : Possible (2 ^ 63) dst)
    (h : 0 < src.height ∨ Possible (2 ^ 62) src ∧ Possible (2 ^ 62) dst) (m : Mem) :
    convert c src dst m ≠ .error (.panic .wrap) := by
  by_cases hv : verifyInputWindows src dst = .ok ()
  · obtain ⟨f1, f2, -⟩ := planes_noWrap_of hs hd h hv
    exact convert_noWrap hc f1 f2 m
  · rw [convert, convertJob]
    cases h : verifyInputWindows src dst with
    | ok u => exact absurd h hv
    | error e => nofun

/-- **C69** (partial: as above) for conversions on several threads, in every order of their steps. -/
theorem C69_multi_thread_partial {c : Cpu F} (hc : c.vec.Lawful) {threads : Nat} {src dst : Img} (hs : Possible (2 ^ 63) src)
    (hd : Possible (2 ^ 63) dst) (h : 0 < src.height ∨ Possible (2 ^ 62) src ∧ Possible (2 ^ 62) dst) {m : Mem}
    {r : Exec (Except ConvertError Unit × Mem)} (hr : MtRuns c threads src dst m r) : r ≠ .error (.panic .wrap) := by
  by_cases hv : verifyInputWindows src dst = .ok ()
  · obtain ⟨f1, f2, f3⟩ := planes_noWrap_of hs hd h hv
    exact mtRuns_noWrap hc f1 f2 f3 hr
  · exact mtRuns_unverified hv hr

/-- **C69** (partial: as above) for `copy`. -/
theorem C69_copy_partial {src dst : Img} (hs : Possible (2 ^ 63) src) (hd : Possible (2 ^ 63) dst)
    (h : 0 < src.height ∨ Possible (2 ^ 62) src ∧ Possible (2 ^ 62) dst) (m : Mem) :
    copyImpl src dst m ≠ .error (.panic .wrap) := by
  by_cases hv : verifyInputWindows src dst = .ok ()
  · obtain ⟨f1, f2, -⟩ := planes_noWrap_of hs hd h hv
    exact copyImpl_noWrap f1 f2 m
  · rw [copyImpl]
    cases h : verifyInputWindows src dst with
    | ok u => exact absurd h hv
    | error e => nofun

/-- **C69** (partial: images with slices of less than 2^62 bytes, or with a row in every plane) for `planes`, `bounds_check` and `crop`. -/
theorem C69_crop_partial {t : Img} (ht : Possible (2 ^ 63) t) (h : vsub t.format ≤ t.height ∨ Possible (2 ^ 62) t) :
    t.planes ≠ .error (.panic .wrap) ∧ t.boundsCheck ≠ .error (.panic .wrap) ∧
      ∀ win, t.crop win ≠ .error (.panic .wrap) := by
  have f : NoWrap t.planes := by
    rcases h with h | h
    · exact (Possible.facts ht (Nat.le_refl _) (.inl h)).1
    · exact (Possible.facts h (by decide) (.inr (Nat.le_refl _))).1
  exact ⟨f, Img.boundsCheck_noWrap f, fun win => Img.crop_noWrap f win⟩

/-- **C69** for the constructors, with no conditions. -/
theorem C69_new (f : PixelFormat) (b : Buffer) (ss : Option (List Nat)) (w h : Nat) (col : ColorInfo) (m : Mem) (addr : Nat) :
    Image.new f b ss w h col ≠ .error (.panic .wrap) ∧ Image.blank m addr f w h col ≠ .error (.panic .wrap) :=
  ⟨Image.new_noWrap f b ss w h col, Image.blank_noWrap m addr f w h col⟩

/-- **C69** (partial: images that pass `bounds_check`; of others `resize` does not check the size) for `resize`, in every order of the
steps of its threads. -/
theorem C69_resize_partial {c : Cpu F} {fir : Fir} {n : Nat} {src dst : Img} {m : Mem}
    (hs : src.boundsCheck = .ok (.ok ())) (hd : dst.boundsCheck = .ok (.ok ()))
    {r : Exec (Except DifferentFormats Unit × Nat × Mem)} (hr : ResizeRuns c fir n src dst m r) : r ≠ .error (.panic .wrap) :=
  resizeRuns_noWrap hs hd hr

/-- The `debug_assert!`s of `src/primitive.rs`, for `k` vectors of primitives of `size` bytes. -/
def Asserted (B : Backend F) (s : Slice) (size k : Nat) : Prop := B.LEN * size * k ≤ s.len

/-- **C69** for the debug assertions: on every platform, each of them fails exactly if the function it guards would read or write behind
the end of the slice, which in a release build is undefined behaviour. -/
theorem C69_debug_assert {B : Backend F} (hB : B.Lawful) (m : Mem) (s : Slice) :
    (B.loadU8 m s = .error .ub ↔ ¬ Asserted B s 1 1) ∧
    (B.loadU16 m s = .error .ub ↔ ¬ Asserted B s 2 1) ∧
    (B.loadU8x3 m s = .error .ub ↔ ¬ Asserted B s 1 (3 * 2)) ∧
    (B.loadU8x4 m s = .error .ub ↔ ¬ Asserted B s 1 (4 * 2)) ∧
    (∀ v, B.writeU8 v m s = .error .ub ↔ ¬ Asserted B s 1 1) ∧
    (∀ v w, B.writeU8_2x v w m s = .error .ub ↔ ¬ Asserted B s 1 2) ∧
    (∀ v, B.writeU16 v m s = .error .ub ↔ ¬ Asserted B s 2 1) ∧
    (∀ v w, B.writeU16_2x v w m s = .error .ub ↔ ¬ Asserted B s 2 2) ∧
    (∀ v, B.writeU8x3 v m s = .error .ub ↔ ¬ Asserted B s 1 (3 * 2)) ∧
    ∀ v, B.writeU8x4 v m s = .error .ub ↔ ¬ Asserted B s 1 (4 * 2) := by
  have key : ∀ {α : Type} (a : α) (n k : Nat), n = k → ((if n ≤ s.len then (.ok a : Exec α) else .error .ub) = .error .ub ↔ ¬ k ≤ s.len) := by
    rintro α a n _ rfl
    split
    · next h => exact ⟨nofun, fun h' => absurd h h'⟩
    · next h => exact ⟨fun _ => h, fun _ => rfl⟩
  refine ⟨?_, ?_, ?_, ?_, fun v => ?_, fun v w => ?_, fun v => ?_, fun v w => ?_, fun v => ?_, fun v => ?_⟩
  · rw [hB.loadU8]; exact key _ _ _ (by omega)
  · rw [hB.loadU16]; exact key _ _ _ (by omega)
  · rw [hB.loadU8x3]; exact key _ _ _ (by omega)
  · rw [hB.loadU8x4]; exact key _ _ _ (by omega)
  · rw [hB.writeU8]; exact key _ _ _ (by omega)
  · rw [hB.writeU8_2x]; exact key _ _ _ (by omega)
  · rw [hB.writeU16]; exact key _ _ _ (by omega)
  · rw [hB.writeU16_2x]; exact key _ _ _ (by omega)
  · rw [hB.writeU8x3]; exact key _ _ _ (by omega)
  · rw [hB.writeU8x4]; exact key _ _ _ (by omega)

/-! ## The exception -/

/-- One row of 16-bit 4:4:4, with a stride of 2^63 - 2 bytes: as many as a slice can have. -/
def longRow : Img :=
  .raw .I410 4 1 [⟨⟨0, 2 ^ 63 - 2⟩, 2 ^ 63 - 2⟩, ⟨⟨2 ^ 63, 8⟩, 8⟩, ⟨⟨2 ^ 63 + 8, 8⟩, 8⟩] (.YUV ⟨.SDR, .BT709, .BT709, false⟩)

/-- Nothing of it, behind its end. -/
def nothingOf : Window := ⟨2, 1, 2, 0⟩

/-- **C69** fails for crops without rows: `crop` accepts this one, but the planes cannot be computed without overflow.  A debug build
panics; a release build goes on with the wrong offset. -/
theorem C69_false : Possible (2 ^ 63) (.cropped longRow nothingOf) ∧
    (Img.cropped longRow nothingOf).planes = .error (.panic .wrap) ∧
    ∀ (c : Cpu F) (m : Mem), convert c (.cropped longRow nothingOf) (.cropped longRow nothingOf) m = .error (.panic .wrap) := by
  have hp : (Img.cropped longRow nothingOf).planes = .error (.panic .wrap) := by decide +kernel
  refine ⟨⟨⟨by decide, by decide, ?_⟩, ?_⟩, hp, fun c m => ?_⟩
  · intro p hp
    simp only [List.mem_cons, List.not_mem_nil, or_false] at hp
    rcases hp with rfl | rfl | rfl <;> decide
  · exact (crop_eq longRow nothingOf (by decide +kernel)).1 (by unfold WindowInside; decide)
  · exact convert_of_fault (by decide +kernel)

/-! ## Cases -/

/-- A crop out of a 10-bit image of 6x4 pixels. -/
def deepCrop : Img :=
  .cropped (.raw .I410 6 4 [⟨⟨0, 64⟩, 16⟩, ⟨⟨64, 64⟩, 16⟩, ⟨⟨128, 64⟩, 16⟩] (.YUV ⟨.SDR, .BT709, .BT709, false⟩)) ⟨2, 0, 4, 2⟩

theorem deepCrop_possible (n : Nat) (hn : 64 < n) : Possible n deepCrop := by
  refine ⟨⟨by decide, by decide, ?_⟩, (crop_eq _ _ (by decide +kernel)).1 (by unfold WindowInside; decide)⟩
  intro p hp
  simp only [List.mem_cons, List.not_mem_nil, or_false] at hp
  rcases hp with rfl | rfl | rfl <;> exact hn

/-- A crop of it to no rows at all. -/
theorem deepEmpty_possible (n : Nat) (hn : 64 < n) : Possible n (.cropped deepCrop ⟨4, 2, 0, 0⟩) :=
  ⟨deepCrop_possible n hn, (crop_eq _ _ (by decide +kernel)).1 (by unfold WindowInside; decide)⟩

def rgbSmall : Img := .raw .RGB 4 2 [⟨⟨200, 24⟩, 12⟩] (.RGB ⟨.SDR, .BT709⟩)

theorem rgbSmall_possible (n : Nat) (hn : 24 < n) : Possible n rgbSmall := by
  refine ⟨by decide, by decide, ?_⟩
  intro p hp
  rcases List.mem_singleton.1 hp with rfl
  exact hn

example (p : Platform) (simd : SimdArith F) (sar : Arith F) (m : Mem) :
    convert (p.cpu simd sar) deepCrop rgbSmall m ≠ .error (.panic .wrap) :=
  C69_convert_partial (platform_lawful p simd sar) (deepCrop_possible _ (by decide)) (rgbSmall_possible _ (by decide)) (.inl (by decide)) m

example (p : Platform) (simd : SimdArith F) (sar : Arith F) (m : Mem) {r : Exec (Except ConvertError Unit × Mem)}
    (hr : MtRuns (p.cpu simd sar) 7 deepCrop rgbSmall m r) : r ≠ .error (.panic .wrap) :=
  C69_multi_thread_partial (platform_lawful p simd sar) (deepCrop_possible _ (by decide)) (rgbSmall_possible _ (by decide))
    (.inl (by decide)) hr

example (m : Mem) : copyImpl (.cropped deepCrop ⟨4, 2, 0, 0⟩) (.cropped deepCrop ⟨4, 2, 0, 0⟩) m ≠ .error (.panic .wrap) :=
  C69_copy_partial (deepEmpty_possible _ (by decide)) (deepEmpty_possible _ (by decide))
    (.inr ⟨deepEmpty_possible _ (by decide), deepEmpty_possible _ (by decide)⟩) m

example (win : Window) : deepCrop.crop win ≠ .error (.panic .wrap) :=
  (C69_crop_partial (deepCrop_possible _ (by decide)) (.inl (by decide))).2.2 win

example (c : Cpu F) (fir : Fir) (m : Mem) {r : Exec (Except DifferentFormats Unit × Nat × Mem)}
    (hr : ResizeRuns c fir 0 deepCrop deepCrop m r) : r ≠ .error (.panic .wrap) :=
  C69_resize_partial (by decide +kernel) (by decide +kernel) hr

example (p : Platform) (simd : SimdArith F) (sar : Arith F) (m : Mem) (a : Nat) :
    (p.cpu simd sar).vec.loadU16 m ⟨a, 1⟩ = .error .ub :=
  ((C69_debug_assert (platform_lawful p simd sar) m ⟨a, 1⟩).2.1).2 (by
    have := (p.cpu simd sar).vec.pos
    unfold Asserted
    dsimp only
    omega)

end Ezk.Props

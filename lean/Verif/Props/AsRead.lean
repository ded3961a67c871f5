import Verif.Props.Lossless
import Verif.Props.Threads

/-!
# 4:4:4 sources whose planes have different strides

What such sources are read as (`Spec.asRead`), and that conversions of them are wrong.
-/

namespace Ezk.Props
open FOps Spec F32

variable {F : Type} [FOps F]

/-- **C14** (partial: not for 4:2:0 destinations with an ICtCp colour space). After a successful conversion the
destination shows the specified picture of `asRead`, whatever the strides. -/
theorem C14_as_read_partial {c : Cpu F} {src dst : Img} {sps dps : List Plane} {m m' : Mem}
    (r : Done c src dst sps dps m m') (hb : ¬ BadChroma src.format src.color dst.format dst.color) :
    Depicts dst.format dps dst.width dst.height m'
      (converted (columnArith c dst.width) src.format src.color dst.format dst.color (asRead src.format sps m)) :=
  r.depicts hb

/-- `asRead` is the picture the image shows unless its planes have different strides. -/
theorem C14_as_read_shown {f : PixelFormat} {ps : List Plane} (hn : planeCount f ≤ ps.length)
    (hu : UniformStrides f ps) (m : Mem) (w h : Nat) : Depicts f ps w h m (asRead f ps m) := by
  intro c x y l hx hy hl
  have hp' : l.plane < planeCount f := by
    cases f <;> cases c <;> simp only [sampleLoc, Option.some.injEq, reduceCtorEq] at hl <;> subst hl <;> simp [planeCount]
  have hp : ps[l.plane]? = some (ps[l.plane]'(by omega)) := List.getElem?_eq_getElem _
  have hp0 : ps[0]? = some (ps[0]'(by omega)) := List.getElem?_eq_getElem _
  simp only [sample, asRead, hl, Option.bind_some, locAddr, hp, hp0, Option.map_some]
  split
  · rename_i h444
    rw [hu ⟨h444.1, h444.2.1⟩ l.plane (lt_of_lt_of_le hp' (by cases f <;> simp_all [planeCount, isYuv, hsub])) _ _ hp hp0]
  · rfl

/-! ## C32: colour conversion if and only if needed -/

/-- **C32**: conversions to images of one format, colour and width render the colours they are given by one function `W`.
It is given the colours of the source if transfer function and primaries are the same, whatever the colour spaces and
ranges, and the changed colours otherwise. -/
theorem C32_iff_needed (c : Cpu F) (df : PixelFormat) (dc : ColorInfo) (w : Nat) : ∃ W : Pic F → Pic Nat,
    ∀ (src dst : Img) (sps dps : List Plane) (m m' : Mem), Done c src dst sps dps m m' → dst.format = df →
      dst.color = dc → dst.width = w → ¬ (src.format = df ∧ src.color = dc) →
      (src.color.transfer = dc.transfer ∧ src.color.primaries = dc.primaries →
        Depicts df dps w dst.height m' (W (readPic (columnArith c w) src.format src.color (asRead src.format sps m)))) ∧
      (src.color.transfer ≠ dc.transfer ∨ src.color.primaries ≠ dc.primaries →
        Depicts df dps w dst.height m' (W (changeColor (columnArith c w) src.color dc
          (readPic (columnArith c w) src.format src.color (asRead src.format sps m))))) := by
  refine ⟨fun p ch X Y => quantize (cpuBlk c w).ar df (writeBlk (cpuBlk c w) df dc p) ch (cellX df ch X) (cellY df ch Y), ?_⟩
  rintro src dst sps dps m m' r rfl rfl rfl hne
  have h := r.returned
  have hp := r.painted
  rw [floatBlk, if_neg hne] at hp
  constructor
  · intro hn ch X Y l hX hY hl
    rw [adaptPic, if_pos hn] at hp
    rw [painted_sample hp h.vdst.fits h.evenW h.evenH hX hY hl, cpuBlk_columnArith]
  · intro hn ch X Y l hX hY hl
    rw [adaptPic, if_neg (by rintro ⟨e1, e2⟩; simp [e1, e2] at hn)] at hp
    rw [painted_sample hp h.vdst.fits h.evenW h.evenH hX hY hl, cpuBlk_columnArith]

/-- **C32** with the specified rendering (partial: not for 4:2:0 destinations with an ICtCp colour space). -/
theorem C32_not_needed_partial {c : Cpu F} {src dst : Img} {sps dps : List Plane} {m m' : Mem}
    (r : Done c src dst sps dps m m') (hb : ¬ BadChroma src.format src.color dst.format dst.color)
    (hne : ¬ (src.format = dst.format ∧ src.color = dst.color)) (ht : src.color.transfer = dst.color.transfer)
    (hp : src.color.primaries = dst.color.primaries) :
    Depicts dst.format dps dst.width dst.height m' (quantize (columnArith c dst.width) dst.format
      (writePic (columnArith c dst.width) dst.format dst.color
        (readPic (columnArith c dst.width) src.format src.color (asRead src.format sps m)))) := by
  have := r.depicts hb
  rwa [converted, convertedF, if_neg hne, adaptPic, if_pos ⟨ht, hp⟩] at this

/-- **C32** with the specified rendering (partial as above): every colour is changed. -/
theorem C32_needed_partial {c : Cpu F} {src dst : Img} {sps dps : List Plane} {m m' : Mem}
    (r : Done c src dst sps dps m m') (hb : ¬ BadChroma src.format src.color dst.format dst.color)
    (hn : src.color.transfer ≠ dst.color.transfer ∨ src.color.primaries ≠ dst.color.primaries) :
    Depicts dst.format dps dst.width dst.height m' (quantize (columnArith c dst.width) dst.format
      (writePic (columnArith c dst.width) dst.format dst.color
        (changeColor (columnArith c dst.width) src.color dst.color
          (readPic (columnArith c dst.width) src.format src.color (asRead src.format sps m))))) := by
  have := r.depicts hb
  rwa [converted, convertedF, if_neg (by rintro ⟨_, e⟩; rw [e] at hn; simp at hn), adaptPic,
    if_neg (by rintro ⟨e1, e2⟩; simp [e1, e2] at hn)] at this

variable {p : Platform} {simd scalar : Libm} {src dst : Img} {sps dps : List Plane} {m m' : Mem}

/-- What a conversion without change of format and colour does to any source. -/
theorem C23_as_read (r : Done (p.ieee simd scalar) src dst sps dps m m') (hf : src.format = dst.format)
    (hc : src.color = dst.color) (hd : InDepth src.format src.width src.height (asRead src.format sps m)) :
    Depicts dst.format dps dst.width dst.height m' (asRead src.format sps m) := by
  intro c x y l hx hy hl
  have hr := r.returned
  rw [r.depicts (fun h => h.1 ⟨hf, hc⟩) c x y l hx hy hl]
  congr 1
  have hn := hd c x y l (hr.width ▸ hx) (hr.height ▸ hy) (hf ▸ hl)
  have hi := column_ieee p simd scalar dst.width x
  have hn : asRead src.format sps m c x y ≤ 2 ^ sampleBits dst.format - 1 := hf ▸ hn
  rw [converted, convertedF, if_pos ⟨hf, hc⟩]
  exact quantize_sample _ _ _ _ _ _ _ hi hn (hf ▸ unscale hi dst.format hn)

/-- A 2×2 I444 image at `a`: rows of Y are `s` bytes apart, those of U and V two bytes. The U plane has spare bytes at
its end. -/
def i444At (a s : Nat) : Img :=
  .raw .I444 2 2 [⟨⟨a, 8⟩, s⟩, ⟨⟨a + 8, 8⟩, 2⟩, ⟨⟨a + 16, 8⟩, 2⟩] (.YUV ⟨.SDR, .BT709, .BT709, true⟩)
/-- Its planes. -/
def i444Planes (a s : Nat) : List Plane := [⟨⟨a, 8⟩, s⟩, ⟨⟨a + 8, 8⟩, 2⟩, ⟨⟨a + 16, 8⟩, 2⟩]

theorem i444_skewed_done (p : Platform) (simd scalar : Libm) (m : Mem) :
    ∃ m', Done (p.ieee simd scalar) (i444At 0 4) (i444At 100 2) (i444Planes 0 4) (i444Planes 100 2) m m' := by
  have hs : (i444At 0 4).boundsCheck = .ok (.ok ()) := by decide
  have hd : (i444At 100 2).boundsCheck = .ok (.ok ()) := by decide
  have hr := returned_of_verdict (src := i444At 0 4) (dst := i444At 100 2) (by decide)
    (valid_of hs rfl).planes (valid_of hd rfl).planes
  obtain ⟨m', h, _⟩ := convert_frame (c := p.ieee simd scalar) (platform_lawful p _ _) hr.vsrc hr.vdst hr.width
    hr.height hr.evenW hr.evenH hr.colors (by
      intro _ _ _ p0 h0 i hi p hp
      cases h0
      obtain rfl | rfl | rfl : i = 0 ∨ i = 1 ∨ i = 2 := by omega
      all_goals (cases hp; decide)) m
  exact ⟨m', platform_lawful p _ _, rfl, rfl, planesDisjoint_of (by decide), separate_of (by decide), h⟩

theorem asRead_le {f : PixelFormat} (h : sampleBytes f = 1) (ps : List Plane) (m : Mem) (w k : Nat) :
    InDepth f w k (asRead f ps m) := by
  intro c x y l _ _ _
  have h255 : 2 ^ sampleBits f - 1 = 255 := by revert h; cases f <;> simp [sampleBytes, sampleBits]
  rw [h255, asRead]
  split
  · omega
  · split
    · exact sampleVal_le _ _ _ h
    · omega

/-- **C23** is false for 4:4:4 sources whose planes have different strides: this "copy" returns `Ok`, but stores in the
first U sample of the second row the byte two after the one it should copy. -/
theorem C23_skewed (p : Platform) (simd scalar : Libm) (m : Mem) :
    (i444At 0 4).boundsCheck = .ok (.ok ()) ∧ (i444At 100 2).boundsCheck = .ok (.ok ()) ∧
    ∃ m', convert (p.ieee simd scalar) (i444At 0 4) (i444At 100 2) m = .ok (.ok (), m') ∧
      sample .I444 (i444Planes 0 4) m .U 0 1 = some (m 10).toNat ∧
      sample .I444 (i444Planes 100 2) m' .U 0 1 = some (m 12).toNat := by
  refine ⟨by decide, by decide, ?_⟩
  obtain ⟨m', r⟩ := i444_skewed_done p simd scalar m
  refine ⟨m', r.ok, rfl, ?_⟩
  exact C23_as_read r rfl rfl (asRead_le rfl _ _ _ _) .U 0 1 ⟨1, 1, 0⟩ (by decide) (by decide) rfl

/-- **C16** is false for them too: two sources show the same picture, `m` differs only in the padding, and the results
differ. -/
theorem C16_skewed (p : Platform) (simd scalar : Libm) : ∃ m1 m2 m1' m2' : Mem, ∃ V : Pic Nat,
    Depicts .I444 (i444Planes 0 4) 2 2 m1 V ∧ Depicts .I444 (i444Planes 0 4) 2 2 m2 V ∧
    convert (p.ieee simd scalar) (i444At 0 4) (i444At 100 2) m1 = .ok (.ok (), m1') ∧
    convert (p.ieee simd scalar) (i444At 0 4) (i444At 100 2) m2 = .ok (.ok (), m2') ∧
    sample .I444 (i444Planes 100 2) m1' .U 0 1 ≠ sample .I444 (i444Planes 100 2) m2' .U 0 1 := by
  obtain ⟨_, _, m1', h1, _, e1⟩ := C23_skewed p simd scalar (fun _ => 0)
  obtain ⟨_, _, m2', h2, _, e2⟩ := C23_skewed p simd scalar (fun a => if a = 12 then 1 else 0)
  refine ⟨_, _, m1', m2', shown .I444 (i444Planes 0 4) (fun _ => 0), shown_depicts (by decide) _, ?_, h1, h2, ?_⟩
  · intro c x y l hx hy hl
    have hx : x = 0 ∨ x = 1 := by omega
    have hy : y = 0 ∨ y = 1 := by omega
    rcases hx with rfl | rfl <;> rcases hy with rfl | rfl <;> cases c <;> first | rfl | cases hl
  · rw [e1, e2]; decide

/-- An RGB image that needs a change of colour, and one that does not. -/
example (p : Platform) (simd scalar : Libm) (m : Mem) : ∃ m1 m2,
    Done (p.ieee simd scalar) (.raw .RGB 2 2 [⟨⟨0, 12⟩, 6⟩] (.RGB ⟨.SRGB, .BT709⟩))
      (.raw .BGR 2 2 [⟨⟨100, 12⟩, 6⟩] (.RGB ⟨.BT2100PQ, .BT2020⟩)) [⟨⟨0, 12⟩, 6⟩] [⟨⟨100, 12⟩, 6⟩] m m1 ∧
    Done (p.ieee simd scalar) (.raw .RGB 2 2 [⟨⟨0, 12⟩, 6⟩] (.RGB ⟨.SRGB, .BT709⟩))
      (.raw .I444 2 2 [⟨⟨100, 4⟩, 2⟩, ⟨⟨104, 4⟩, 2⟩, ⟨⟨108, 4⟩, 2⟩] (.YUV ⟨.SRGB, .BT709, .BT601, false⟩)) [⟨⟨0, 12⟩, 6⟩]
      [⟨⟨100, 4⟩, 2⟩, ⟨⟨104, 4⟩, 2⟩, ⟨⟨108, 4⟩, 2⟩] m m2 := by
  obtain ⟨m1, r1⟩ := run_exists (c := p.ieee simd scalar) (platform_lawful p _ _)
    (src := .raw .RGB 2 2 [⟨⟨0, 12⟩, 6⟩] (.RGB ⟨.SRGB, .BT709⟩)) (dst := .raw .BGR 2 2 [⟨⟨100, 12⟩, 6⟩] (.RGB ⟨.BT2100PQ, .BT2020⟩))
    (sps := [⟨⟨0, 12⟩, 6⟩]) (dps := [⟨⟨100, 12⟩, 6⟩]) rfl rfl
    (planesDisjoint_of (by decide)) (separate_of (by decide)) (uniform_of (by decide)) (by decide) m
  obtain ⟨m2, r2⟩ := run_exists (c := p.ieee simd scalar) (platform_lawful p _ _)
    (src := .raw .RGB 2 2 [⟨⟨0, 12⟩, 6⟩] (.RGB ⟨.SRGB, .BT709⟩))
    (dst := .raw .I444 2 2 [⟨⟨100, 4⟩, 2⟩, ⟨⟨104, 4⟩, 2⟩, ⟨⟨108, 4⟩, 2⟩] (.YUV ⟨.SRGB, .BT709, .BT601, false⟩))
    (sps := [⟨⟨0, 12⟩, 6⟩]) (dps := [⟨⟨100, 4⟩, 2⟩, ⟨⟨104, 4⟩, 2⟩, ⟨⟨108, 4⟩, 2⟩]) rfl rfl
    (planesDisjoint_of (by decide)) (separate_of (by decide)) (uniform_of (by decide)) (by decide) m
  exact ⟨m1, m2, r1.done, r2.done⟩

end Ezk.Props

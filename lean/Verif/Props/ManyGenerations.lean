import Verif.Props.Generations

/-!
# C67: any number of generations

Images that are converted to another kind of image and back again and again, as by a chain of programs that each decode and encode.
-/

namespace Ezk.Props
open FOps Spec F32 PixelFormat

/-- `n` times, an image is converted to one of the kind `Mid` and this to one of the kind `End`, each time to any place and on any
platform that is `ok` for the width. -/
inductive Generations (ok : Platform → Nat → Prop) (Mid End : Img → Prop) (src : Img) (sps : List Plane) (m : Mem) :
    Nat → Img → List Plane → Mem → Prop
  | zero : Generations ok Mid End src sps m 0 src sps m
  | succ {n : Nat} {a mid b : Img} {aps mps bps : List Plane} {m1 m2 m3 : Mem} {p p2 : Platform} {simd scalar simd2 scalar2 : Libm}
      (g : Generations ok Mid End src sps m n a aps m1) (r1 : Run (p.ieee simd scalar) a mid aps mps m1 m2)
      (r2 : Run (p2.ieee simd2 scalar2) mid b mps bps m2 m3) (hm : Mid mid) (he : End b)
      (h1 : ok p mid.width) (h2 : ok p2 b.width) : Generations ok Mid End src sps m (n + 1) b bps m3

/-- RGB images with the transfer function `t` and the primaries `pr`. -/
def RgbImage (t : ColorTransfer) (pr : ColorPrimaries) (i : Img) : Prop :=
  isYuv i.format = false ∧ i.color.transfer = t ∧ i.color.primaries = pr

/-- YUV images of format `f` with the colour information `i`. -/
def YuvImage (f : PixelFormat) (i : YuvColorInfo) (img : Img) : Prop := img.format = f ∧ img.color = .YUV i

variable {src dst : Img} {sps dps : List Plane} {m mn : Mem} {x y n : Nat}

theorem sample_some_shown {f : PixelFormat} {ps : List Plane} {m : Mem} {c : Chan} {x y v : Nat} (h : sample f ps m c x y = some v) :
    shown f ps m c x y = v := by rw [shown, h]; rfl

/-- **C67**, RGB (partial: columns whose stores round, BT.601 and BT.709; see `C67_drift_false`). However often an RGB image is
converted to 10- or 12-bit YUV and back, its colours do not change, where the pixels that share a chroma sample have the same colour
(always, for 4:4:4). -/
theorem C67_rgb_partial {f : PixelFormat} {i : YuvColorInfo} (hf : isYuv f = true) (hbits : 10 ≤ sampleBits f)
    (hcs : i.space = .BT601 ∨ i.space = .BT709) (hs : RgbImage i.transfer i.primaries src)
    (g : Generations (fun p w => ¬ Truncates p w x) (YuvImage f i) (RgbImage i.transfer i.primaries) src sps m n dst dps mn)
    (hw : src.width % 2 = 0) (hh : src.height % 2 = 0) (hx : x < src.width) (hy : y < src.height)
    (hn : planeCount src.format ≤ sps.length) (hflat : FlatCell f (shown src.format sps m) x y) {c : Chan} (hc : c = .R ∨ c = .G ∨ c = .B) :
    ∃ v, sample src.format sps m c x y = some v ∧ sample dst.format dps mn c x y = some v := by
  have h1 : hsub f = 1 ∨ hsub f = 2 := by cases f <;> simp [hsub]
  have h2 : vsub f = 1 ∨ vsub f = 2 := by cases f <;> simp [vsub]
  have key : RgbImage i.transfer i.primaries dst ∧ dst.width = src.width ∧ dst.height = src.height ∧
      ∀ x' y', x' / hsub f = x / hsub f → y' / vsub f = y / vsub f → ∀ c, (c = .R ∨ c = .G ∨ c = .B) →
        ∃ v, sample src.format sps m c x' y' = some v ∧ sample dst.format dps mn c x' y' = some v := by
    induction g with
    | zero =>
      refine ⟨hs, rfl, rfl, fun x' y' ex ey c hc => ?_⟩
      obtain ⟨hx', hy'⟩ := cell_in hw hh hx hy ex ey
      have : ∃ l, sampleLoc src.format c x' y' = some l := by
        have h0 := hs.1
        rcases hc with rfl | rfl | rfl <;> revert h0 <;> cases src.format <;> simp [isYuv, sampleLoc]
      obtain ⟨l, hl⟩ := this
      have := shown_depicts (w := src.width) (h := src.height) hn m c x' y' l hx' hy' hl
      exact ⟨_, this, this⟩
    | @succ n a mid b aps mps bps m1 m2 m3 p p2 _ _ _ _ g r1 r2 hm he t1 t2 ih =>
      obtain ⟨ha, w1, w2, hsame⟩ := ih
      have wa := r1.returned.width
      have wb := r2.returned.width
      have va := r1.returned.height
      have vb := r2.returned.height
      refine ⟨he, by omega, by omega, fun x' y' ex ey c hc => ?_⟩
      obtain ⟨hx', hy'⟩ := cell_in hw hh hx hy ex ey
      have e2 : x' / 2 = x / 2 := half_of_cell ex
      have hfl : FlatCell mid.format (shown a.format aps m1) x' y' := by
        rw [hm.1]
        have eq : ∀ x' y', x' / hsub f = x / hsub f → y' / vsub f = y / vsub f → ∀ c, (c = .R ∨ c = .G ∨ c = .B) →
            shown a.format aps m1 c x' y' = shown src.format sps m c x y := by
          intro x' y' ex ey c hc
          obtain ⟨v, e1, e2⟩ := hsame x' y' ex ey c hc
          rw [sample_some_shown e2, ← sample_some_shown e1]
          have := hflat (x' % hsub f) (Nat.mod_lt _ (by omega)) (y' % vsub f) (Nat.mod_lt _ (by omega)) c hc
          rwa [← ex, ← ey, Nat.div_add_mod', Nat.div_add_mod'] at this
        intro i1 hi1 j1 hj1 c hc
        rw [eq _ _ _ _ c hc, eq _ _ ex ey c hc]
        · rw [Nat.mul_comm, Nat.mul_add_div (by omega), Nat.div_eq_of_lt hi1]; exact ex
        · rw [Nat.mul_comm, Nat.mul_add_div (by omega), Nat.div_eq_of_lt hj1]; exact ey
      obtain ⟨v, e3, e4⟩ := hsame x' y' ex ey c hc
      obtain ⟨v', e5, e6⟩ := C63_deep_lossless_partial r1 r2 ha.1 (by rw [hm.1]; exact hf) he.1 hm.2 ha.2.1 ha.2.2 he.2.1.symm he.2.2.symm hcs
        (by rw [hm.1]; exact hbits) hc (x := x') (y := y') (by omega) (by omega) hfl (fun h => t1 ((truncates_cell e2).1 h))
        (fun h => t2 ((truncates_cell e2).1 h))
      rw [e4] at e5
      cases e5
      exact ⟨v, e3, e6⟩
  exact key.2.2.2 x y rfl rfl c hc

/-- **C67**, YUV (partial: columns whose stores round, BT.601 and BT.709; see `C67_drift_false`). However often an 8-bit limited-range
YUV image is converted to RGB and back to its format, its samples do not change, where the colours (of the pixels that share the
chroma sample) are ones that RGB images can hold. -/
theorem C67_yuv_partial {f : PixelFormat} {i : YuvColorInfo} (hf : isYuv f = true) (h8 : sampleBits f = 8)
    (hcs : i.space = .BT601 ∨ i.space = .BT709) (hfull : i.fullRange = false) {k : ℝ × ℝ × ℝ} (hk : lumaWeights i.space = some k)
    (hs : YuvImage f i src) (g : Generations (fun p w => ¬ Truncates p w x) (RgbImage i.transfer i.primaries) (YuvImage f i) src sps m n dst dps mn)
    (hw : src.width % 2 = 0) (hh : src.height % 2 = 0) (hx : x < src.width) (hy : y < src.height)
    (hn : planeCount f ≤ sps.length) (hgam : InGamut k f false (shown f sps m) f x y) {c : Chan} (hc : c = .Y ∨ c = .U ∨ c = .V) :
    ∃ v, sample f sps m c x y = some v ∧ sample f dps mn c x y = some v := by
  have key : YuvImage f i dst ∧ dst.width = src.width ∧ dst.height = src.height ∧
      ∀ x' y', x' / hsub f = x / hsub f → y' / vsub f = y / vsub f → ∀ c, (c = .Y ∨ c = .U ∨ c = .V) →
        ∃ v, sample f sps m c x' y' = some v ∧ sample f dps mn c x' y' = some v := by
    induction g with
    | zero =>
      refine ⟨hs, rfl, rfl, fun x' y' ex ey c hc => ?_⟩
      obtain ⟨hx', hy'⟩ := cell_in hw hh hx hy ex ey
      have : ∃ l, sampleLoc f c x' y' = some l := by
        rcases hc with rfl | rfl | rfl <;> revert hf <;> cases f <;> simp [isYuv, sampleLoc]
      obtain ⟨l, hl⟩ := this
      have := shown_depicts (w := src.width) (h := src.height) hn m c x' y' l hx' hy' hl
      exact ⟨_, this, this⟩
    | @succ n a mid b aps mps bps m1 m2 m3 p p2 _ _ _ _ g r1 r2 hm he t1 t2 ih =>
      obtain ⟨ha, w1, w2, hsame⟩ := ih
      have wa := r1.returned.width
      have wb := r2.returned.width
      have va := r1.returned.height
      have vb := r2.returned.height
      refine ⟨he, by omega, by omega, fun x' y' ex ey c hc => ?_⟩
      obtain ⟨hx', hy'⟩ := cell_in hw hh hx hy ex ey
      have e2 : x' / 2 = x / 2 := half_of_cell ex
      have hg : InGamut k a.format i.fullRange (shown a.format aps m1) b.format x' y' := by
        rw [ha.1, he.1, hfull]
        intro x2 y2 ex2 ey2 c2 hc2
        have e : ∀ c, (c = .Y ∨ c = .U ∨ c = .V) → shown f aps m1 c x2 y2 = shown f sps m c x2 y2 := by
          intro c hc
          obtain ⟨v, e1, e2⟩ := hsame x2 y2 (ex2.trans ex) (ey2.trans ey) c hc
          rw [sample_some_shown e2, sample_some_shown e1]
        have := hgam x2 y2 (ex2.trans ex) (ey2.trans ey) c2 hc2
        simp only [idealRgb, e .Y (by simp), e .U (by simp), e .V (by simp)] at this ⊢
        exact this
      obtain ⟨v, e3, e4⟩ := hsame x' y' ex ey c hc
      obtain ⟨v', e5, e6⟩ := C65_lossless_partial r1 r2 (by rw [ha.1]; exact hf) hm.1 (by rw [he.1]; exact hf) ha.2 he.2 hm.2.1.symm hm.2.2.symm
        hcs hk hfull (by rw [ha.1]; exact h8) (by rw [he.1]; exact h8) (by rw [ha.1, he.1]; exact ⟨le_refl _, le_refl _⟩) hc
        (x := x') (y := y') (by omega) (by omega) hg (fun h => t1 ((truncates_cell e2).1 h)) (fun h => t2 ((truncates_cell e2).1 h))
      rw [ha.1, e4] at e5
      rw [he.1] at e6
      cases e5
      exact ⟨v, e3, e6⟩
  exact key.2.2.2 x y rfl rfl c hc

/-! ## Drift -/

/-- The code of a 2×2 grey image. -/
def greyPic (n : Nat) : Pic Nat := fun _ _ _ => n
/-- A grey as YUV. -/
def greyYuv (y : Nat) : Pic Nat := fun c _ _ => if c = .Y then y else 128

/-- The scalar code makes the luma `y` of the grey `n`, and the grey `n'` of that. -/
def GreyStep (n y n' : Nat) : Prop :=
  (∀ c ∈ [Chan.Y, .U, .V], ∀ a < 2, ∀ b < 2, converted (columnArith (Platform.scalar.ieee x86Libm x86Libm) 2) .RGB (.RGB ⟨.SDR, .BT709⟩)
    .I444 (.YUV ⟨.SDR, .BT709, .BT709, false⟩) (greyPic n) c a b = greyYuv y c a b) ∧
  (∀ c ∈ [Chan.R, .G, .B], ∀ a < 2, ∀ b < 2, converted (columnArith (Platform.scalar.ieee x86Libm x86Libm) 2) .I444
    (.YUV ⟨.SDR, .BT709, .BT709, false⟩) .RGB (.RGB ⟨.SDR, .BT709⟩) (greyYuv y) c a b = greyPic n' c a b)

instance (n y n' : Nat) : Decidable (GreyStep n y n') := inferInstanceAs (Decidable (_ ∧ _))

/-- One generation of a grey image. -/
theorem grey_generation {k n y n' : Nat} {m m1 : Mem} (h : GreyStep n y n')
    (hg : Generations (fun p _ => p = .scalar) (YuvImage .I444 ⟨.SDR, .BT709, .BT709, false⟩) (RgbImage .SDR .BT709) (rgbTiny 0)
      [⟨⟨0, 12⟩, 6⟩] m k (rgbTiny 0) [⟨⟨0, 12⟩, 6⟩] m1 ∧ Depicts .RGB [⟨⟨0, 12⟩, 6⟩] 2 2 m1 (greyPic n)) :
    ∃ m3, Generations (fun p _ => p = .scalar) (YuvImage .I444 ⟨.SDR, .BT709, .BT709, false⟩) (RgbImage .SDR .BT709) (rgbTiny 0)
      [⟨⟨0, 12⟩, 6⟩] m (k + 1) (rgbTiny 0) [⟨⟨0, 12⟩, 6⟩] m3 ∧ Depicts .RGB [⟨⟨0, 12⟩, 6⟩] 2 2 m3 (greyPic n') := by
  obtain ⟨m2, r1⟩ := run_exists (c := Platform.scalar.ieee x86Libm x86Libm) (src := rgbTiny 0) (dst := i444Tiny 100)
    (platform_lawful .scalar _ _) rfl rfl (planesDisjoint_of (by decide)) (separate_of (by decide)) (uniform_of (by decide)) (by decide) m1
  obtain ⟨m3, r2⟩ := run_exists (c := Platform.scalar.ieee x86Libm x86Libm) (src := i444Tiny 100) (dst := rgbTiny 0)
    (platform_lawful .scalar _ _) rfl rfl (planesDisjoint_of (by decide)) (separate_of (by decide)) (uniform_of (by decide)) (by decide) m2
  refine ⟨m3, .succ hg.1 r1 r2 ⟨rfl, rfl⟩ ⟨rfl, rfl, rfl⟩ rfl rfl, ?_⟩
  have d1 : Depicts .I444 [⟨⟨100, 4⟩, 2⟩, ⟨⟨104, 4⟩, 2⟩, ⟨⟨108, 4⟩, 2⟩] 2 2 m2 (greyYuv y) := by
    intro c a b l ha hb hl
    have := r1.depicts (by rintro ⟨_, h, _⟩; cases h) hg.2 c a b l ha hb hl
    rw [show sample .I444 [⟨⟨100, 4⟩, 2⟩, ⟨⟨104, 4⟩, 2⟩, ⟨⟨108, 4⟩, 2⟩] m2 c a b = _ from this]
    exact congrArg some (h.1 c (by cases c <;> simp [sampleLoc] at hl ⊢) a ha b hb)
  intro c a b l ha hb hl
  have := r2.depicts (by rintro ⟨_, h, _⟩; cases h) d1 c a b l ha hb hl
  rw [show sample .RGB [⟨⟨0, 12⟩, 6⟩] m3 c a b = _ from this]
  exact congrArg some (h.2 c (by cases c <;> simp [sampleLoc] at hl ⊢) a ha b hb)

/-- **C67** is false in columns whose stores truncate: the loss of each generation adds to that of the last. With the scalar code, ten
generations of 8-bit YUV make 117 of the grey 129. -/
theorem C67_drift_false : ∃ mn,
    Generations (fun p _ => p = .scalar) (YuvImage .I444 ⟨.SDR, .BT709, .BT709, false⟩) (RgbImage .SDR .BT709) (rgbTiny 0)
      [⟨⟨0, 12⟩, 6⟩] (fun _ => 129) 10 (rgbTiny 0) [⟨⟨0, 12⟩, 6⟩] mn ∧
    sample .RGB [⟨⟨0, 12⟩, 6⟩] (fun _ => 129) .G 0 0 = some 129 ∧ sample .RGB [⟨⟨0, 12⟩, 6⟩] mn .G 0 0 = some 117 := by
  have g0 : ∃ m, Generations (fun p _ => p = .scalar) (YuvImage .I444 ⟨.SDR, .BT709, .BT709, false⟩) (RgbImage .SDR .BT709) (rgbTiny 0)
      [⟨⟨0, 12⟩, 6⟩] (fun _ => 129) 0 (rgbTiny 0) [⟨⟨0, 12⟩, 6⟩] m ∧ Depicts .RGB [⟨⟨0, 12⟩, 6⟩] 2 2 m (greyPic 129) := by
    refine ⟨_, .zero, ?_⟩
    intro c a b l ha hb hl
    cases c <;> simp [sampleLoc] at hl <;> rfl
  obtain ⟨_, g⟩ := g0
  obtain ⟨_, g⟩ := grey_generation (n := 129) (y := 126) (n' := 128) (by decide +kernel) g
  obtain ⟨_, g⟩ := grey_generation (n := 128) (y := 125) (n' := 126) (by decide +kernel) g
  obtain ⟨_, g⟩ := grey_generation (n := 126) (y := 124) (n' := 125) (by decide +kernel) g
  obtain ⟨_, g⟩ := grey_generation (n := 125) (y := 123) (n' := 124) (by decide +kernel) g
  obtain ⟨_, g⟩ := grey_generation (n := 124) (y := 122) (n' := 123) (by decide +kernel) g
  obtain ⟨_, g⟩ := grey_generation (n := 123) (y := 121) (n' := 122) (by decide +kernel) g
  obtain ⟨_, g⟩ := grey_generation (n := 122) (y := 120) (n' := 121) (by decide +kernel) g
  obtain ⟨_, g⟩ := grey_generation (n := 121) (y := 119) (n' := 119) (by decide +kernel) g
  obtain ⟨_, g⟩ := grey_generation (n := 119) (y := 118) (n' := 118) (by decide +kernel) g
  obtain ⟨_, g⟩ := grey_generation (n := 118) (y := 117) (n' := 117) (by decide +kernel) g
  exact ⟨_, g.1, by decide, g.2 .G 0 0 ⟨0, 0, 1⟩ (by decide) (by decide) rfl⟩

/-! ## Examples -/

/-- Any RGB image of 32×2 pixels can be taken through I412 any number of times, with AVX2 and AVX-512, and then shows what it did. -/
example (simd scalar : Libm) (m : Mem) (n : Nat) : ∃ mn v,
    sample .RGB [⟨⟨0, 192⟩, 96⟩] m .G 13 1 = some v ∧ sample .RGB [⟨⟨0, 192⟩, 96⟩] mn .G 13 1 = some v := by
  have h : ∀ n, ∃ mn, Generations (fun p w => ¬ Truncates p w 13) (YuvImage .I412 ⟨.SDR, .BT709, .BT601, false⟩) (RgbImage .SDR .BT709)
      (.raw .RGB 32 2 [⟨⟨0, 192⟩, 96⟩] (.RGB ⟨.SDR, .BT709⟩)) [⟨⟨0, 192⟩, 96⟩] m n
      (.raw .RGB 32 2 [⟨⟨0, 192⟩, 96⟩] (.RGB ⟨.SDR, .BT709⟩)) [⟨⟨0, 192⟩, 96⟩] mn := by
    intro n
    induction n with
    | zero => exact ⟨m, .zero⟩
    | succ n ih =>
      obtain ⟨m1, g⟩ := ih
      obtain ⟨m2, r1⟩ := run_exists (c := Platform.avx2.ieee simd scalar) (platform_lawful .avx2 _ _)
        (src := .raw .RGB 32 2 [⟨⟨0, 192⟩, 96⟩] (.RGB ⟨.SDR, .BT709⟩))
        (dst := .raw .I412 32 2 [⟨⟨200, 128⟩, 64⟩, ⟨⟨328, 128⟩, 64⟩, ⟨⟨456, 128⟩, 64⟩] (.YUV ⟨.SDR, .BT709, .BT601, false⟩))
        (sps := [⟨⟨0, 192⟩, 96⟩]) (dps := [⟨⟨200, 128⟩, 64⟩, ⟨⟨328, 128⟩, 64⟩, ⟨⟨456, 128⟩, 64⟩]) rfl rfl
        (planesDisjoint_of (by decide)) (separate_of (by decide)) (uniform_of (by decide)) (by decide) m1
      obtain ⟨m3, r2⟩ := run_exists (c := Platform.avx512.ieee simd scalar) (platform_lawful .avx512 _ _)
        (src := .raw .I412 32 2 [⟨⟨200, 128⟩, 64⟩, ⟨⟨328, 128⟩, 64⟩, ⟨⟨456, 128⟩, 64⟩] (.YUV ⟨.SDR, .BT709, .BT601, false⟩))
        (dst := .raw .RGB 32 2 [⟨⟨0, 192⟩, 96⟩] (.RGB ⟨.SDR, .BT709⟩))
        (sps := [⟨⟨200, 128⟩, 64⟩, ⟨⟨328, 128⟩, 64⟩, ⟨⟨456, 128⟩, 64⟩]) (dps := [⟨⟨0, 192⟩, 96⟩]) rfl rfl
        (planesDisjoint_of (by decide)) (separate_of (by decide)) (uniform_of (by decide)) (by decide) m2
      exact ⟨m3, .succ g r1 r2 ⟨rfl, rfl⟩ ⟨rfl, rfl, rfl⟩ (by simp [Truncates, lanes, Img.width]) (by simp [Truncates, lanes, Img.width])⟩
  obtain ⟨mn, g⟩ := h n
  obtain ⟨v, h1, h2⟩ := C67_rgb_partial rfl (by decide) (.inl rfl) ⟨rfl, rfl, rfl⟩ g rfl rfl (x := 13) (y := 1) (by decide) (by decide)
    (by decide) (by
      intro a ha b hb c _
      simp only [hsub, vsub, Nat.lt_one_iff] at ha hb ⊢
      subst ha hb
      rfl) (c := .G) (by simp)
  exact ⟨mn, v, h1, h2⟩

/-- A grey NV12 image can be taken through BGRA any number of times. -/
example (simd scalar : Libm) (n : Nat) : ∃ mn, sample .NV12 [⟨⟨0, 64⟩, 32⟩, ⟨⟨64, 32⟩, 32⟩] mn .Y 9 1 = some 128 := by
  let mem : Mem := fun _ => 128
  have h : ∀ n, ∃ mn, Generations (fun p w => ¬ Truncates p w 9) (RgbImage .SDR .BT709) (YuvImage .NV12 ⟨.SDR, .BT709, .BT709, false⟩)
      (.raw .NV12 32 2 [⟨⟨0, 64⟩, 32⟩, ⟨⟨64, 32⟩, 32⟩] (.YUV ⟨.SDR, .BT709, .BT709, false⟩)) [⟨⟨0, 64⟩, 32⟩, ⟨⟨64, 32⟩, 32⟩] mem n
      (.raw .NV12 32 2 [⟨⟨0, 64⟩, 32⟩, ⟨⟨64, 32⟩, 32⟩] (.YUV ⟨.SDR, .BT709, .BT709, false⟩)) [⟨⟨0, 64⟩, 32⟩, ⟨⟨64, 32⟩, 32⟩] mn := by
    intro n
    induction n with
    | zero => exact ⟨mem, .zero⟩
    | succ n ih =>
      obtain ⟨m1, g⟩ := ih
      obtain ⟨m2, r1⟩ := run_exists (c := Platform.avx2.ieee simd scalar) (platform_lawful .avx2 _ _)
        (src := .raw .NV12 32 2 [⟨⟨0, 64⟩, 32⟩, ⟨⟨64, 32⟩, 32⟩] (.YUV ⟨.SDR, .BT709, .BT709, false⟩))
        (dst := .raw .BGRA 32 2 [⟨⟨200, 256⟩, 128⟩] (.RGB ⟨.SDR, .BT709⟩))
        (sps := [⟨⟨0, 64⟩, 32⟩, ⟨⟨64, 32⟩, 32⟩]) (dps := [⟨⟨200, 256⟩, 128⟩]) rfl rfl
        (planesDisjoint_of (by decide)) (separate_of (by decide)) (uniform_of (by decide)) (by decide) m1
      obtain ⟨m3, r2⟩ := run_exists (c := Platform.avx2.ieee simd scalar) (platform_lawful .avx2 _ _)
        (src := .raw .BGRA 32 2 [⟨⟨200, 256⟩, 128⟩] (.RGB ⟨.SDR, .BT709⟩))
        (dst := .raw .NV12 32 2 [⟨⟨0, 64⟩, 32⟩, ⟨⟨64, 32⟩, 32⟩] (.YUV ⟨.SDR, .BT709, .BT709, false⟩))
        (sps := [⟨⟨200, 256⟩, 128⟩]) (dps := [⟨⟨0, 64⟩, 32⟩, ⟨⟨64, 32⟩, 32⟩]) rfl rfl
        (planesDisjoint_of (by decide)) (separate_of (by decide)) (uniform_of (by decide)) (by decide) m2
      exact ⟨m3, .succ g r1 r2 ⟨rfl, rfl, rfl⟩ ⟨rfl, rfl⟩ (by simp [Truncates, lanes, Img.width]) (by simp [Truncates, lanes, Img.width])⟩
  obtain ⟨mn, g⟩ := h n
  obtain ⟨v, h1, h2⟩ := C67_yuv_partial (f := .NV12) (i := ⟨.SDR, .BT709, .BT709, false⟩)
    rfl rfl (.inr rfl) rfl (k := (0.2126, 0.7152, 0.0722)) rfl ⟨rfl, rfl⟩ g rfl rfl (x := 9) (y := 1) (by decide) (by decide)
    (by decide) (grey_inGamut rfl (by rintro c x y (rfl | rfl | rfl) <;> rfl)) (c := .Y) (by simp)
  have e : sample .NV12 [⟨⟨0, 64⟩, 32⟩, ⟨⟨64, 32⟩, 32⟩] mem .Y 9 1 = some 128 := by decide
  exact ⟨mn, h2.trans (h1.symm.trans e)⟩

end Ezk.Props

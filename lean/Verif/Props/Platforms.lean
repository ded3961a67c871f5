import Verif.Props.Accuracy

/-!
# The same conversion on two platforms, in binary32

The IEEE operations give the same floats everywhere; only the stores and the functions `pow`, `sqrt` and `ln` differ.
-/

namespace Ezk.Props
open FOps Spec F32

section
variable {ar ar' : Nat → Arith F32} (h : ∀ x, IsIeee (ar x)) (h' : ∀ x, IsIeee (ar' x))
include h h'

theorem normalize_same (f : PixelFormat) (V : Pic Nat) : Spec.normalize ar f V = Spec.normalize ar' f V := by
  funext c x y
  simp only [Spec.normalize, (h x).div, (h' x).div]

theorem yuvAt_same {i : YuvColorInfo} (hm : isMatrix i.space = true) (p : Pic F32) (x y : Nat) :
    yuvAt ar i p x y = yuvAt ar' i p x y := by
  simp only [yuvAt, rgbToYuv_matrix _ hm, matMul, dot, (h x).add, (h x).mul, (h' x).add, (h' x).mul]

theorem encode_same (f : PixelFormat) {i : YuvColorInfo} (hm : isMatrix i.space = true) (p : Pic F32) :
    encode ar f i p = encode ar' f i p := by
  have hch : ∀ x y, chromaOf ar f i p x y = chromaOf ar' f i p x y := by
    intro x y
    simp only [chromaOf, yuvAt_same h h' hm, chroma422, chroma420, hm, if_true, mean4, rgbToYuv_matrix _ hm, matMul, dot,
      (h x).add, (h x).mul, (h x).div, (h' x).add, (h' x).mul, (h' x).div]
  funext c x y
  cases c <;> simp only [encode, yuvAt_same h h' hm, hch, compressLuma, compressChroma, (h x).add, (h x).mul, (h' x).add,
    (h' x).mul]

theorem decode_same {i : YuvColorInfo} (hm : isMatrix i.space = true) (p : Pic F32) : decode ar i p = decode ar' i p := by
  funext c x y
  simp only [decode, yuvToRgb_matrix _ hm, yuvToRgbMatrix, expandLuma, expandChroma, (h x).add, (h x).mul, (h x).sub,
    (h' x).add, (h' x).mul, (h' x).sub]

end

/-- Both images have the same transfer function and primaries, and YUV is given by a matrix. -/
structure MatrixOnly (sc dc : ColorInfo) : Prop where
  transfer : sc.transfer = dc.transfer
  primaries : sc.primaries = dc.primaries
  src : ∀ i, sc = .YUV i → isMatrix i.space = true
  dst : ∀ i, dc = .YUV i → isMatrix i.space = true

/-- The floats do not depend on the platform. -/
theorem convertedF_same {ar ar' : Nat → Arith F32} (h : ∀ x, IsIeee (ar x)) (h' : ∀ x, IsIeee (ar' x)) (sf df : PixelFormat)
    {sc dc : ColorInfo} (hm : MatrixOnly sc dc) (V : Pic Nat) : convertedF ar sf sc df dc V = convertedF ar' sf sc df dc V := by
  have hr : readPic ar sf sc V = readPic ar' sf sc V := by
    cases sc with
    | RGB i => simp only [readPic, normalize_same h h']
    | YUV i => simp only [readPic, normalize_same h h', decode_same h h' (hm.src i rfl)]
  have hw : ∀ p : Pic F32, writePic ar df dc p = writePic ar' df dc p := by
    intro p
    cases dc with
    | RGB i => rfl
    | YUV i => simp only [writePic, encode_same h h' df (hm.dst i rfl)]
  simp only [convertedF, adaptPic, if_pos (And.intro hm.transfer hm.primaries), hr, hw, normalize_same h h']

/-- The stores of two platforms. -/
theorem quantize_near {ar ar' : Arith F32} (h : IsIeee ar) (h' : IsIeee ar') {s : Bool} {q : ℚ} (h0 : -1 / 2 ≤ signed s q) :
    (signed s q < 255 + 1 / 2 → |((ar.q8 (.fin s q)).toNat : Int) - ((ar'.q8 (.fin s q)).toNat : Int)| ≤ 1) ∧
    (signed s q < 65535 + 1 / 2 → |((ar.q16 (.fin s q)).toNat : Int) - ((ar'.q16 (.fin s q)).toNat : Int)| ≤ 1) := by
  have key : ∀ {a b : Nat} {v : ℚ}, |(a : ℚ) - v| < 1 → |(b : ℚ) - v| < 1 → |(a : Int) - (b : Int)| ≤ 1 := by
    intro a b v ha hb
    rw [abs_lt] at ha hb
    have h1 : (a : ℚ) < b + 2 := by linarith [ha.2, hb.1]
    have h2 : (b : ℚ) < a + 2 := by linarith [ha.1, hb.2]
    have h1' : a < b + 2 := by exact_mod_cast h1
    have h2' : b < a + 2 := by exact_mod_cast h2
    rw [abs_le]
    omega
  exact ⟨fun h1 => key (h.q8 s q h0 h1).1 (h'.q8 s q h0 h1).1, fun h1 => key (h.q16 s q h0 h1).1 (h'.q16 s q h0 h1).1⟩

variable {p p2 : Platform} {simd scalar simd2 scalar2 : Libm} {src dst : Img} {sps dps : List Plane} {m m1 m2 : Mem}

/-- **C35**: RGB to YUV on two platforms gives samples that differ by at most one code. -/
theorem C35_rgb_to_yuv (r1 : Run (p.ieee simd scalar) src dst sps dps m m1) (r2 : Run (p2.ieee simd2 scalar2) src dst sps dps m m2)
    (hs : isYuv src.format = false) (hd : isYuv dst.format = true) {i : YuvColorInfo} (hi : dst.color = .YUV i)
    (ht : src.color.transfer = i.transfer) (hp : src.color.primaries = i.primaries) (hm : isMatrix i.space = true) {c : Chan}
    (hc : c = .Y ∨ c = .U ∨ c = .V) {x y : Nat} (hx : x < dst.width) (hy : y < dst.height) :
    ∃ n1 n2, sample dst.format dps m1 c x y = some n1 ∧ sample dst.format dps m2 c x y = some n2 ∧
      |(n1 : Int) - n2| ≤ 1 := by
  have hcol := column_ieee p simd scalar dst.width
  have hcol2 := column_ieee p2 simd2 scalar2 dst.width
  have hV := shown_depicts (w := src.width) (h := src.height) r1.returned.vsrc.fits.1 m
  obtain ⟨l, hl⟩ : ∃ l, sampleLoc dst.format c x y = some l := by
    revert hd; rcases hc with rfl | rfl | rfl <;> cases dst.format <;> simp [isYuv, sampleLoc]
  have hb : ¬ BadChroma src.format src.color dst.format dst.color := by
    rintro ⟨_, _, j, h1, h2⟩
    rw [hi] at h1; cases h1
    rw [hm] at h2; cases h2
  rw [r1.depicts hb hV c x y l hx hy hl, r2.depicts hb hV c x y l hx hy hl]
  refine ⟨_, _, rfl, rfl, ?_⟩
  have happ := rgb_app hcol hs (shown_le (rgb8 hs).1 sps m)
  obtain ⟨a1, a2⟩ := encode_app hcol exactAr_exact dst.format hm happ hc x y
  obtain ⟨b1, b2⟩ := encode_range exactAr_exact dst.format hm (fun c x y h => (happ c x y h).2) hc x y
  have hsc := scale_app (hcol x) dst.format a1 (by linarith) (by norm_num)
  simp only [converted, hi, converted_yuv hs hd ht hp, quantize, hd, Bool.true_eq_false, if_false]
  rw [← normalize_same hcol hcol2, ← encode_same hcol hcol2 _ hm, (hcol2 x).mul, ← (hcol x).mul]
  obtain ⟨s, q, hq, _, he⟩ := hsc
  rw [hq]
  have hM : 255 ≤ 2 ^ sampleBits dst.format - 1 ∧ 2 ^ sampleBits dst.format - 1 ≤ 4095 := by
    cases dst.format <;> simp [sampleBits]
  have hT8 : sampleBytes dst.format = 1 → 2 ^ sampleBits dst.format - 1 ≤ 255 := by
    cases dst.format <;> simp [sampleBytes, sampleBits]
  generalize 2 ^ sampleBits dst.format - 1 = M at *
  generalize encode exactAr dst.format i _ c x y = v at *
  have hM1 : (255 : ℝ) ≤ M := by exact_mod_cast hM.1
  have hM2 : (M : ℝ) ≤ 4095 := by exact_mod_cast hM.2
  have e1 : (4 / 10 ^ 6 + 61 / 10 ^ 8 : ℝ) * M < 1 / 2 := by norm_num; linarith
  have e3 : 0 ≤ v * M := by positivity
  have e4 : v * M ≤ M := by nlinarith
  rw [abs_le] at he
  have l1 : ((-1 / 2 : ℚ) : ℝ) ≤ (signed s q : ℝ) := by push_cast; linarith [he.1]
  have l2 : (signed s q : ℝ) < M + 1 / 2 := by linarith [he.2]
  have := quantize_near (hcol x) (hcol2 x) (s := s) (q := q) (by exact_mod_cast l1)
  split
  · rename_i h8
    have h9 : (M : ℝ) ≤ 255 := by exact_mod_cast hT8 h8
    have l3 : (signed s q : ℝ) < ((255 + 1 / 2 : ℚ) : ℝ) := by push_cast; linarith
    exact this.1 (by exact_mod_cast l3)
  · have l3 : (signed s q : ℝ) < ((65535 + 1 / 2 : ℚ) : ℝ) := by push_cast; linarith
    exact this.2 (by exact_mod_cast l3)

/-- **C35**: YUV to RGB on two platforms gives samples that differ by at most one code. -/
theorem C35_yuv_to_rgb (r1 : Run (p.ieee simd scalar) src dst sps dps m m1) (r2 : Run (p2.ieee simd2 scalar2) src dst sps dps m m2)
    (hs : isYuv src.format = true) (hd : isYuv dst.format = false) {i : YuvColorInfo} (hi : src.color = .YUV i)
    (ht : i.transfer = dst.color.transfer) (hp : i.primaries = dst.color.primaries) (hm : isMatrix i.space = true) {c : Chan}
    (hc : c = .R ∨ c = .G ∨ c = .B) {x y : Nat} (hx : x < dst.width) (hy : y < dst.height)
    (hV : InDepth src.format src.width src.height (shown src.format sps m)) :
    ∃ n1 n2, sample dst.format dps m1 c x y = some n1 ∧ sample dst.format dps m2 c x y = some n2 ∧
      |(n1 : Int) - n2| ≤ 1 := by
  have hcol := column_ieee p simd scalar dst.width
  have hcol2 := column_ieee p2 simd2 scalar2 dst.width
  have hret := r1.returned
  have hV' := shown_depicts (w := src.width) (h := src.height) hret.vsrc.fits.1 m
  obtain ⟨l, hl⟩ : ∃ l, sampleLoc dst.format c x y = some l := by
    revert hd; rcases hc with rfl | rfl | rfl <;> cases dst.format <;> simp [isYuv, sampleLoc]
  have hb : ¬ BadChroma src.format src.color dst.format dst.color := by
    rintro ⟨_, h, _⟩
    revert h hd; cases dst.format <;> simp [isYuv, vsub]
  rw [r1.depicts hb hV' c x y l hx hy hl, r2.depicts hb hV' c x y l hx hy hl]
  refine ⟨_, _, rfl, rfl, ?_⟩
  have hsamp : ∀ c, (c = .Y ∨ c = .U ∨ c = .V) →
      App (Spec.normalize (columnArith (p.ieee simd scalar) dst.width) src.format (shown src.format sps m) c x y)
        ((shown src.format sps m c x y : ℝ) / (2 ^ sampleBits src.format - 1 : Nat)) (1 / 10 ^ 7) ∧
      |(shown src.format sps m c x y : ℝ) / (2 ^ sampleBits src.format - 1 : Nat)| ≤ 1 := by
    intro c hc
    obtain ⟨l, hl⟩ : ∃ l, sampleLoc src.format c x y = some l := by
      revert hs; rcases hc with rfl | rfl | rfl <;> cases src.format <;> simp [isYuv, sampleLoc]
    have hm := max_lt src.format
    exact sample_app (hcol x) hm.1 (by omega) (hV c x y l (hret.width ▸ hx) (hret.height ▸ hy) hl)
  have e1 : ∀ ar : Nat → Arith F32, convertedF ar src.format src.color dst.format dst.color (shown src.format sps m) =
      decode ar i (Spec.normalize ar src.format (shown src.format sps m)) := by
    intro ar
    rw [convertedF, if_neg (by rintro ⟨h, _⟩; rw [h, hd] at hs; cases hs), adaptPic, hi, if_pos ⟨ht, hp⟩]
    simp only [readPic, hs, if_true]
    cases dst.color <;> simp [writePic, hd]
  obtain ⟨a1, a2⟩ := decode_app hcol exactAr_exact (q := fun c x y =>
    (shown src.format sps m c x y : ℝ) / (2 ^ sampleBits src.format - 1 : Nat)) hm hsamp hc
  have a3 := scale_app (hcol x) dst.format a1 (by linarith) (by norm_num)
  simp only [converted, e1, quantize, hd, if_true]
  rw [← normalize_same hcol hcol2, ← decode_same hcol hcol2 hm, (hcol2 x).mul, ← (hcol x).mul]
  rw [(rgb8 hd).2] at a3
  rw [abs_le] at a2
  generalize decode exactAr i _ c x y = v at *
  obtain ⟨s, q, hq, _, he⟩ := a3
  rw [hq]
  norm_num at he
  rw [abs_le] at he
  have l3 : (signed s q : ℝ) < ((32767 : ℚ) : ℝ) := by push_cast; linarith [he.2, a2.2]
  have k1 := stored_clamp p simd scalar dst.width x (v := .fin s q) rfl (by exact_mod_cast l3)
  have k2 := stored_clamp p2 simd2 scalar2 dst.width x (v := .fin s q) rfl (by exact_mod_cast l3)
  simp only [stored] at k1 k2
  generalize ((columnArith (p.ieee simd scalar) dst.width x).q8i (.fin s q)).toNat = n1 at *
  generalize ((columnArith (p2.ieee simd2 scalar2) dst.width x).q8i (.fin s q)).toNat = n2 at *
  rw [abs_lt] at k1 k2
  have h1 : (n1 : ℚ) < n2 + 2 := by linarith [k1.2, k2.1]
  have h2 : (n2 : ℚ) < n1 + 2 := by linarith [k1.1, k2.2]
  have h1' : n1 < n2 + 2 := by exact_mod_cast h1
  have h2' : n2 < n1 + 2 := by exact_mod_cast h2
  rw [abs_le]
  omega

/-- AVX2 and the scalar code, to limited-range BT.2020. -/
example (simd scalar simd2 scalar2 : Libm) (m : Mem) : ∃ m1 m2 n1 n2,
    sample .I010 (i012Planes 100) m1 .U 2 1 = some n1 ∧ sample .I010 (i012Planes 100) m2 .U 2 1 = some n2 ∧
    |(n1 : Int) - n2| ≤ 1 := by
  obtain ⟨m1, r1⟩ := rgb24_run .avx2 simd scalar m .BT2020 false
  obtain ⟨m2, r2⟩ := rgb24_run .scalar simd2 scalar2 m .BT2020 false
  exact ⟨m1, m2, C35_rgb_to_yuv r1 r2 rfl rfl rfl rfl rfl rfl (by simp) (by decide) (by decide)⟩

/-- And back. -/
example (simd scalar simd2 scalar2 : Libm) (m : Mem)
    (hV : InDepth .I010 4 2 (shown .I010 (i012Planes 100) m)) : ∃ m1 m2 n1 n2,
    sample .RGB [⟨⟨200, 24⟩, 12⟩] m1 .G 2 1 = some n1 ∧ sample .RGB [⟨⟨200, 24⟩, 12⟩] m2 .G 2 1 = some n2 ∧
    |(n1 : Int) - n2| ≤ 1 := by
  obtain ⟨m1, r1⟩ := i010_run .avx2 simd scalar m .BT2020 false
  obtain ⟨m2, r2⟩ := i010_run .neon simd2 scalar2 m .BT2020 false
  exact ⟨m1, m2, C35_yuv_to_rgb r1 r2 rfl rfl rfl rfl rfl rfl (by simp) (by decide) (by decide) hV⟩

end Ezk.Props

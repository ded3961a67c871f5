import Verif.Proofs.IctcpDecode
import Verif.Props.ChangeYuv

/-!
# C58: RGB images from ICtCp images, compared with BT.2100

What each platform stores, its own `ln`, `exp` and `pow` included.  BT.2100 gives `I`, `CT`, `CP` as functions of the cone signals
`L'`, `M'`, `S'`, and the cone responses as functions of light; the theorems say which light is stored by naming its cone signals.
-/

namespace Ezk.Props
open Ezk F32 Spec

variable {p : Platform} {scalar : Libm} {src dst : Img} {sps dps : List Plane} {m m' : Mem}

/-- `I`, `CT`, `CP` that the samples of the pixel `(x, y)` stand for. -/
noncomputable def ictcpCodes (f : PixelFormat) (full : Bool) (V : Pic Nat) (x y : Nat) : ℝ × ℝ × ℝ :=
  (lumaOf full (2 ^ sampleBits f - 1) (V .Y x y), chromaOfCode full (2 ^ sampleBits f - 1) (V .U x y),
    chromaOfCode full (2 ^ sampleBits f - 1) (V .V x y))

/-- `I`, `CT`, `CP` of cone signals, for the system with the transfer function `t`. -/
noncomputable def ictcpOf (t : ColorTransfer) (q : ℝ × ℝ × ℝ) : ℝ × ℝ × ℝ :=
  if t = .BT2100PQ then Standard.ictcpOfPq q else Standard.ictcpOfHlg q

/-- The largest of three numbers. -/
noncomputable def largest (q : ℝ × ℝ × ℝ) : ℝ := max q.1 (max q.2.1 q.2.2)

/-- Each of three numbers is at least 0 and at most 1. -/
def InUnit (q : ℝ × ℝ × ℝ) : Prop := (0 ≤ q.1 ∧ q.1 ≤ 1) ∧ (0 ≤ q.2.1 ∧ q.2.1 ≤ 1) ∧ (0 ≤ q.2.2 ∧ q.2.2 ≤ 1)

/-- Cone signals `s` that are not negative and differ from `q` by at most 3·10⁻⁶. -/
def NearSignals (s q : ℝ × ℝ × ℝ) : Prop :=
  (0 ≤ s.1 ∧ |s.1 - q.1| ≤ 3 / 10 ^ 6) ∧ (0 ≤ s.2.1 ∧ |s.2.1 - q.2.1| ≤ 3 / 10 ^ 6) ∧ (0 ≤ s.2.2 ∧ |s.2.2 - q.2.2| ≤ 3 / 10 ^ 6)

/-- How far the light of a component may be from that of BT.2100, `K` being the largest cone response. -/
noncomputable def lightError (t : ColorTransfer) (K : ℝ) : ℝ :=
  if t = .BT2100PQ then 36 / 10 ^ 4 * K + 2 / 10 ^ 7 else 3 / 10 ^ 4 * K + 3 / 10 ^ 5

theorem le_largest (q : ℝ × ℝ × ℝ) : q.1 ≤ largest q ∧ q.2.1 ≤ largest q ∧ q.2.2 ≤ largest q :=
  ⟨le_max_left _ _, (le_max_left _ _).trans (le_max_right _ _), (le_max_right _ _).trans (le_max_right _ _)⟩

theorem largest_le {q : ℝ × ℝ × ℝ} {K : ℝ} (h1 : q.1 ≤ K) (h2 : q.2.1 ≤ K) (h3 : q.2.2 ≤ K) : largest q ≤ K :=
  max_le h1 (max_le h2 h3)

/-- RGB light computed from the light of the cones. -/
theorem light_of_cones {ar : Arith F32} {rr : Arith ℝ} (hi : IsIeee ar) (he : Exact rr) {t : ColorTransfer} {c : C3 F32} {L : ℝ × ℝ × ℝ}
    {e : ℝ} (ht : (t = .BT2100PQ ∧ e = 54 / 10 ^ 5 * largest L + 2 / 10 ^ 8 ∧ largest L ≤ 10000) ∨
      (t = .BT2100HLG ∧ e = 35 / 10 ^ 7 ∧ largest L ≤ 11 / 10))
    (h0 : 0 ≤ L.1 ∧ 0 ≤ L.2.1 ∧ 0 ≤ L.2.2) (h1 : App c.1 L.1 e) (h2 : App c.2.1 L.2.1 e) (h3 : App c.2.2 L.2.2 e) :
    ∃ rgb, Standard.lms rgb = L ∧ ∀ k, k = Chan.R ∨ k = Chan.G ∨ k = Chan.B →
      ∃ X : ℚ, Is (component (rowMul ar (ofLms ar c) ColorPrimaries.BT2020.xyzToRgbMat) k) X ∧
        Good (component (rowMul ar (ofLms ar c) ColorPrimaries.BT2020.xyzToRgbMat) k) ∧
        |(X : ℝ) - component rgb k| ≤ lightError t (largest L) - 1 / 10 ^ 8 ∧ |component rgb k| ≤ 351 / 100 * largest L := by
  obtain ⟨rgb, hrgb⟩ := lms_surjective L
  refine ⟨rgb, hrgb, ?_⟩
  obtain ⟨l1, l2, l3⟩ := le_largest L
  obtain ⟨P, hP, dP⟩ := h1.is
  obtain ⟨Q, hQ, dQ⟩ := h2.is
  obtain ⟨R, hR, dR⟩ := h3.is
  generalize largest L = K at *
  have K0 : 0 ≤ K := h0.1.trans l1
  have dP' := abs_le.mp dP
  have dQ' := abs_le.mp dQ
  have dR' := abs_le.mp dR
  have e0 : 0 ≤ e := (abs_nonneg _).trans dP
  have hS : K + e ≤ 20000 := by rcases ht with ⟨-, rfl, h⟩ | ⟨-, rfl, h⟩ <;> norm_num <;> linarith
  obtain ⟨r, g, b⟩ := rgb
  obtain ⟨A, B, C, hA, hB, hC, dA, dB, dC⟩ := rgb_round hi he hP hQ hR (S := K + e)
    (by rw [abs_le]; constructor <;> linarith [h0.1]) (by rw [abs_le]; constructor <;> linarith [h0.2.1])
    (by rw [abs_le]; constructor <;> linarith [h0.2.2]) hS
  obtain ⟨⟨s1, s2, s3⟩, b1, b2, b3⟩ := rgb_std he (r := r) (g := g) (b := b) (l := (P : ℝ)) (m := (Q : ℝ)) (s := (R : ℝ)) (x := K) (a := e)
    (by rw [hrgb]; exact ⟨h0.1, l1⟩) (by rw [hrgb]; exact ⟨h0.2.1, l2⟩) (by rw [hrgb]; exact ⟨h0.2.2, l3⟩)
    (by rw [hrgb]; exact dP) (by rw [hrgb]; exact dQ) (by rw [hrgb]; exact dR)
  have key : 5 / 10 ^ 6 * (K + e) + 1 / 10 ^ 36 + (277 / 10 ^ 6 * K + 6013 / 1000 * e) ≤ lightError t K - 1 / 10 ^ 8 := by
    unfold lightError
    rcases ht with ⟨rfl, rfl, h⟩ | ⟨rfl, rfl, h⟩
    · rw [if_pos rfl]; norm_num; linarith
    · rw [if_neg nofun]; norm_num; linarith
  have tri : ∀ {u v w : ℝ}, |u - v| ≤ 5 / 10 ^ 6 * (K + e) + 1 / 10 ^ 36 → |v - w| ≤ 277 / 10 ^ 6 * K + 6013 / 1000 * e →
      |u - w| ≤ lightError t K - 1 / 10 ^ 8 := by
    intro u v w a b
    exact (abs_sub_le u v w).trans ((add_le_add a b).trans key)
  rintro k (rfl | rfl | rfl)
  · exact ⟨A, hA, good_dot hi, tri dA s1, b1⟩
  · exact ⟨B, hB, good_dot hi, tri dB s2, b2⟩
  · exact ⟨C, hC, good_dot hi, tri dC s3, b3⟩

/-- The encoded signal of a light. -/
theorem light_encodes {ar : Arith F32} {rr : Arith ℝ} (he : Exact rr) (hf : Floats ar) {t : ColorTransfer} {v : F32} {X : ℚ} (hx : Is v X)
    (hg : Good v) (h : (t = .BT2100PQ ∧ |(X : ℝ)| ≤ 36000) ∨ (t = .BT2100HLG ∧ |(X : ℝ)| ≤ 19900)) :
    ∃ l, 0 ≤ l ∧ |l - max 0 (X : ℝ)| ≤ 1 / 10 ^ 8 ∧ EncodesTo rr t (encodeTransfer ar t v) l := by
  rcases h with ⟨rfl, h⟩ | ⟨rfl, h⟩ <;> rw [abs_le] at h
  · have h2 : (X : ℝ) ≤ ((36000 : ℚ) : ℝ) := by push_cast; exact h.2
    exact ⟨_, le_max_left _ _, by simp, enc_pq_any he hf hx hg (by exact_mod_cast h2)⟩
  · have h1 : ((-19900 : ℚ) : ℝ) ≤ X := by push_cast; exact h.1
    have h2 : (X : ℝ) ≤ ((19900 : ℚ) : ℝ) := by push_cast; exact h.2
    exact enc_any he hf .BT2100HLG hx hg (by exact_mod_cast h1) (by exact_mod_cast h2)

/-- The PQ signal of more than 10000 cd/m². -/
theorem toSignal_pq_over {l : ℝ} (h : 10000 ≤ l) : 1 ≤ Standard.toSignal .BT2100PQ l := by
  simp only [Standard.toSignal]
  have m0 : 0 ≤ Standard.m1 := by unfold Standard.m1; norm_num
  have m2 : 0 ≤ Standard.m2 := by unfold Standard.m2; norm_num
  have z1 : 1 ≤ (l / 10000) ^ Standard.m1 := Real.one_le_rpow (by rw [le_div_iff₀ (by norm_num)]; linarith) m0
  generalize (l / 10000) ^ Standard.m1 = z at *
  refine Real.one_le_rpow ?_ m2
  unfold Standard.c1 Standard.c2 Standard.c3
  rw [le_div_iff₀ (by linarith)]
  linarith

/-- The codes of the encoders of the source and of BT.2100. -/
theorem signal_close {rr : Arith ℝ} (he : Exact rr) {t : ColorTransfer} (ht : t = .BT2100PQ ∨ t = .BT2100HLG) {l : ℝ} (h0 : 0 ≤ l) :
    |clamp255 (encodeTransfer rr t l * 255) - clamp255 (Standard.toSignal t l * 255)| ≤ if t = .BT2100PQ then 26 / 10 ^ 4 else 3 / 10 ^ 5 := by
  have close : ∀ {a b d : ℝ}, |a - b| ≤ d → |clamp255 (a * 255) - clamp255 (b * 255)| ≤ d * 255 := by
    intro a b d h
    refine (clamp_lipschitz _ _).trans ?_
    rw [← sub_mul, abs_mul, abs_of_nonneg (show (0 : ℝ) ≤ 255 by norm_num)]
    exact mul_le_mul_of_nonneg_right h (by norm_num)
  rcases ht with rfl | rfl
  · rw [if_pos rfl]
    rcases le_or_gt l 10000 with h1 | h1
    · exact (close (std_enc_pq he h0 h1)).trans (by norm_num)
    · have top : ∀ {a : ℝ}, 1 ≤ a → clamp255 (a * 255) = 255 := by
        intro a h
        unfold clamp255
        rw [min_eq_left (by linarith), max_eq_right (by norm_num)]
      rw [top (enc_pq_over he h1.le), top (toSignal_pq_over h1.le)]
      norm_num
  · rw [if_neg nofun]
    exact (close (std_enc_hlg he h0)).trans (by norm_num)

/-- What is stored of an RGB image converted from YUV without change of transfer function and primaries. -/
theorem yuv_same_pick (r : Run (p.real scalar) src dst sps dps m m') (hs : isYuv src.format = true)
    (hd : isYuv dst.format = false) {i : YuvColorInfo} (hi : src.color = .YUV i)
    (ht : i.transfer = dst.color.transfer) (hp : i.primaries = dst.color.primaries)
    {c : Chan} (hc : c = .R ∨ c = .G ∨ c = .B) {x y : Nat} (hx : x < dst.width) (hy : y < dst.height) :
    sample dst.format dps m' c x y = some (stored p (p.libm scalar) scalar dst.width x .interleaved8
      ((columnArith (p.real scalar) dst.width x).mul (decode (columnArith (p.real scalar) dst.width) i (Spec.normalize
        (columnArith (p.real scalar) dst.width) src.format (shown src.format sps m)) c x y) (maxSample dst.format))) := by
  have hV := shown_depicts (w := src.width) (h := src.height) r.returned.vsrc.fits.1 m
  obtain ⟨a, hl⟩ : ∃ a, sampleLoc dst.format c x y = some a := by
    revert hd; rcases hc with rfl | rfl | rfl <;> cases dst.format <;> simp [isYuv, sampleLoc]
  have hb : ¬ BadChroma src.format src.color dst.format dst.color := by
    rintro ⟨_, h, _⟩
    revert h hd; cases dst.format <;> simp [isYuv, vsub]
  rw [r.depicts hb hV c x y a hx hy hl]
  have e1 : convertedF (columnArith (p.real scalar) dst.width) src.format src.color dst.format dst.color
      (shown src.format sps m) = decode (columnArith (p.real scalar) dst.width) i
        (Spec.normalize (columnArith (p.real scalar) dst.width) src.format (shown src.format sps m)) := by
    rw [convertedF, if_neg (by rintro ⟨h, _⟩; rw [h, hd] at hs; cases hs), adaptPic, hi, if_pos ⟨ht, hp⟩]
    simp only [readPic, hs, if_true]
    cases dst.color <;> simp [writePic, hd]
  rw [converted, e1]
  simp only [quantize, hd, if_true]
  rfl

/-- The samples of a pixel as intensity and chroma. -/
theorem codes_app {ar : Nat → Arith F32} (hcol : ∀ x, IsIeee (ar x)) {f : PixelFormat} (hs : isYuv f = true) {w h : Nat} {V : Pic Nat}
    (hV : InDepth f w h V) {x y : Nat} (hx : x < w) (hy : y < h) (full : Bool) :
    (App (expandLuma (ar x) full (Spec.normalize ar f V .Y x y)) (ictcpCodes f full V x y).1 (5 / 10 ^ 7) ∧
      |(ictcpCodes f full V x y).1| ≤ 13 / 10) ∧
    (App (expandChroma (ar x) full (Spec.normalize ar f V .U x y)) (ictcpCodes f full V x y).2.1 (7 / 10 ^ 7) ∧
      |(ictcpCodes f full V x y).2.1| ≤ 18 / 10) ∧
    (App (expandChroma (ar x) full (Spec.normalize ar f V .V x y)) (ictcpCodes f full V x y).2.2 (7 / 10 ^ 7) ∧
      |(ictcpCodes f full V x y).2.2| ≤ 18 / 10) := by
  have el : ∀ u : ℝ, expandLuma (exactAr x) full (u / (2 ^ sampleBits f - 1 : Nat)) = lumaOf full (2 ^ sampleBits f - 1) u := by
    intro u
    cases full
    · simp only [expandLuma, lumaOf, Bool.false_eq_true, if_false, (exactAr_exact x).sub, (exactAr_exact x).mul, lit_real,
        div_real]
      norm_num only [Rat.cast_ofScientific]
      ring
    · simp [expandLuma, lumaOf]
  have ec : ∀ u : ℝ, expandChroma (exactAr x) full (u / (2 ^ sampleBits f - 1 : Nat)) = chromaOfCode full (2 ^ sampleBits f - 1) u := by
    intro u
    cases full
    · simp only [expandChroma, chromaOfCode, Bool.false_eq_true, if_false, (exactAr_exact x).sub, (exactAr_exact x).mul,
        lit_real, div_real]
      norm_num only [Rat.cast_ofScientific]
      ring
    · simp only [expandChroma, chromaOfCode, if_true, (exactAr_exact x).sub, lit_real]
      norm_num only [Rat.cast_ofScientific]
  have un : ∀ {v : ℝ}, 0 ≤ v → v ≤ 1 → |v| ≤ 1 := fun a b => by rw [abs_of_nonneg a]; exact b
  obtain ⟨y1, y2, y3⟩ := yuv_samples hcol hs hV hx hy (c := .Y) (.inl rfl)
  obtain ⟨u1, u2, u3⟩ := yuv_samples hcol hs hV hx hy (c := .U) (.inr (.inl rfl))
  obtain ⟨v1, v2, v3⟩ := yuv_samples hcol hs hV hx hy (c := .V) (.inr (.inr rfl))
  have a := expandLuma_app (hcol x) (exactAr_exact x) full y1 (un y2 y3)
  have b := expandChroma_app (hcol x) (exactAr_exact x) full u1 (un u2 u3)
  have c := expandChroma_app (hcol x) (exactAr_exact x) full v1 (un v2 v3)
  rw [el] at a
  rw [ec] at b c
  exact ⟨a, b, c⟩

/-- The light of the cones as computed, and the signals it belongs to. -/
theorem cones_light {ar : Arith F32} {rr : Arith ℝ} (he : Exact rr) (hf : Floats ar) {cs : ColorSpace} {t : ColorTransfer}
    (hsys : (cs = .ICtCpPQ ∧ t = .BT2100PQ) ∨ (cs = .ICtCpHLG ∧ t = .BT2100HLG)) {y u v : F32} {q : ℝ × ℝ × ℝ} (hq : InUnit q)
    (hy : App y (ictcpOf t q).1 (5 / 10 ^ 7) ∧ |(ictcpOf t q).1| ≤ 13 / 10)
    (hu : App u (ictcpOf t q).2.1 (7 / 10 ^ 7) ∧ |(ictcpOf t q).2.1| ≤ 18 / 10)
    (hv : App v (ictcpOf t q).2.2 (7 / 10 ^ 7) ∧ |(ictcpOf t q).2.2| ≤ 18 / 10) :
    ∃ (s : ℝ × ℝ × ℝ) (c : C3 F32) (e : ℝ), NearSignals s q ∧
      yuvToRgb ar cs t .BT2020 (y, u, v) = map3 (encodeTransfer ar t) (rowMul ar (ofLms ar c) ColorPrimaries.BT2020.xyzToRgbMat) ∧
      (let L := map3 (Standard.toLight t) s
       ((t = .BT2100PQ ∧ e = 54 / 10 ^ 5 * largest L + 2 / 10 ^ 8 ∧ largest L ≤ 10000) ∨
         (t = .BT2100HLG ∧ e = 35 / 10 ^ 7 ∧ largest L ≤ 11 / 10)) ∧
       (0 ≤ L.1 ∧ 0 ≤ L.2.1 ∧ 0 ≤ L.2.2) ∧ App c.1 L.1 e ∧ App c.2.1 L.2.1 e ∧ App c.2.2 L.2.2 e) := by
  have hi := hf.toIsIeee
  obtain ⟨q1, q2, q3⟩ := hq
  have good : ∀ y u a v b : F32, Good (ict ar y u a v b) := by
    intro y u a v b; rw [ict, hi.add]; exact good_add_any _ _
  obtain ⟨kp, kh⟩ := cones_app hi he (y := y) (u := u) (v := v) q1 q2 q3
  rcases hsys with ⟨rfl, rfl⟩ | ⟨rfl, rfl⟩
  · simp only [ictcpOf, if_true] at hy hu hv
    obtain ⟨a1, a2, a3⟩ := kp hy.1 hy.2 hu.1 hu.2 hv.1 hv.2
    obtain ⟨X, hX, dX⟩ := a1.is
    obtain ⟨Y, hY, dY⟩ := a2.is
    obtain ⟨Z, hZ, dZ⟩ := a3.is
    obtain ⟨s1, n1, p1, o1, l1⟩ := cone_light_pq he hf hX (good _ _ _ _ _) q1.1 q1.2 dX
    obtain ⟨s2, n2, p2, o2, l2⟩ := cone_light_pq he hf hY (good _ _ _ _ _) q2.1 q2.2 dY
    obtain ⟨s3, n3, p3, o3, l3⟩ := cone_light_pq he hf hZ (good _ _ _ _ _) q3.1 q3.2 dZ
    obtain ⟨t1, t1'⟩ := toLight_pq_le p1 o1
    obtain ⟨t2, t2'⟩ := toLight_pq_le p2 o2
    obtain ⟨t3, t3'⟩ := toLight_pq_le p3 o3
    have hL := le_largest (Standard.toLight .BT2100PQ s1, Standard.toLight .BT2100PQ s2, Standard.toLight .BT2100PQ s3)
    have wide : ∀ {z : F32} {w K : ℝ}, App z w (54 / 10 ^ 5 * w + 2 / 10 ^ 8) → w ≤ K → App z w (54 / 10 ^ 5 * K + 2 / 10 ^ 8) := by
      intro z w K h hw
      exact h.mono (by norm_num; linarith)
    exact ⟨(s1, s2, s3), _, _, ⟨⟨p1, n1⟩, ⟨p2, n2⟩, ⟨p3, n3⟩⟩, rfl, .inl ⟨rfl, rfl, largest_le t1' t2' t3'⟩, ⟨t1, t2, t3⟩,
      wide l1 hL.1, wide l2 hL.2.1, wide l3 hL.2.2⟩
  · simp only [ictcpOf, reduceCtorEq, if_false] at hy hu hv
    obtain ⟨a1, a2, a3⟩ := kh hy.1 hy.2 hu.1 hu.2 hv.1 hv.2
    obtain ⟨X, hX, dX⟩ := a1.is
    obtain ⟨Y, hY, dY⟩ := a2.is
    obtain ⟨Z, hZ, dZ⟩ := a3.is
    obtain ⟨s1, n1, p1, o1, l1⟩ := cone_light_hlg he hf hX (good _ _ _ _ _) q1.1 q1.2 dX
    obtain ⟨s2, n2, p2, o2, l2⟩ := cone_light_hlg he hf hY (good _ _ _ _ _) q2.1 q2.2 dY
    obtain ⟨s3, n3, p3, o3, l3⟩ := cone_light_hlg he hf hZ (good _ _ _ _ _) q3.1 q3.2 dZ
    obtain ⟨t1, t1'⟩ := toLight_hlg_over p1 o1
    obtain ⟨t2, t2'⟩ := toLight_hlg_over p2 o2
    obtain ⟨t3, t3'⟩ := toLight_hlg_over p3 o3
    exact ⟨(s1, s2, s3), _, _, ⟨⟨p1, n1⟩, ⟨p2, n2⟩, ⟨p3, n3⟩⟩, rfl, .inr ⟨rfl, rfl, largest_le t1' t2' t3'⟩, ⟨t1, t2, t3⟩, l1, l2, l3⟩

/-- **C58**. The light that an ICtCp image shows at a pixel, stored in an RGB image of the same transfer function and primaries.
If `I`, `CT`, `CP` of the pixel are those of the cone signals `q`, then every component stored is, within 1.03 codes (HLG: 1.002), the
signal of a light that differs from that of BT.2100 by at most 0.4% (HLG: 0.03%) of the largest cone response, for cone signals that
differ from `q` by at most 3·10⁻⁶; components of negative light count as 0. -/
theorem C58_light (r : Run (p.real scalar) src dst sps dps m m') (ha : scalar.Accurate) (hs : isYuv src.format = true)
    (hd : isYuv dst.format = false) {i : YuvColorInfo} (hi : src.color = .YUV i)
    (ht : i.transfer = dst.color.transfer) (hp : i.primaries = dst.color.primaries) (hprim : i.primaries = .BT2020)
    (hsys : (i.space = .ICtCpPQ ∧ i.transfer = .BT2100PQ) ∨ (i.space = .ICtCpHLG ∧ i.transfer = .BT2100HLG))
    (hV : InDepth src.format src.width src.height (shown src.format sps m))
    {x y : Nat} (hx : x < dst.width) (hy : y < dst.height) {q : ℝ × ℝ × ℝ} (hq : InUnit q)
    (hc : ictcpOf i.transfer q = ictcpCodes src.format i.fullRange (shown src.format sps m) x y) :
    ∃ s rgb : ℝ × ℝ × ℝ, NearSignals s q ∧ Standard.lms rgb = map3 (Standard.toLight i.transfer) s ∧
      ∀ c, c = .R ∨ c = .G ∨ c = .B → ∃ (n : Nat) (l : ℝ), sample dst.format dps m' c x y = some n ∧ 0 ≤ l ∧
        |l - max 0 (component rgb c)| ≤ lightError i.transfer (largest (Standard.lms rgb)) ∧
        |(n : ℝ) - clamp255 (Standard.toSignal i.transfer l * 255)| < if i.transfer = .BT2100PQ then 1 + 3 / 100 else 1 + 2 / 1000 := by
  have hcol : ∀ x, IsIeee (columnArith (p.real scalar) dst.width x) := column_ieee p (p.libm scalar) scalar dst.width
  have hf := column_floats p ha dst.width x
  obtain ⟨a1, a2, a3⟩ := codes_app hcol hs hV (r.returned.width ▸ hx) (r.returned.height ▸ hy) i.fullRange
  rw [← hc] at a1 a2 a3
  obtain ⟨s, f, e, hn, hyuv, hl, h0, b1, b2, b3⟩ := cones_light (exactAr_exact x) hf hsys hq a1 a2 a3
  obtain ⟨rgb, hrgb, hlight⟩ := light_of_cones hf.toIsIeee (exactAr_exact x) hl h0 b1 b2 b3
  refine ⟨s, rgb, hn, hrgb, fun c hc => ?_⟩
  obtain ⟨X, hX, hg, hd1, hd2⟩ := hlight c hc
  rw [hrgb]
  have hsz : (i.transfer = .BT2100PQ ∧ |(X : ℝ)| ≤ 36000) ∨ (i.transfer = .BT2100HLG ∧ |(X : ℝ)| ≤ 19900) := by
    have t1 := abs_sub_abs_le_abs_sub (X : ℝ) (component rgb c)
    unfold lightError at hd1
    rcases hl with ⟨h, -, hK⟩ | ⟨h, -, hK⟩
    · rw [if_pos h] at hd1
      norm_num at hd1
      exact .inl ⟨h, by linarith⟩
    · rw [if_neg (by rw [h]; nofun)] at hd1
      norm_num at hd1
      exact .inr ⟨h, by linarith⟩
  obtain ⟨l, l0, hl1, hen⟩ := light_encodes (exactAr_exact x) hf hX hg hsz
  have hpick := yuv_same_pick r hs hd hi ht hp hc hx hy
  have hdec : decode (columnArith (p.real scalar) dst.width) i (Spec.normalize (columnArith (p.real scalar) dst.width) src.format
      (shown src.format sps m)) c x y = encodeTransfer (columnArith (p.real scalar) dst.width x) i.transfer
        (component (rowMul (columnArith (p.real scalar) dst.width x) (ofLms (columnArith (p.real scalar) dst.width x) f)
          ColorPrimaries.BT2020.xyzToRgbMat) c) := by
    simp only [decode, hprim, hyuv]
    rcases hc with rfl | rfl | rfl <;> rfl
  rw [hdec] at hpick
  refine ⟨_, l, hpick, l0, ?_, ?_⟩
  · have h4 : |max 0 (X : ℝ) - max 0 (component rgb c)| ≤ |(X : ℝ) - component rgb c| := by
      rw [max_comm 0, max_comm 0]; exact abs_max_sub_max_le_abs _ _ 0
    have h5 := abs_sub_le l (max 0 (X : ℝ)) (max 0 (component rgb c))
    linarith
  · have hne : i.transfer ≠ .Linear := by rcases hl with ⟨h, -⟩ | ⟨h, -⟩ <;> rw [h] <;> nofun
    have h1 := stored_encodes hen p (p.libm scalar) scalar dst.width x hd (fun h => absurd h hne)
    have h2 := signal_close (exactAr_exact x) (hl.imp And.left And.left) l0
    refine (abs_sub_le _ _ _).trans_lt ((add_lt_add_of_lt_of_le h1 h2).trans_le ?_)
    unfold storeTolerance
    split <;> norm_num

/-- A grey has the same three cone signals. -/
theorem ictcpOf_grey (t : ColorTransfer) (g : ℝ) : ictcpOf t (g, g, g) = (g, 0, 0) := by
  unfold ictcpOf Standard.ictcpOfPq Standard.ictcpOfHlg
  split <;> simp only [Prod.mk.injEq] <;> refine ⟨?_, ?_, ?_⟩ <;> ring

/-- **C58** for greys of 8 bits and limited range, which are the pixels with the chroma codes 128. -/
theorem C58_grey (r : Run (p.real scalar) src dst sps dps m m') (ha : scalar.Accurate) (hs : isYuv src.format = true)
    (hd : isYuv dst.format = false) {i : YuvColorInfo} (hi : src.color = .YUV i)
    (ht : i.transfer = dst.color.transfer) (hp : i.primaries = dst.color.primaries) (hprim : i.primaries = .BT2020)
    (hsys : (i.space = .ICtCpPQ ∧ i.transfer = .BT2100PQ) ∨ (i.space = .ICtCpHLG ∧ i.transfer = .BT2100HLG))
    (hbits : sampleBits src.format = 8) (hlim : i.fullRange = false) {x y Y : Nat} (hx : x < dst.width) (hy : y < dst.height)
    (hY : shown src.format sps m .Y x y = Y) (h16 : 16 ≤ Y) (h235 : Y ≤ 235)
    (hU : shown src.format sps m .U x y = 128) (hW : shown src.format sps m .V x y = 128) :
    ∃ s rgb : ℝ × ℝ × ℝ, NearSignals s (((Y : ℝ) - 16) / 219, ((Y : ℝ) - 16) / 219, ((Y : ℝ) - 16) / 219) ∧
      Standard.lms rgb = map3 (Standard.toLight i.transfer) s ∧
      ∀ c, c = .R ∨ c = .G ∨ c = .B → ∃ (n : Nat) (l : ℝ), sample dst.format dps m' c x y = some n ∧ 0 ≤ l ∧
        |l - max 0 (component rgb c)| ≤ lightError i.transfer (largest (Standard.lms rgb)) ∧
        |(n : ℝ) - clamp255 (Standard.toSignal i.transfer l * 255)| < if i.transfer = .BT2100PQ then 1 + 3 / 100 else 1 + 2 / 1000 := by
  have hV : InDepth src.format src.width src.height (shown src.format sps m) := fun c x y l hx hy hl => by
    have hb : sampleBytes src.format = 1 := by revert hbits; cases src.format <;> decide
    have := shown_le hb sps m c x y
    rw [hbits]; omega
  have a : (16 : ℝ) ≤ Y := by exact_mod_cast h16
  have b : (Y : ℝ) ≤ 235 := by exact_mod_cast h235
  have u : 0 ≤ ((Y : ℝ) - 16) / 219 ∧ ((Y : ℝ) - 16) / 219 ≤ 1 := by
    constructor
    · apply div_nonneg <;> linarith
    · rw [div_le_one (by norm_num)]; linarith
  refine C58_light r ha hs hd hi ht hp hprim hsys hV hx hy ⟨u, u, u⟩ ?_
  rw [ictcpOf_grey, ictcpCodes, hbits, hlim, hY, hU, hW]
  simp only [lumaOf, chromaOfCode, Bool.false_eq_true, if_false, Prod.mk.injEq]
  norm_num
  ring

/-! ## Examples -/

/-- A PQ picture of 4:2:0 ICtCp, limited range, on NEON: its pixel `(5, 1)` has the codes 150, 128, 128. -/
example : ∃ (m' : Mem) (s rgb : ℝ × ℝ × ℝ), NearSignals s (134 / 219, 134 / 219, 134 / 219) ∧
    Standard.lms rgb = map3 (Standard.toLight .BT2100PQ) s ∧ ∃ (n : Nat) (l : ℝ), sample .RGB [⟨⟨100, 96⟩, 48⟩] m' .G 5 1 = some n ∧
      0 ≤ l ∧ |l - max 0 rgb.2.1| ≤ 36 / 10 ^ 4 * largest (Standard.lms rgb) + 2 / 10 ^ 7 ∧
      |(n : ℝ) - clamp255 (Standard.toSignal .BT2100PQ l * 255)| < 1 + 3 / 100 := by
  obtain ⟨scalar, ha⟩ := libm_exists
  obtain ⟨m', r⟩ := run_exists (c := Platform.neon.real scalar) (platform_lawful .neon _ _)
    (src := .raw .NV12 16 2 [⟨⟨0, 32⟩, 16⟩, ⟨⟨40, 16⟩, 16⟩] (.YUV ⟨.BT2100PQ, .BT2020, .ICtCpPQ, false⟩))
    (dst := .raw .RGB 16 2 [⟨⟨100, 96⟩, 48⟩] (.RGB ⟨.BT2100PQ, .BT2020⟩))
    (sps := [⟨⟨0, 32⟩, 16⟩, ⟨⟨40, 16⟩, 16⟩]) (dps := [⟨⟨100, 96⟩, 48⟩]) rfl rfl
    (planesDisjoint_of (by decide)) (separate_of (by decide)) (uniform_of (by decide)) (by decide)
    (fun a => if a < 40 then 150 else 128)
  obtain ⟨s, rgb, h1, h2, h3⟩ := C58_grey r ha rfl rfl rfl rfl rfl rfl (.inl ⟨rfl, rfl⟩) rfl rfl (x := 5) (y := 1) (Y := 150) (by decide)
    (by decide) (by decide) (by decide) (by decide) (by decide) (by decide)
  obtain ⟨n, l, h4, h5, h6, h7⟩ := h3 .G (.inr (.inl rfl))
  refine ⟨m', s, rgb, ?_, h2, n, l, h4, h5, h6, h7⟩
  norm_num at h1
  exact h1

/-- A reddish colour of a PQ picture of 4:2:0 ICtCp, limited range, on AVX2: the codes 90, 110, 170 are those of different cone signals. -/
example : ∃ (m' : Mem) (s rgb : ℝ × ℝ × ℝ),
    NearSignals s (70897624654 / 198023786457, 62926669390 / 198023786457, 46095864142 / 198023786457) ∧
    Standard.lms rgb = map3 (Standard.toLight .BT2100PQ) s ∧ ∃ (n : Nat) (l : ℝ), sample .RGB [⟨⟨100, 96⟩, 48⟩] m' .R 5 1 = some n ∧
      0 ≤ l ∧ |l - max 0 rgb.1| ≤ 36 / 10 ^ 4 * largest (Standard.lms rgb) + 2 / 10 ^ 7 ∧
      |(n : ℝ) - clamp255 (Standard.toSignal .BT2100PQ l * 255)| < 1 + 3 / 100 := by
  obtain ⟨scalar, ha⟩ := libm_exists
  let mem : Mem := fun a => if a < 40 then 90 else if a % 2 = 0 then 110 else 170
  obtain ⟨m', r⟩ := run_exists (c := Platform.avx2.real scalar) (platform_lawful .avx2 _ _)
    (src := .raw .NV12 16 2 [⟨⟨0, 32⟩, 16⟩, ⟨⟨40, 16⟩, 16⟩] (.YUV ⟨.BT2100PQ, .BT2020, .ICtCpPQ, false⟩))
    (dst := .raw .RGB 16 2 [⟨⟨100, 96⟩, 48⟩] (.RGB ⟨.BT2100PQ, .BT2020⟩))
    (sps := [⟨⟨0, 32⟩, 16⟩, ⟨⟨40, 16⟩, 16⟩]) (dps := [⟨⟨100, 96⟩, 48⟩]) rfl rfl
    (planesDisjoint_of (by decide)) (separate_of (by decide)) (uniform_of (by decide)) (by decide) mem
  have hY : shown .NV12 [⟨⟨0, 32⟩, 16⟩, ⟨⟨40, 16⟩, 16⟩] mem .Y 5 1 = 90 := by decide
  have hU : shown .NV12 [⟨⟨0, 32⟩, 16⟩, ⟨⟨40, 16⟩, 16⟩] mem .U 5 1 = 110 := by decide
  have hW : shown .NV12 [⟨⟨0, 32⟩, 16⟩, ⟨⟨40, 16⟩, 16⟩] mem .V 5 1 = 170 := by decide
  have e : ictcpOf .BT2100PQ (70897624654 / 198023786457, 62926669390 / 198023786457, 46095864142 / 198023786457) =
      ictcpCodes .NV12 false (shown .NV12 [⟨⟨0, 32⟩, 16⟩, ⟨⟨40, 16⟩, 16⟩] mem) 5 1 := by
    rw [ictcpCodes, hY, hU, hW]
    simp only [ictcpOf, if_true, Standard.ictcpOfPq, lumaOf, chromaOfCode, sampleBits, Bool.false_eq_true, if_false, Prod.mk.injEq]
    norm_num
  obtain ⟨s, rgb, h1, h2, h3⟩ := C58_light r ha rfl rfl rfl rfl rfl rfl (.inl ⟨rfl, rfl⟩)
    (fun c x y l _ _ _ => shown_le rfl _ _ c x y) (x := 5) (y := 1) (by decide) (by decide) (by norm_num [InUnit]) e
  obtain ⟨n, l, h4, h5, h6, h7⟩ := h3 .R (.inl rfl)
  exact ⟨m', s, rgb, h1, h2, n, l, h4, h5, h6, h7⟩

end Ezk.Props

import Verif.Proofs.Brighten
import Verif.Props.LinearTrip

/-!
# C85: encoding light brightens the codes, decoding darkens them
-/

namespace Ezk.Props
open FOps Spec F32 PixelFormat

variable {p p2 : Platform} {scalar scalar2 : Libm} {src mid dst : Img} {sps mps dps : List Plane} {m m' m'' : Mem}

/-- **C85**. No code of an image becomes larger when the image is converted to linear light (with the same primaries). -/
theorem C85_decode_darkens (r : Run (p.real scalar) src dst sps dps m m') (ha : scalar.Accurate) (hs : isYuv src.format = false)
    (hd : isYuv dst.format = false) (hp : src.color.primaries = dst.color.primaries) (hl : src.color.transfer ≠ .Linear)
    (hq : src.color.transfer ≠ .BT2100PQ) (hdt : dst.color.transfer = .Linear) {c : Chan} (hc : c = .R ∨ c = .G ∨ c = .B) {x y n : Nat}
    (hx : x < dst.width) (hy : y < dst.height) (hn : sample src.format sps m c x y = some n) :
    ∃ k, sample dst.format dps m' c x y = some k ∧ k ≤ n := by
  obtain ⟨k, a, e, a0, ha1, hk⟩ := channel_code r ha hs hd hp (by rw [hdt]; exact hl) hq hc hx hy hn
  have n255 : n ≤ 255 := by
    have := shown_le (rgb8 hs).1 sps m c x y
    rwa [shown, hn] at this
  have nr : (n : ℝ) ≤ 255 := by exact_mod_cast n255
  have n0 : (0 : ℝ) ≤ n := Nat.cast_nonneg n
  have h1 := dec_below (exactAr_exact x) hq (v := (n : ℝ) / 255) (by positivity) (by rw [div_le_one (by norm_num)]; exact nr)
  have hE : brightError src.color.transfer ≤ 12 / 10 ^ 4 := by unfold brightError; split_ifs <;> norm_num
  rw [hdt, show encodeTransfer (exactAr x) .Linear a = a from rfl] at hk
  have h2 : a * 255 ≤ n + 32 / 100 := by
    have := (abs_le.mp ha1).2
    norm_num at this hE
    linarith
  have h3 : clamp255 (a * 255) ≤ n + 32 / 100 := max_le (by linarith) ((min_le_right _ _).trans h2)
  refine ⟨k, e, codes_le (j := 0) (z := 9 / 10) ?_ (by norm_num)⟩
  by_cases ht : Truncates p dst.width x
  · linarith [(hk.2 ht).1]
  · linarith [(abs_le.mp (hk.1 ht)).2]

/-- **C85**. No code of an image in linear light becomes smaller when the image is converted to another transfer function (with the same
primaries) where the store rounds, and it becomes smaller by one at most where the store truncates. -/
theorem C85_encode_brightens (r : Run (p.real scalar) src dst sps dps m m') (ha : scalar.Accurate) (hs : isYuv src.format = false)
    (hd : isYuv dst.format = false) (hp : src.color.primaries = dst.color.primaries) (hst : src.color.transfer = .Linear)
    (hl : dst.color.transfer ≠ .Linear) (hq : dst.color.transfer ≠ .BT2100PQ) {c : Chan} (hc : c = .R ∨ c = .G ∨ c = .B) {x y n : Nat}
    (hx : x < dst.width) (hy : y < dst.height) (hn : sample src.format sps m c x y = some n) :
    ∃ k, sample dst.format dps m' c x y = some k ∧ n ≤ k + 1 ∧ (¬ Truncates p dst.width x → n ≤ k) := by
  obtain ⟨k, a, e, a0, ha1, hk⟩ := channel_code r ha hs hd hp (by rw [hst]; exact hl.symm) (by rw [hst]; nofun) hc hx hy hn
  have n255 : n ≤ 255 := by
    have := shown_le (rgb8 hs).1 sps m c x y
    rwa [shown, hn] at this
  have nr : (n : ℝ) ≤ 255 := by exact_mod_cast n255
  rw [hst, show decodeTransfer (exactAr x) .Linear ((n : ℝ) / 255) = (n : ℝ) / 255 from rfl] at ha1
  have h1 := enc_above (exactAr_exact x) hq a0 (by rw [div_le_one (by norm_num)]; exact nr) ha1
  rw [mul_div_cancel₀ _ (by norm_num)] at h1
  have near : ¬ Truncates p dst.width x → n ≤ k := fun ht =>
    codes_le (j := 0) (z := 9 / 10) (by linarith [(abs_le.mp (hk.1 ht)).1]) (by norm_num)
  refine ⟨k, e, ?_, near⟩
  by_cases ht : Truncates p dst.width x
  · exact codes_le (j := 1) (z := 12 / 10) (by linarith [(hk.2 ht).2]) (by norm_num)
  · exact (near ht).trans (Nat.le_succ k)

/-- An HLG image becomes an image in linear light on NEON. -/
example (m : Mem) : ∃ (m' : Mem) (k : Nat), sample .BGRA [⟨⟨200, 128⟩, 64⟩] m' .B 9 1 = some k ∧ k ≤ (m 77).toNat := by
  obtain ⟨scalar, ha⟩ := libm_exists
  obtain ⟨m', r⟩ := run_exists (c := Platform.neon.real scalar) (platform_lawful .neon _ _)
    (src := .raw .RGB 16 2 [⟨⟨0, 96⟩, 48⟩] (.RGB ⟨.BT2100HLG, .BT2020⟩)) (dst := .raw .BGRA 16 2 [⟨⟨200, 128⟩, 64⟩] (.RGB ⟨.Linear, .BT2020⟩))
    (sps := [⟨⟨0, 96⟩, 48⟩]) (dps := [⟨⟨200, 128⟩, 64⟩]) rfl rfl
    (planesDisjoint_of (by decide)) (separate_of (by decide)) (uniform_of (by decide)) (by decide) m
  obtain ⟨k, h⟩ := C85_decode_darkens r ha rfl rfl rfl nofun nofun rfl (c := .B) (by simp) (x := 9) (y := 1) (n := (m 77).toNat) (by decide)
    (by decide) rfl
  exact ⟨m', k, h⟩

/-- An image in linear light becomes an sRGB image on AVX2, in a column that the vectors write. -/
example (m : Mem) : ∃ (m' : Mem) (k : Nat), sample .BGRA [⟨⟨200, 128⟩, 64⟩] m' .B 9 1 = some k ∧ (m 77).toNat ≤ k := by
  obtain ⟨scalar, ha⟩ := libm_exists
  obtain ⟨m', r⟩ := run_exists (c := Platform.avx2.real scalar) (platform_lawful .avx2 _ _)
    (src := .raw .RGB 16 2 [⟨⟨0, 96⟩, 48⟩] (.RGB ⟨.Linear, .BT709⟩)) (dst := .raw .BGRA 16 2 [⟨⟨200, 128⟩, 64⟩] (.RGB ⟨.SRGB, .BT709⟩))
    (sps := [⟨⟨0, 96⟩, 48⟩]) (dps := [⟨⟨200, 128⟩, 64⟩]) rfl rfl
    (planesDisjoint_of (by decide)) (separate_of (by decide)) (uniform_of (by decide)) (by decide) m
  obtain ⟨k, h, -, h2⟩ := C85_encode_brightens r ha rfl rfl rfl rfl nofun nofun (c := .B) (by simp) (x := 9) (y := 1) (n := (m 77).toNat)
    (by decide) (by decide) rfl
  refine ⟨m', k, h, h2 ?_⟩
  rintro (h | h | h)
  · cases h
  · cases h
  · exact h (by decide)

end Ezk.Props

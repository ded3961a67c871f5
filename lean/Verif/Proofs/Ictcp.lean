import Verif.Proofs.AsRead
import Verif.Spec.Ictcp

/-!
# The chroma stored in 4:2:0 images with an ICtCp colour space
-/

namespace Ezk
open FOps Spec

variable {F : Type} [FOps F]

theorem ictcpChroma_eq (c : Cpu F) {w x : Nat} (i : YuvColorInfo) (p : Pic F) (y : Nat) :
    ictcpChroma (cpuBlk c w) i p x y = chromaAsIs (columnArith c w) c.vec.LEN w i p x y := by
  have e : (cpuBlk c w x).1.LEN = lanes c.vec.LEN w x ∧
      (cpuBlk c w x).2 = x / (lanes c.vec.LEN w x * 2) * (lanes c.vec.LEN w x * 2) := by
    rw [cpuBlk, lanes]
    split
    · exact ⟨rfl, rfl⟩
    · exact ⟨rfl, by rw [Nat.one_mul]⟩
  simp only [ictcpChroma, chromaAsIs, cpuBlk_columnArith, e.1, e.2]

theorem lanes_cell {len w : Nat} (hw : w % 2 = 0) (x : Nat) : lanes len w (x / 2 * 2) = lanes len w x := by
  have hev := vectored_even (L := len) hw
  rw [lanes, lanes]
  by_cases h : x < w - w % (len * 2)
  · rw [if_pos h, if_pos (by omega)]
  · rw [if_neg h, if_neg (by omega)]

/-- All pixels of a cell have the same chroma. -/
theorem chromaAsIs_cell {ar : Nat → Arith F} (hpair : ∀ X, ar X = ar (X / 2 * 2)) {len w : Nat} (hw : w % 2 = 0)
    (i : YuvColorInfo) (p : Pic F) (x y : Nat) :
    chromaAsIs ar len w i p (x / 2 * 2) (y / 2 * 2) = chromaAsIs ar len w i p x y := by
  have e1 : x / 2 * 2 / (lanes len w x * 2) = x / (lanes len w x * 2) := by
    rw [Nat.mul_comm (lanes len w x) 2, ← Nat.div_div_eq_div_mul, ← Nat.div_div_eq_div_mul]
    congr 1; omega
  have e2 : (x / 2 * 2 - x / (lanes len w x * 2) * (lanes len w x * 2)) / 2 =
      (x - x / (lanes len w x * 2) * (lanes len w x * 2)) / 2 := by
    rw [← Nat.mul_assoc]; omega
  have e3 : y / 2 * 2 / 2 * 2 = y / 2 * 2 := by omega
  simp only [chromaAsIs, lanes_cell hw, e1, e2, e3, ← hpair x]

variable {c : Cpu F} {src dst : Img} {sps dps : List Plane} {m m' : Mem}

theorem convertedAsIsF_of {ar : Nat → Arith F} {len w : Nat} {sf : PixelFormat} {sc : ColorInfo} {df : PixelFormat}
    {dc : ColorInfo} (h : ¬ BadChroma sf sc df dc) (V : Pic Nat) :
    convertedAsIsF ar len w sf sc df dc V = convertedF ar sf sc df dc V := by
  funext ch x y
  cases dc with
  | RGB i => rfl
  | YUV i =>
    have hn : ¬ (¬ (sf = df ∧ sc = .YUV i) ∧ vsub df = 2 ∧ isMatrix i.space = false) :=
      fun ⟨a, b, d⟩ => h ⟨a, b, i, rfl, d⟩
    cases ch <;> simp only [convertedAsIsF, if_neg hn]

/-- Every sample stored by a conversion. -/
theorem Done.depictsAsIs (r : Done c src dst sps dps m m') :
    Depicts dst.format dps dst.width dst.height m'
      (convertedAsIs (columnArith c dst.width) c.vec.LEN dst.width src.format src.color dst.format dst.color
        (asRead src.format sps m)) := by
  by_cases hb : BadChroma src.format src.color dst.format dst.color
  · intro ch X Y l hX hY hl
    have h := r.returned
    rw [painted_sample r.painted h.vdst.fits h.evenW h.evenH hX hY hl, cpuBlk_columnArith]
    have hpair : ∀ X, columnArith c dst.width X = columnArith c dst.width (X / 2 * 2) := by
      intro X
      have := cpuBlk_pair c h.evenW X
      rwa [cpuBlk_columnArith] at this
    obtain ⟨hne, hvs, i, hi, him⟩ := hb
    have hyuv : isYuv dst.format = true := by revert hvs; cases dst.format <;> simp [vsub, isYuv]
    have hhs : hsub dst.format = 2 := by revert hvs; cases dst.format <;> simp [vsub, hsub]
    have hbad : ¬ (src.format = dst.format ∧ src.color = .YUV i) ∧ vsub dst.format = 2 ∧ isMatrix i.space = false :=
      ⟨hi ▸ hne, hvs, him⟩
    have hch : ch = .Y ∨ ch = .U ∨ ch = .V := by
      revert hl hyuv; cases dst.format <;> cases ch <;> simp [isYuv, sampleLoc]
    congr 1
    have key : floatBlk (cpuBlk c dst.width) src.format src.color dst.format dst.color (asRead src.format sps m) ch
          (cellX dst.format ch X) (cellY dst.format ch Y) =
        convertedAsIsF (columnArith c dst.width) c.vec.LEN dst.width src.format src.color dst.format dst.color
          (asRead src.format sps m) ch X Y := by
      rw [floatBlk, if_neg hne, cpuBlk_columnArith, hi]
      simp only [writeBlk, hyuv, if_true]
      rcases hch with rfl | rfl | rfl
      · simp only [convertedAsIsF, convertedF, writePic, encode, encodeBlk, if_neg hbad.1, hyuv, if_true, cpuBlk_columnArith,
          cellX, cellY, reduceCtorEq, or_self, if_false]
      all_goals
        simp only [convertedAsIsF, encodeBlk, hbad.1, not_false_eq_true, chromaBlk, him, and_self, ictcpChroma_eq,
          cpuBlk_columnArith, cellX, cellY, hhs, hvs, reduceCtorEq, or_false, or_true, if_true, chromaAsIs_cell hpair h.evenW,
          ← hpair]
    simp only [convertedAsIs, quantize, key]
    have hx' : columnArith c dst.width (cellX dst.format ch X) = columnArith c dst.width X := by
      rcases hch with rfl | rfl | rfl
      · simp [cellX]
      all_goals simp only [cellX, hhs, reduceCtorEq, or_false, or_true, if_true, ← hpair]
    rw [hx']
  · rw [convertedAsIs, convertedAsIsF_of hb]
    exact r.depicts hb

/-- Only the arithmetic of the columns of the image matters. -/
theorem convertedAsIs_congr {ar ar' : Nat → Arith F} {len w : Nat} (hlen : 0 < len) (hw : w % 2 = 0)
    (h : ∀ x < w, ar x = ar' x)
    (sf : PixelFormat) (sc : ColorInfo) (df : PixelFormat) (dc : ColorInfo) (V : Pic Nat) (ch : Chan) {x : Nat} (hx : x < w)
    (y : Nat) : convertedAsIs ar len w sf sc df dc V ch x y = convertedAsIs ar' len w sf sc df dc V ch x y := by
  have hn : ∀ x < w, ∀ c y, normalize ar sf V c x y = normalize ar' sf V c x y := fun x hx c y => by
    simp only [normalize, h x hx]
  have hr : ∀ x < w, ∀ c y, readPic ar sf sc V c x y = readPic ar' sf sc V c x y := by
    intro x hx c y
    have ha : withAlpha sf (normalize ar sf V) c x y = withAlpha sf (normalize ar' sf V) c x y := by
      rw [withAlpha, withAlpha, hn x hx]
    cases sc with
    | RGB i => exact ha
    | YUV i =>
      simp only [readPic]
      split
      · cases c <;> simp only [decode, hn x hx, h x hx]
      · exact ha
  have hp : ∀ x < w, ∀ c y, adaptPic ar sc dc (readPic ar sf sc V) c x y = adaptPic ar' sc dc (readPic ar' sf sc V) c x y := by
    intro x hx c y
    rw [adaptPic, adaptPic]
    split
    · exact hr x hx c y
    · cases c <;> simp only [changeColor, hr x hx, h x hx]
  generalize hP : adaptPic ar sc dc (readPic ar sf sc V) = P at hp
  generalize hP' : adaptPic ar' sc dc (readPic ar' sf sc V) = P' at hp
  have hy : ∀ i, ∀ x < w, ∀ y, yuvAt ar i P x y = yuvAt ar' i P' x y := by
    intro i x hx y
    simp only [yuvAt, hp x hx, h x hx]
  have hF : convertedF ar sf sc df dc V ch x y = convertedF ar' sf sc df dc V ch x y := by
    rw [convertedF, convertedF, hP, hP']
    split
    · exact hn x hx ch y
    · cases dc with
      | RGB i => exact hp x hx ch y
      | YUV i =>
        simp only [writePic]
        split
        · have hch : chromaOf ar df i P x y = chromaOf ar' df i P' x y := by
            have h0 : x / 2 * 2 < w := by omega
            have h1 : x / 2 * 2 + 1 < w := by omega
            rw [chromaOf, chromaOf]
            split
            · rw [hy i x hx]
            · split
              · simp only [chroma422, h x hx, hy i _ h0, hy i _ h1]
              · simp only [chroma420, h x hx, hy i _ h0, hy i _ h1, hp _ h0, hp _ h1]
          cases ch <;> simp only [encode, hy i x hx, h x hx, hch, hp x hx]
        · exact hp x hx ch y
  have hA : ∀ i, chromaAsIs ar len w i P x y = chromaAsIs ar' len w i P' x y := by
    intro i
    have hb : ∀ n, 0 < n → x / (n * 2) * (n * 2) + n * 2 ≤ w → x / (n * 2) * (n * 2) + (x - x / (n * 2) * (n * 2)) / 2 < w ∧
        x / (n * 2) * (n * 2) + n + (x - x / (n * 2) * (n * 2)) / 2 < w := by
      intro n hn0 hle
      have := Nat.div_add_mod' x (n * 2)
      have := Nat.mod_lt x (show 0 < n * 2 by omega)
      generalize x / (n * 2) * (n * 2) = b at *
      omega
    have hl : 0 < lanes len w x ∧ x / (lanes len w x * 2) * (lanes len w x * 2) + lanes len w x * 2 ≤ w := by
      rw [lanes]
      split
      · rename_i hlt
        refine ⟨hlen, ?_⟩
        have e : w - w % (len * 2) = w / (len * 2) * (len * 2) := by
          have := Nat.div_add_mod' w (len * 2); omega
        have hlt' : x / (len * 2) < w / (len * 2) := by
          rw [Nat.div_lt_iff_lt_mul (by omega), ← e]; exact hlt
        have := Nat.mul_le_mul_right (len * 2) (Nat.succ_le_of_lt hlt')
        have h2 : w / (len * 2) * (len * 2) ≤ w := Nat.div_mul_le_self _ _
        rw [Nat.succ_mul] at this
        omega
      · exact ⟨by omega, by omega⟩
    obtain ⟨h1, h2⟩ := hb _ hl.1 hl.2
    simp only [chromaAsIs, h x hx, hy i _ h1, hy i _ h2]
  have key : convertedAsIsF ar len w sf sc df dc V ch x y = convertedAsIsF ar' len w sf sc df dc V ch x y := by
    cases dc with
    | RGB i => exact hF
    | YUV i =>
      cases ch
      case U => simp only [convertedAsIsF, hP, hP', hA, h x hx]; rw [hF]
      case V => simp only [convertedAsIsF, hP, hP', hA, h x hx]; rw [hF]
      all_goals exact hF
  simp only [convertedAsIs, quantize, key, h x hx]

end Ezk

import Verif.Proofs.Returned

/-!
# A conversion that returned has read all of its source
-/

namespace Ezk
open FOps Spec

variable {F : Type} [FOps F]

theorem bind_ok_inv {α β : Type} {r : Exec α} {k : α → Exec β} {b : β} (h : (r >>= k) = .ok b) :
    ∃ a, r = .ok a ∧ k a = .ok b := by
  rcases r with e | a
  · cases h
  · exact ⟨a, rfl, h⟩

theorem prepared {c : Cpu F} {v : Visitor F} {ks : List VisitCall} {m m' : Mem} (h : runVisits c v ks m = .ok m') :
    ∀ k ∈ ks, ∃ m1 sts, v.prepare (c.backend k.vectored) k.x k.y m1 = .ok sts := by
  induction ks generalizing m with
  | nil => intro k hk; cases hk
  | cons k0 ks ih =>
    rw [runVisits] at h
    obtain ⟨m1, h1, h2⟩ := bind_ok_inv h
    intro k hk
    rcases List.mem_cons.1 hk with rfl | hk
    · rw [Visitor.visit] at h1
      obtain ⟨sts, h3, _⟩ := bind_ok_inv h1
      exact ⟨m, sts, h3⟩
    · exact ih h2 k hk

/-- The visitor reads from that source. -/
def NeedsRgba (v : Visitor F) (R : RgbaSrc F) : Prop :=
  ∀ B x y m sts, v.prepare B x y m = .ok sts → ∃ b, R.read B m x y = .ok b

theorem rgbaToAny_needs {dst : Img} {ps : List Plane} (hv : Valid dst ps) (hcol : ColorOk dst.format dst.color)
    (R : RgbaSrc F) {j : Job F} (hj : rgbaToAny dst R = .ok (.ok j)) : NeedsRgba j.visitor R := by
  have hfit := hv.fits
  have inv : ∀ {α β : Type} {r : Exec α} {g : α → β} {b : β}, (do let a ← r; return g a) = Except.ok b →
      ∃ a, r = .ok a := by
    intro α β r g b h
    obtain ⟨a, ha, _⟩ := bind_ok_inv h
    exact ⟨a, ha⟩
  cases hf : dst.format <;> rw [hf] at hcol hfit <;> intro B x y m sts hp
  case I420 | I422 | I444 | I010 | I012 | I210 | I212 | I410 | I412 =>
    obtain ⟨i, hi⟩ := hcol rfl
    obtain ⟨a, b, c, rest, rfl⟩ := planes3 hfit rfl
    simp only [rgbaToAny, hf, hi, yuvColor, bindE_ok, i420Write_ok hv (by rw [hf]; rfl),
      i422Write_ok hv (by rw [hf]; rfl), i444Write_ok hv (by rw [hf]; rfl)] at hj
    cases hj
    obtain ⟨b, hb, _⟩ := bind_ok_inv hp
    obtain ⟨b, hb, _⟩ := bind_ok_inv hb
    exact ⟨b, hb⟩
  case NV12 =>
    obtain ⟨i, hi⟩ := hcol rfl
    obtain ⟨a, b, rest, rfl⟩ := planes2 hfit rfl
    simp only [rgbaToAny, hf, hi, yuvColor, bindE_ok, nv12Write_ok hv (by rw [hf]; rfl)] at hj
    cases hj
    obtain ⟨b, hb, _⟩ := bind_ok_inv hp
    obtain ⟨b, hb, _⟩ := bind_ok_inv hb
    exact ⟨b, hb⟩
  case YUYV =>
    obtain ⟨i, hi⟩ := hcol rfl
    obtain ⟨a, rest, rfl⟩ := planes1 hfit rfl
    simp only [rgbaToAny, hf, hi, yuvColor, bindE_ok, yuyvWrite_ok hv (by rw [hf]; rfl)] at hj
    cases hj
    obtain ⟨b, hb, _⟩ := bind_ok_inv hp
    obtain ⟨b, hb, _⟩ := bind_ok_inv hb
    exact ⟨b, hb⟩
  case RGBA | BGRA | RGB | BGR =>
    obtain ⟨a, rest, rfl⟩ := planes1 hfit rfl
    simp only [rgbaToAny, hf, rgbWrite_ok hv (by rw [hf]; rfl), rgbaWrite_ok hv (by rw [hf]; rfl)] at hj
    cases hj
    obtain ⟨b, hb, _⟩ := bind_ok_inv hp
    exact ⟨b, hb⟩

theorem addP_inv {a b r : Nat} (h : addP a b = .ok r) : r = a + b := by
  rw [addP] at h; split at h <;> cases h; rfl
theorem mulP_inv {a b r : Nat} (h : mulP a b = .ok r) : r = a * b := by
  rw [mulP] at h; split at h <;> cases h; rfl
theorem dropFrom_inv {s t : Slice} {o : Nat} (h : s.dropFrom o = .ok t) : o ≤ s.len ∧ t = ⟨s.addr + o, s.len - o⟩ := by
  rw [Slice.dropFrom] at h; split at h <;> cases h; exact ⟨by assumption, rfl⟩
theorem offset_inv {row stride col size r : Nat} (h : offset row stride col size = .ok r) :
    r = row * stride + col * size := by
  rw [offset] at h
  obtain ⟨a, ha, h⟩ := bind_ok_inv h
  obtain ⟨b, hb, h⟩ := bind_ok_inv h
  rw [addP_inv h, mulP_inv ha, mulP_inv hb]
theorem load_inv {B : Backend F} (hB : B.Lawful) {P : Prim} {m : Mem} {s : Slice} {v : B.V} (h : P.load B m s = .ok v) :
    B.LEN * P.SIZE ≤ s.len := by
  cases P
  · rw [Prim.load, hB.loadU8] at h
    split at h <;> cases h
    rw [Prim.SIZE]; omega
  · rw [Prim.load, hB.loadU16] at h
    split at h <;> cases h
    rw [Prim.SIZE]; omega

/-- What the second row of `I444Reader::read` needs. -/
theorem I444Reader.read_inv {R : I444Reader F} {B : Backend F} (hB : B.Lawful) {m : Mem} {x y : Nat} {b : I444Block B.V}
    (h : R.read B m x y = .ok b) :
    (y + 1) * R.y.stride + (x + 2 * B.LEN) * R.P.SIZE ≤ R.y.slice.len ∧
    (y + 1) * R.y.stride + (x + 2 * B.LEN) * R.P.SIZE ≤ R.u.slice.len ∧
    (y + 1) * R.y.stride + (x + 2 * B.LEN) * R.P.SIZE ≤ R.v.slice.len := by
  rw [I444Reader.read] at h
  obtain ⟨_, _, h⟩ := bind_ok_inv h
  obtain ⟨y1, e1, h⟩ := bind_ok_inv h
  obtain ⟨y10, e2, h⟩ := bind_ok_inv h
  obtain ⟨_, _, h⟩ := bind_ok_inv h
  obtain ⟨y1', e1', h⟩ := bind_ok_inv h
  obtain ⟨u10, e3, h⟩ := bind_ok_inv h
  obtain ⟨_, _, h⟩ := bind_ok_inv h
  obtain ⟨y1'', e1'', h⟩ := bind_ok_inv h
  obtain ⟨v10, e4, h⟩ := bind_ok_inv h
  have e1 := addP_inv e1
  have e1' := addP_inv e1'
  have e1'' := addP_inv e1''
  have e2 := offset_inv e2
  have e3 := offset_inv e3
  have e4 := offset_inv e4
  subst e1 e1' e1'' e2 e3 e4
  -- y
  obtain ⟨_, _, h⟩ := bind_ok_inv h
  obtain ⟨_, _, h⟩ := bind_ok_inv h
  obtain ⟨_, _, h⟩ := bind_ok_inv h
  obtain ⟨_, _, h⟩ := bind_ok_inv h
  obtain ⟨_, _, h⟩ := bind_ok_inv h
  obtain ⟨_, _, h⟩ := bind_ok_inv h
  obtain ⟨_, _, h⟩ := bind_ok_inv h
  obtain ⟨_, _, h⟩ := bind_ok_inv h
  obtain ⟨l, hl, h⟩ := bind_ok_inv h
  obtain ⟨o, ho, h⟩ := bind_ok_inv h
  obtain ⟨s, hs, h⟩ := bind_ok_inv h
  obtain ⟨_, ly, h⟩ := bind_ok_inv h
  have hl := mulP_inv hl
  have ho := addP_inv ho
  have hs := dropFrom_inv hs
  have ly := load_inv hB ly
  rw [hs.2] at ly
  -- u
  obtain ⟨_, _, h⟩ := bind_ok_inv h
  obtain ⟨_, _, h⟩ := bind_ok_inv h
  obtain ⟨_, _, h⟩ := bind_ok_inv h
  obtain ⟨_, _, h⟩ := bind_ok_inv h
  obtain ⟨_, _, h⟩ := bind_ok_inv h
  obtain ⟨_, _, h⟩ := bind_ok_inv h
  obtain ⟨_, _, h⟩ := bind_ok_inv h
  obtain ⟨_, _, h⟩ := bind_ok_inv h
  obtain ⟨l', hl', h⟩ := bind_ok_inv h
  obtain ⟨o', ho', h⟩ := bind_ok_inv h
  obtain ⟨s', hs', h⟩ := bind_ok_inv h
  obtain ⟨_, lu, h⟩ := bind_ok_inv h
  have hl' := mulP_inv hl'
  have ho' := addP_inv ho'
  have hs' := dropFrom_inv hs'
  have lu := load_inv hB lu
  rw [hs'.2] at lu
  -- v
  obtain ⟨_, _, h⟩ := bind_ok_inv h
  obtain ⟨_, _, h⟩ := bind_ok_inv h
  obtain ⟨_, _, h⟩ := bind_ok_inv h
  obtain ⟨_, _, h⟩ := bind_ok_inv h
  obtain ⟨_, _, h⟩ := bind_ok_inv h
  obtain ⟨_, _, h⟩ := bind_ok_inv h
  obtain ⟨_, _, h⟩ := bind_ok_inv h
  obtain ⟨_, _, h⟩ := bind_ok_inv h
  obtain ⟨l'', hl'', h⟩ := bind_ok_inv h
  obtain ⟨o'', ho'', h⟩ := bind_ok_inv h
  obtain ⟨s'', hs'', h⟩ := bind_ok_inv h
  obtain ⟨_, lv, h⟩ := bind_ok_inv h
  have hl'' := mulP_inv hl''
  have ho'' := addP_inv ho''
  have hs'' := dropFrom_inv hs''
  have lv := load_inv hB lv
  rw [hs''.2] at lv
  have e : (x + 2 * B.LEN) * R.P.SIZE = x * R.P.SIZE + B.LEN * R.P.SIZE + B.LEN * R.P.SIZE := by
    rw [Nat.add_mul, Nat.two_mul, Nat.add_mul]; omega
  rw [e]
  dsimp only at ly lu lv
  omega

/-- A conversion that returned `Ok` stayed inside of its source. -/
theorem readSafe_of_ok {c : Cpu F} (hc : c.vec.Lawful) {src dst : Img} {sps dps : List Plane} {m m' : Mem}
    (hr : Returned src dst sps dps) (h : convert c src dst m = .ok (.ok (), m')) :
    ReadSafe src.format sps dst.width dst.height := by
  intro h4 hw hh p0 hp0 i hi p hp
  have hn : planeCount src.format = 3 := by revert h4; cases src.format <;> simp [is444, planeCount]
  obtain ⟨a, b, d, rest, rfl⟩ := planes3 hr.vsrc.fits hn
  have hs := hr.vsrc
  -- the job reads from the `I444Reader`
  have need : ∃ j : Job F, convertJob src dst = .ok (.ok j) ∧ j.width = dst.width ∧ j.height = dst.height ∧
      ∀ B x y m sts, j.visitor.prepare B x y m = .ok sts →
        ∃ blk, I444Reader.read ⟨primOf src.format, a, b, d, maxValueForBits src.format.bitsPerComponent⟩ B m x y = .ok blk := by
    obtain ⟨v, h1, _⟩ := convertJob_sound (F := F) hr.vsrc hr.vdst hr.width hr.height hr.evenW hr.evenH hr.colors
    refine ⟨_, h1, rfl, rfl, ?_⟩
    rw [convertJob, verify_ok hr.width hr.height hr.evenW hr.evenH, bindE_ok] at h1
    have hnew := I444Reader.new_ok (F := F) hs hn (primOf src.format)
    by_cases same : src.format = dst.format ∧ src.color = dst.color
    · rw [if_pos same, convertSameJob, if_neg (by simp [same.1])] at h1
      obtain ⟨a', b', d', rest', hdps⟩ := planes3 hr.vdst.fits (same.1 ▸ hn)
      have hvd := hr.vdst
      rw [hdps] at hvd
      have hwr := fun s => i444Write_ok (F := F) hvd (same.1 ▸ hn) (primOf src.format) s
      have hjob : i444Write (primOf src.format) dst ⟨I444Reader.read ⟨primOf src.format, a, b, d,
          maxValueForBits src.format.bitsPerComponent⟩⟩ = .ok (.ok ⟨dst.width, dst.height, v⟩) := by
        rw [← h1]
        generalize dst.width = w at *
        have hf : src.format = .I444 ∨ src.format = .I410 ∨ src.format = .I412 := by
          revert h4; cases src.format <;> simp [is444]
        rcases hf with e | e | e <;> rw [e] at hnew <;> simp only [e] <;>
          exact (congrArg (fun r => bindE r (i444Write _ dst)) hnew).symm
      rw [hwr] at hjob
      cases hjob
      intro B x y m sts hp
      obtain ⟨blk, hb, _⟩ := bind_ok_inv hp
      exact ⟨blk, hb⟩
    · rw [if_neg same] at h1
      obtain ⟨hc1, hc2⟩ := hr.colors.resolve_left same
      have hy : isYuv src.format = true := by revert h4; cases src.format <;> simp [is444, isYuv]
      obtain ⟨i, hi⟩ := hc1 hy
      have hread : readAnyToRgba src = .ok (.ok (i444ToRgb i ⟨I444Reader.read ⟨primOf src.format, a, b, d,
          maxValueForBits src.format.bitsPerComponent⟩⟩ : RgbaSrc F)) := by
        have hf : src.format = .I444 ∨ src.format = .I410 ∨ src.format = .I412 := by
          revert h4; cases src.format <;> simp [is444]
        rcases hf with e | e | e <;> rw [e] at hnew <;> simp only [readAnyToRgba, e] <;>
          exact (congrArg (fun r => bindE r _) hnew).trans (by rw [hi]; rfl)
      rw [hread, bindE_ok] at h1
      intro B x y m sts hp
      by_cases hn : needTransferAndPrimariesConvert src.color dst.color = true
      · rw [if_pos hn] at h1
        obtain ⟨blk, hb⟩ := rgbaToAny_needs hr.vdst hc2 _ h1 B x y m sts hp
        obtain ⟨blk, hb, _⟩ := bind_ok_inv hb
        obtain ⟨blk, hb, _⟩ := bind_ok_inv hb
        exact ⟨blk, hb⟩
      · rw [if_neg hn] at h1
        obtain ⟨blk, hb⟩ := rgbaToAny_needs hr.vdst hc2 _ h1 B x y m sts hp
        obtain ⟨blk, hb, _⟩ := bind_ok_inv hb
        exact ⟨blk, hb⟩
  obtain ⟨j, hj, jw, jh, hneed⟩ := need
  rw [convert, hj, runJob] at h
  obtain ⟨r, e1, h⟩ := bind_ok_inv h
  cases e1
  have h : (visit c j m >>= fun m => pure (Except.ok (), m)) = .ok (.ok (), m') := h
  obtain ⟨m1, hv, _⟩ := bind_ok_inv h
  have hvis : runVisits c j.visitor (visitCalls c.vec.LEN dst.width dst.height) m = .ok m1 := by
    rw [visit, jw, jh] at hv
    simpa only [hr.evenW, hr.evenH, ne_eq, not_true_eq_false, if_false] using hv
  obtain ⟨k, hk, hblk⟩ := visited (c := c) (w := dst.width) hr.evenH (X := dst.width - 1) (Y := dst.height - 1) (by omega) (by omega)
  obtain ⟨m2, sts, hprep⟩ := prepared hvis k hk
  obtain ⟨blk, hrd⟩ := hneed _ _ _ _ _ hprep
  have call := call_of_mem hc hr.evenW hr.evenH hk
  have hfin := I444Reader.read_inv call.law hrd
  have ex : k.x + 2 * (c.backend k.vectored).LEN = dst.width := by
    have := call.xw; have := hblk.2.1; omega
  have ey : k.y + 1 = dst.height - 1 := by
    have := call.yh; have := hblk.2.2.2; omega
  rw [ex, ey, primOf_size] at hfin
  have hrow : rowBytes src.format 0 dst.width = dst.width * sampleBytes src.format := by
    revert h4; cases src.format <;> simp [is444, rowBytes, sampleBytes] <;> omega
  rw [hrow]
  obtain rfl : a = p0 := by simpa using hp0
  obtain rfl | rfl | rfl : i = 0 ∨ i = 1 ∨ i = 2 := by omega
  · obtain rfl : a = p := by simpa using hp
    exact hfin.1
  · obtain rfl : b = p := by simpa using hp
    exact hfin.2.1
  · obtain rfl : d = p := by simpa using hp
    exact hfin.2.2

end Ezk

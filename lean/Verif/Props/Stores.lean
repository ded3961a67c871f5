import Verif.Props.Lossless

/-!
# The store instructions, in IEEE 754 binary32
-/

namespace Ezk.Props
open FOps Spec F32

/-- The value of a finite number. -/
def value : F32 → Option ℚ
  | .fin s q => some (signed s q)
  | _ => none

/-- The three kinds of stores of the columns of an image: 8-bit planar, 8-bit interleaved, 16-bit. -/
inductive Store
  | planar8 | interleaved8 | planar16

/-- The largest code. -/
def Store.top : Store → Nat
  | planar8 | interleaved8 => 255
  | planar16 => 65535

/-- The code stored for `v` in column `x` of an image `w` pixels wide. -/
def stored (p : Platform) (simd scalar : Libm) (w x : Nat) (s : Store) (v : F32) : Nat :=
  match s with
  | .planar8 => ((columnArith (p.ieee simd scalar) w x).q8 v).toNat
  | .interleaved8 => ((columnArith (p.ieee simd scalar) w x).q8i v).toNat
  | .planar16 => ((columnArith (p.ieee simd scalar) w x).q16 v).toNat

/-! ## C34: stores are accurate and saturate -/

/-- **C34**: values of the range are stored with an error below one code, by every store of every platform. -/
theorem C34_accurate (p : Platform) (simd scalar : Libm) (w x : Nat) (s : Store) {v : F32} {q : ℚ}
    (h : value v = some q) (h0 : -1 / 2 ≤ q) (h1 : q < s.top + 1 / 2) :
    |(stored p simd scalar w x s v : ℚ) - q| < 1 := by
  have hi := column_ieee p simd scalar w x
  cases v with
  | nan => cases h
  | inf b => cases h
  | fin b r =>
    obtain rfl : signed b r = q := by injection h
    cases s
    · exact (hi.q8 b r h0 h1).1
    · exact (hi.q8i b r h0 h1).1
    · exact (hi.q16 b r h0 h1).1

/-- **C34**: the codes themselves are stored exactly. -/
theorem C34_codes_exact (p : Platform) (simd scalar : Libm) (w x : Nat) (s : Store) {n : Nat} (h : n ≤ s.top) :
    stored p simd scalar w x s (ofNat n) = n := by
  have hi := column_ieee p simd scalar w x
  have : n < 2 ^ 24 := by cases s <;> simp only [Store.top] at h <;> omega
  rw [ofNat_eq this]
  cases s
  · exact hi.q8.exact h
  · exact hi.q8i.exact h
  · exact hi.q16.exact h

/-- The stores that convert with the scalar `as` or with NEON's `vcvtq_u32_f32`. -/
def Truncates (p : Platform) (w x : Nat) : Prop := p = .scalar ∨ p = .neon ∨ ¬ x < w - w % (lanes p * 2)

theorem stored_truncates {p : Platform} {w x : Nat} (h : Truncates p w x) (simd scalar : Libm) (s : Store) (v : F32) :
    stored p simd scalar w x s v = asUnsigned s.top v := by
  have hs : ∀ c : Cpu F32, c.sar = scalarArith scalar → ¬ x < w - w % (c.vec.LEN * 2) →
      ∀ s : Store, (match s with
        | .planar8 => ((columnArith c w x).q8 v).toNat
        | .interleaved8 => ((columnArith c w x).q8i v).toNat
        | .planar16 => ((columnArith c w x).q16 v).toNat) = asUnsigned s.top v := by
    intro c hc hx s
    rw [columnArith, if_neg hx, hc]
    cases s
    · exact u8_toNat (asUnsigned_le _ _)
    · exact u8_toNat (asUnsigned_le _ _)
    · exact u16_toNat (asUnsigned_le _ _)
  by_cases hx : x < w - w % (lanes p * 2)
  · rcases h with rfl | rfl | h
    · have hx' : x < w - w % ((Platform.scalar.ieee simd scalar).vec.LEN * 2) := hx
      unfold stored
      rw [columnArith, if_pos hx']
      cases s
      · exact u8_toNat (asUnsigned_le _ _)
      · exact u8_toNat (asUnsigned_le _ _)
      · exact u16_toNat (asUnsigned_le _ _)
    · have hx' : x < w - w % ((Platform.neon.ieee simd scalar).vec.LEN * 2) := hx
      unfold stored
      rw [columnArith, if_pos hx']
      cases s
      · exact neon8_toNat simd v
      · exact neon8_toNat simd v
      · exact neon16_toNat simd v
    · exact absurd hx h
  · have := hs (p.ieee simd scalar) (by cases p <;> rfl) (by cases p <;> exact hx) s
    exact this

/-- **C34**: the truncating stores saturate for every value, infinities included; NaN is stored as 0. -/
theorem C34_truncating_saturates {p : Platform} {w x : Nat} (h : Truncates p w x) (simd scalar : Libm) (s : Store) :
    (∀ v q, value v = some q → (s.top : ℚ) ≤ q → stored p simd scalar w x s v = s.top) ∧
    (∀ v q, value v = some q → q ≤ 0 → stored p simd scalar w x s v = 0) ∧
    stored p simd scalar w x s (.inf false) = s.top ∧ stored p simd scalar w x s (.inf true) = 0 ∧
    stored p simd scalar w x s .nan = 0 := by
  simp only [stored_truncates h]
  refine ⟨?_, ?_, ?_, ?_, ?_⟩
  · intro v q hv hq
    cases v with
    | nan => cases hv
    | inf b => cases hv
    | fin b r =>
      obtain rfl : signed b r = q := by injection hv
      exact asUnsigned_high hq
  · intro v q hv hq
    cases v with
    | nan => cases hv
    | inf b => cases hv
    | fin b r =>
      obtain rfl : signed b r = q := by injection hv
      exact asUnsigned_neg hq
  · simp [asUnsigned]
  · simp [asUnsigned]
  · simp [asUnsigned]

/-- **C34**: the truncating stores round towards zero. -/
theorem C34_truncating_floor {p : Platform} {w x : Nat} (h : Truncates p w x) (simd scalar : Libm) (s : Store) {v : F32}
    {q : ℚ} (hv : value v = some q) (h0 : 0 ≤ q) (h1 : q < s.top + 1) :
    (stored p simd scalar w x s v : ℚ) = ⌊q⌋ := by
  rw [stored_truncates h]
  cases v with
  | nan => cases hv
  | inf b => cases hv
  | fin b r =>
    obtain rfl : signed b r = q := by injection hv
    exact asUnsigned_floor h0 h1

/-- **C34**: the other stores round to the nearest code. -/
theorem C34_rounding_nearest {p : Platform} {w x : Nat} (h : ¬ Truncates p w x) (simd scalar : Libm) (s : Store) {v : F32}
    {q : ℚ} (hv : value v = some q) (h0 : -1 / 2 ≤ q) (h1 : q < s.top + 1 / 2) :
    |(stored p simd scalar w x s v : ℚ) - q| ≤ 1 / 2 := by
  simp only [Truncates, not_or, not_not] at h
  cases v with
  | nan => cases hv
  | inf b => cases hv
  | fin b r =>
    obtain rfl : signed b r = q := by injection hv
    cases p
    · exact absurd rfl h.1
    · have e : columnArith (Platform.avx2.ieee simd scalar) w x = (Platform.avx2.ieee simd scalar).vec.ar := by
        rw [columnArith, if_pos (show x < w - w % ((Platform.avx2.ieee simd scalar).vec.LEN * 2) from h.2.2)]
      cases s <;> simp only [stored, e]
      · exact pack8_nearest b r h0 h1
      · exact pack8_nearest b r h0 h1
      · exact pack16_nearest b r h0 h1
    · have e : columnArith (Platform.avx512.ieee simd scalar) w x = (Platform.avx512.ieee simd scalar).vec.ar := by
        rw [columnArith, if_pos (show x < w - w % ((Platform.avx512.ieee simd scalar).vec.LEN * 2) from h.2.2)]
      cases s <;> simp only [stored, e]
      · exact trunc8_nearest b r h0 h1
      · exact pack8_nearest b r h0 h1
      · exact trunc16_nearest b r h0 h1
    · exact absurd rfl h.2.1

example (simd scalar : Libm) : |(stored .avx512 simd scalar 34 5 .planar8 (fin false (31 / 4)) : ℚ) - 31 / 4| ≤ 1 / 2 :=
  C34_rounding_nearest (by simp [Truncates, lanes]) simd scalar .planar8 (q := 31 / 4) (by simp [value, signed])
    (by norm_num) (by norm_num [Store.top])

theorem rne_ge {q : ℚ} {n : Nat} (h : (n : ℚ) - 1 / 2 < q) : (n : Int) ≤ rne q := by
  have h2 := (abs_le.mp (rne_near q)).1
  have : (n : ℚ) - 1 < rne q := by linarith
  have : (n : Int) - 1 < rne q := by exact_mod_cast this
  omega

theorem rne_nonpos {q : ℚ} (h : q ≤ 1 / 2) : rne q ≤ 0 := by
  have := rne_mono h
  have e : rne (1 / 2) = 0 := by decide +kernel
  omega

theorem cvtps_neg {b : Bool} {r : ℚ} (h : signed b r ≤ 1 / 2) : cvtps (fin b r) ≤ 0 := by
  have := rne_nonpos h
  simp only [cvtps]
  split <;> omega

theorem cvtps_ge {b : Bool} {r : ℚ} {n : Nat} (h : (n : ℚ) - 1 / 2 < signed b r) (h2 : signed b r < 2 ^ 31 - 1 / 2) :
    (n : Int) ≤ cvtps (fin b r) := by
  have h3 : (0 : ℚ) ≤ n := by positivity
  rw [cvtps_of_range (by linarith) h2]
  exact rne_ge h

/-- **C34** (partial: saturation at the top only up to 32767; full statement: `∀ q ≥ 255`). AVX2's 8-bit stores and
AVX-512's interleaved ones. -/
theorem C34_packed8_saturates_partial (simd scalar : Libm) {v : F32} {q : ℚ} (hv : value v = some q) :
    (q ≤ 0 → (((Platform.avx2.ieee simd scalar).vec.ar.q8 v).toNat = 0 ∧
      ((Platform.avx2.ieee simd scalar).vec.ar.q8i v).toNat = 0 ∧
      ((Platform.avx512.ieee simd scalar).vec.ar.q8i v).toNat = 0)) ∧
    (255 ≤ q → q < 32767 → (((Platform.avx2.ieee simd scalar).vec.ar.q8 v).toNat = 255 ∧
      ((Platform.avx2.ieee simd scalar).vec.ar.q8i v).toNat = 255 ∧
      ((Platform.avx512.ieee simd scalar).vec.ar.q8i v).toNat = 255)) := by
  cases v with
  | nan => cases hv
  | inf b => cases hv
  | fin b r =>
    obtain rfl : signed b r = q := by injection hv
    constructor
    · intro h
      have h2 := cvtps_neg (b := b) (r := r) (by linarith)
      have : (packus16 (packus32 (cvtps (fin b r)))).toNat = 0 := by
        rw [pack8_toNat]; split_ifs <;> omega
      exact ⟨this, this, this⟩
    · intro h1 h2
      have a := cvtps_ge (n := 255) (b := b) (r := r) (by push_cast; linarith) (by linarith)
      have c : cvtps (fin b r) ≤ 32767 := by
        rw [cvtps_of_range (by linarith) (by linarith)]
        exact rne_le (by exact_mod_cast h2.le)
      have : (packus16 (packus32 (cvtps (fin b r)))).toNat = 255 := by
        rw [pack8_toNat]; split_ifs <;> omega
      exact ⟨this, this, this⟩

/-- **C34** is false for AVX2's 8-bit stores and AVX-512's interleaved ones: everything above 32767.5 is stored as 0
instead of 255, because `_mm256_packus_epi16` takes *signed* 16-bit numbers; also infinity. -/
theorem C34_packed8_overflow (simd scalar : Libm) (v : F32)
    (hv : v = .inf false ∨ ∃ q, value v = some q ∧ 32767 + 1 / 2 < q) :
    ((Platform.avx2.ieee simd scalar).vec.ar.q8 v).toNat = 0 ∧
    ((Platform.avx2.ieee simd scalar).vec.ar.q8i v).toNat = 0 ∧
    ((Platform.avx512.ieee simd scalar).vec.ar.q8i v).toNat = 0 := by
  have : (packus16 (packus32 (cvtps v))).toNat = 0 := by
    rcases hv with rfl | ⟨q, hv, hq⟩
    · rfl
    · cases v with
      | nan => cases hv
      | inf b => cases hv
      | fin b r =>
        obtain rfl : signed b r = q := by injection hv
        have h := rne_ge (n := 32768) (q := signed b r) (by push_cast; linarith)
        rw [pack8_toNat]
        simp only [cvtps]
        split_ifs <;> omega
  exact ⟨this, this, this⟩

example (simd scalar : Libm) : ((Platform.avx2.ieee simd scalar).vec.ar.q8 (ofNat 40000)).toNat = 0 :=
  (C34_packed8_overflow simd scalar _ (Or.inr ⟨40000, by rw [ofNat_eq (by norm_num)]; simp [value, signed], by norm_num⟩)).1

/-- **C34** (partial: saturation at the top only up to `2³¹`). AVX2's 16-bit stores. -/
theorem C34_packed16_saturates_partial (simd scalar : Libm) {v : F32} {q : ℚ} (hv : value v = some q) :
    (q ≤ 0 → ((Platform.avx2.ieee simd scalar).vec.ar.q16 v).toNat = 0) ∧
    (65535 ≤ q → q < 2 ^ 31 - 1 / 2 → ((Platform.avx2.ieee simd scalar).vec.ar.q16 v).toNat = 65535) := by
  cases v with
  | nan => cases hv
  | inf b => cases hv
  | fin b r =>
    obtain rfl : signed b r = q := by injection hv
    constructor
    · intro h
      have h2 := cvtps_neg (b := b) (r := r) (by linarith)
      change (packus32 (cvtps (fin b r))).toNat = 0
      rw [packus32_toNat]; split_ifs <;> omega
    · intro h1 h2
      have a := cvtps_ge (n := 65535) (b := b) (r := r) (by push_cast; linarith) h2
      change (packus32 (cvtps (fin b r))).toNat = 65535
      rw [packus32_toNat]; split_ifs <;> omega

/-- **C34** is false for AVX2's 16-bit stores: from `2³¹` on, and for infinity, they store 0. -/
theorem C34_packed16_overflow (simd scalar : Libm) (v : F32)
    (hv : v = .inf false ∨ ∃ q, value v = some q ∧ 2 ^ 31 ≤ q) :
    ((Platform.avx2.ieee simd scalar).vec.ar.q16 v).toNat = 0 := by
  change (packus32 (cvtps v)).toNat = 0
  rcases hv with rfl | ⟨q, hv, hq⟩
  · rfl
  · cases v with
    | nan => cases hv
    | inf b => cases hv
    | fin b r =>
      obtain rfl : signed b r = q := by injection hv
      have h : (2 ^ 31 : Int) ≤ rne (signed b r) := le_rne (by exact_mod_cast hq)
      rw [packus32_toNat]
      simp only [cvtps]
      split_ifs <;> omega

/-- **C34** is false for AVX-512's planar stores: they keep the low bits, so values above the range wrap around, and
negative ones wrap to the top. -/
theorem C34_avx512_wraps (simd scalar : Libm) {n : Nat} (hn : n < 2 ^ 24) :
    ((Platform.avx512.ieee simd scalar).vec.ar.q8 (ofNat n)).toNat = n % 256 ∧
    ((Platform.avx512.ieee simd scalar).vec.ar.q16 (ofNat n)).toNat = n % 65536 ∧
    ((Platform.avx512.ieee simd scalar).vec.ar.q8 (F32.neg (ofNat n))).toNat = (256 - n % 256) % 256 ∧
    ((Platform.avx512.ieee simd scalar).vec.ar.q16 (F32.neg (ofNat n))).toNat = (65536 - n % 65536) % 65536 := by
  have hq : (n : ℚ) < 2 ^ 24 := by exact_mod_cast hn
  have h0 : (0 : ℚ) ≤ n := by positivity
  have e1 : cvtps (ofNat n) = n := by
    rw [ofNat_eq hn, cvtps_of_range]
    · simp only [signed, Bool.false_eq_true, if_false]; exact rne_int n
    · simp only [signed, Bool.false_eq_true, if_false]; linarith
    · simp only [signed, Bool.false_eq_true, if_false]; linarith
  have e2 : cvtps (F32.neg (ofNat n)) = -n := by
    rw [ofNat_eq hn]
    change cvtps (fin true n) = _
    rw [cvtps_of_range]
    · simp only [signed, if_true]
      have := rne_int (-(n : Int))
      push_cast at this
      exact this
    · simp only [signed, if_true]; linarith
    · simp only [signed, if_true]; linarith
  refine ⟨?_, ?_, ?_, ?_⟩
  · change (truncate8 (cvtps (ofNat n))).toNat = _; rw [truncate8_toNat, e1]; omega
  · change (truncate16 (cvtps (ofNat n))).toNat = _; rw [truncate16_toNat, e1]; omega
  · change (truncate8 (cvtps (F32.neg (ofNat n)))).toNat = _; rw [truncate8_toNat, e2]; omega
  · change (truncate16 (cvtps (F32.neg (ofNat n)))).toNat = _; rw [truncate16_toNat, e2]; omega

example (simd scalar : Libm) : ((Platform.avx512.ieee simd scalar).vec.ar.q8 (ofNat 256)).toNat = 0 ∧
    ((Platform.avx512.ieee simd scalar).vec.ar.q8 (F32.neg (ofNat 1))).toNat = 255 :=
  ⟨(C34_avx512_wraps simd scalar (n := 256) (by norm_num)).1, (C34_avx512_wraps simd scalar (n := 1) (by norm_num)).2.2.1⟩

/-! ## C35: platforms agree up to one code -/

/-- **C35**: the stores of any two platforms, vector body or scalar tail, differ by at most one code for values of the
range. -/
theorem C35_one_code (p1 p2 : Platform) (simd1 scalar1 simd2 scalar2 : Libm) (w x1 x2 : Nat) (s : Store) {v : F32}
    {q : ℚ} (h : value v = some q) (h0 : -1 / 2 ≤ q) (h1 : q < s.top + 1 / 2) :
    stored p1 simd1 scalar1 w x1 s v ≤ stored p2 simd2 scalar2 w x2 s v + 1 := by
  have a := abs_lt.mp (C34_accurate p1 simd1 scalar1 w x1 s h h0 h1)
  have b := abs_lt.mp (C34_accurate p2 simd2 scalar2 w x2 s h h0 h1)
  have : (stored p1 simd1 scalar1 w x1 s v : ℚ) < stored p2 simd2 scalar2 w x2 s v + 2 := by linarith [a.2, b.1]
  have : stored p1 simd1 scalar1 w x1 s v < stored p2 simd2 scalar2 w x2 s v + 2 := by exact_mod_cast this
  omega

/-- **C35** cannot be strengthened: 7.75 is stored as 7 by the scalar code and as 8 by AVX2. -/
theorem C35_attained (simd scalar : Libm) :
    stored .avx2 simd scalar 32 0 .planar8 (fin false (31 / 4)) = 8 ∧
    stored .avx2 simd scalar 34 33 .planar8 (fin false (31 / 4)) = 7 := by
  constructor
  · have hx : 0 < 32 - 32 % ((Platform.avx2.ieee simd scalar).vec.LEN * 2) := show 0 < 32 - 32 % (8 * 2) by decide
    rw [stored, columnArith, if_pos hx]
    change (packus16 (packus32 (cvtps (fin false (31 / 4))))).toNat = 8
    decide +kernel
  · rw [stored_truncates (Or.inr (Or.inr (by decide)))]
    decide +kernel

example (simd scalar : Libm) :
    stored .avx512 simd scalar 34 5 .planar16 (fin false (2001 / 2)) ≤
      stored .avx512 simd scalar 34 33 .planar16 (fin false (2001 / 2)) + 1 :=
  C35_one_code .avx512 .avx512 simd scalar simd scalar 34 5 33 .planar16 (q := 2001 / 2) (by simp [value, signed])
    (by norm_num) (by norm_num [Store.top])

/-! ## C39: 16-bit samples in memory -/

/-- **C39**: 16-bit samples stored and loaded again are the same numbers, in all lanes of every platform, for every
address. -/
theorem C39_store_load (p : Platform) (simd scalar : Libm) (n : Fin (p.ieee simd scalar).vec.LEN → Nat)
    (hn : ∀ i, n i < 65536) (m : Mem) (s : Slice) (hs : 2 * (p.ieee simd scalar).vec.LEN ≤ s.len) :
    ∃ m', (p.ieee simd scalar).vec.writeU16 (fun i => ofNat (n i)) m s = .ok m' ∧
      (p.ieee simd scalar).vec.loadU16 m' s = .ok (fun i => ofNat (n i)) := by
  have hl : (p.ieee simd scalar).vec.Lawful := platform_lawful p _ _
  have hi : IsIeee (p.ieee simd scalar).vec.ar := vec_ieee p simd scalar
  generalize (p.ieee simd scalar).vec = B at *
  refine ⟨_, (hl.writeU16 _ m s).trans (if_pos hs), ?_⟩
  rw [hl.loadU16, if_pos hs]
  congr 1
  funext i
  have hq : (B.ar.q16 (ofNat (n i))).toNat = n i := by
    rw [ofNat_eq (by have := hn i; omega)]
    exact hi.q16.exact (by have := hn i; omega)
  have b0 : (m.store s.addr (2 * B.LEN) fun i => u16byte (B.ar.q16 (ofNat (n ⟨i / 2, by omega⟩))) (i % 2))
      (s.addr + 2 * i) = u16byte (B.ar.q16 (ofNat (n i))) 0 := by
    rw [Mem.store, dif_pos (by omega)]
    have e1 : (s.addr + 2 * i.val - s.addr) / 2 = i := by omega
    have e2 : (s.addr + 2 * i.val - s.addr) % 2 = 0 := by omega
    simp only [e1, e2]
  have b1 : (m.store s.addr (2 * B.LEN) fun i => u16byte (B.ar.q16 (ofNat (n ⟨i / 2, by omega⟩))) (i % 2))
      (s.addr + 2 * i + 1) = u16byte (B.ar.q16 (ofNat (n i))) 1 := by
    rw [Mem.store, dif_pos (by omega)]
    have e1 : (s.addr + 2 * i.val + 1 - s.addr) / 2 = i := by omega
    have e2 : (s.addr + 2 * i.val + 1 - s.addr) % 2 = 1 := by omega
    simp only [e1, e2]
  rw [b0, b1]
  congr 1
  generalize B.ar.q16 (ofNat (n i)) = u at hq
  have hu := u.toNat_lt
  have e0 : (u16byte u 0).toNat = u.toNat % 256 := u8_toNat (by omega)
  have e1 : (u16byte u 1).toNat = u.toNat / 256 := u8_toNat (by omega)
  rw [e0, e1]
  omega

example (simd scalar : Libm) (m : Mem) : ∃ m',
    (Platform.avx2.ieee simd scalar).vec.writeU16 (fun i => ofNat (65528 + i)) m ⟨6, 17⟩ = .ok m' ∧
    (Platform.avx2.ieee simd scalar).vec.loadU16 m' ⟨6, 17⟩ = .ok (fun i => ofNat (65528 + i)) :=
  C39_store_load .avx2 simd scalar (fun i => 65528 + i) (fun i => by have : i.val < 8 := i.2; omega) m ⟨6, 17⟩
    (show 2 * 8 ≤ 17 by decide)

end Ezk.Props

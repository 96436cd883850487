import Verif.Lemmas.Bits
import Mathlib.Data.Nat.Digits.Defs
import Mathlib.Data.Int.ModEq
/-!
C71: decoding numbers from bytes.
-/
namespace R3D

/-! ### specification -/

/-- the number written by `bs`: little endian has the least significant byte first -/
def Spec.value : Endian → Bytes → Nat
  | .little, bs => Nat.ofDigits 256 (bs.map UInt8.toNat)
  | .big, bs => Nat.ofDigits 256 (bs.map UInt8.toNat).reverse

open Spec

/-! ### unsigned numbers -/

theorem leNat_eq (bs : Bytes) : leNat bs = Nat.ofDigits 256 (bs.map UInt8.toNat) := by
  induction bs with
  | nil => rfl
  | cons b bs ih => rw [leNat, List.map_cons, Nat.ofDigits_cons, ih]

theorem natOfBytes_eq (e : Endian) (bs : Bytes) : natOfBytes e bs = value e bs := by
  cases e
  · exact leNat_eq bs
  · rw [natOfBytes, leNat_eq, value, List.map_reverse]

theorem leNat_lt (bs : Bytes) : leNat bs < 256 ^ bs.length := by
  induction bs with
  | nil => simp [leNat]
  | cons b bs ih =>
    have := b.toNat_lt
    rw [leNat, List.length_cons, pow_succ]
    omega

theorem value_lt (e : Endian) (bs : Bytes) : value e bs < 256 ^ bs.length := by
  rw [← natOfBytes_eq]
  cases e
  · exact leNat_lt bs
  · have := leNat_lt bs.reverse
    rwa [List.length_reverse] at this

theorem leBytes_length (w n : Nat) : (leBytes w n).length = w := by
  induction w generalizing n with
  | zero => rfl
  | succ w ih => rw [leBytes, List.length_cons, ih]

theorem leNat_leBytes (w n : Nat) (h : n < 256 ^ w) : leNat (leBytes w n) = n := by
  induction w generalizing n with
  | zero => simp at h; subst h; rfl
  | succ w ih =>
    rw [pow_succ] at h
    have h1 : (UInt8.ofNat n).toNat = n % 256 := UInt8.toNat_ofNat'
    rw [leBytes, leNat, ih _ (by omega), h1]
    omega

theorem leBytes_leNat (bs : Bytes) : leBytes bs.length (leNat bs) = bs := by
  induction bs with
  | nil => rfl
  | cons b bs ih =>
    have hb := b.toNat_lt
    rw [List.length_cons, leBytes, leNat, show (b.toNat + 256 * leNat bs) / 256 = leNat bs by omega, ih]
    congr 1
    apply UInt8.toNat_inj.1
    have h1 : (UInt8.ofNat (b.toNat + 256 * leNat bs)).toNat = (b.toNat + 256 * leNat bs) % 256 := UInt8.toNat_ofNat'
    rw [h1]
    omega

theorem bytesOfNat_length (e : Endian) (w n : Nat) : (bytesOfNat e w n).length = w := by
  cases e <;> simp [bytesOfNat, leBytes_length]

theorem natOfBytes_bytesOfNat (e : Endian) {w n : Nat} (h : n < 256 ^ w) : natOfBytes e (bytesOfNat e w n) = n := by
  cases e <;> simp [bytesOfNat, natOfBytes, leNat_leBytes w n h]

theorem bytesOfNat_natOfBytes (e : Endian) (bs : Bytes) : bytesOfNat e bs.length (natOfBytes e bs) = bs := by
  cases e
  · exact leBytes_leNat bs
  · have := leBytes_leNat bs.reverse
    rw [List.length_reverse] at this
    rw [natOfBytes, bytesOfNat, this, List.reverse_reverse]

theorem readExact_some {n : Nat} {s bs rest : Bytes} : readExact n s = some (bs, rest) ↔ s = bs ++ rest ∧ bs.length = n := by
  unfold readExact
  constructor
  · intro h
    split_ifs at h with hl
    simp only [Option.some.injEq, Prod.mk.injEq] at h
    rw [← h.1, ← h.2]
    exact ⟨(List.take_append_drop n s).symm, by simp [hl]⟩
  · rintro ⟨rfl, rfl⟩
    rw [if_pos (by simp)]
    simp

theorem readExact_none {n : Nat} {s : Bytes} : readExact n s = none ↔ s.length < n := by
  unfold readExact
  split_ifs with h
  · simp; omega
  · simp; omega

theorem readExact_append (bs rest : Bytes) : readExact bs.length (bs ++ rest) = some (bs, rest) := readExact_some.2 ⟨rfl, rfl⟩

/-- **C71**: reading an unsigned number of `w` bytes takes the next `w` bytes and returns the number they write; it fails exactly
if there are fewer. -/
theorem c71_unsigned (e : Endian) (w : Nat) (s : Bytes) :
    (∀ v rest, readNat e w s = some (v, rest) ↔ ∃ bs, s = bs ++ rest ∧ bs.length = w ∧ v = value e bs) ∧
    (readNat e w s = none ↔ s.length < w) := by
  unfold readNat
  constructor
  · intro v rest
    constructor
    · intro h
      cases hr : readExact w s with
      | none => rw [hr] at h; cases h
      | some p =>
        obtain ⟨bs, rest'⟩ := p
        rw [hr] at h
        simp only [Option.some.injEq, Prod.mk.injEq] at h
        obtain ⟨rfl, rfl⟩ := h
        obtain ⟨h1, h2⟩ := readExact_some.1 hr
        exact ⟨bs, h1, h2, natOfBytes_eq e bs⟩
    · rintro ⟨bs, rfl, rfl, rfl⟩
      rw [readExact_append]
      dsimp only
      rw [natOfBytes_eq]
  · rw [← readExact_none]
    cases readExact w s <;> simp

/-- **C71**: every number is read back as it was written. -/
theorem c71_unsigned_roundtrip (e : Endian) (w n : Nat) (rest : Bytes) (h : n < 256 ^ w) :
    readNat e w (bytesOfNat e w n ++ rest) = some (n, rest) := by
  rw [(c71_unsigned e w _).1]
  exact ⟨_, rfl, bytesOfNat_length e w n, by rw [← natOfBytes_eq, natOfBytes_bytesOfNat e h]⟩

example : readNat .big 4 ([0x01, 0x02, 0x03, 0x04, 0x21]) = some (0x01020304, b!"!") ∧ readNat .little 4 ([0x01, 0x02, 0x03, 0x04, 0x21]) = some (0x04030201, b!"!") := by
  decide

/-! ### signed numbers -/

/-- **C71**: reading a signed number returns the number of its range that is congruent to the unsigned one. -/
theorem c71_signed (e : Endian) (w : Nat) (hw : 0 < w) (s : Bytes) :
    (∀ v rest, readInt e w s = some (v, rest) ↔
      ∃ bs, s = bs ++ rest ∧ bs.length = w ∧ v ≡ value e bs [ZMOD 256 ^ w] ∧ -(256 ^ w) ≤ 2 * v ∧ 2 * v < 256 ^ w) ∧
    (readInt e w s = none ↔ s.length < w) := by
  have key : ∀ bs : Bytes, bs.length = w → ∀ v : Int, (intOfBytes e bs = v ↔ v ≡ value e bs [ZMOD 256 ^ w] ∧ -(256 ^ w) ≤ 2 * v ∧ 2 * v < 256 ^ w) := by
    intro bs hl v
    have hlt := value_lt e bs
    have hlt' : ((value e bs : Nat) : Int) < 256 ^ w := by rw [hl] at hlt; exact_mod_cast hlt
    have hv : (intOfBytes e bs ≡ value e bs [ZMOD 256 ^ w]) ∧ -(256 ^ w) ≤ 2 * intOfBytes e bs ∧ 2 * intOfBytes e bs < 256 ^ w := by
      unfold intOfBytes
      rw [natOfBytes_eq, hl]
      split_ifs with h
      · have h' : (2:Int) * value e bs < 256 ^ w := by exact_mod_cast h
        refine ⟨Int.ModEq.refl _, by omega, h'⟩
      · have h' : (256:Int) ^ w ≤ 2 * value e bs := by push Not at h; exact_mod_cast h
        refine ⟨?_, by omega, by omega⟩
        exact (Int.modEq_iff_dvd.2 ⟨1, by ring⟩)
    constructor
    · rintro rfl; exact hv
    · rintro ⟨h1, h2, h3⟩
      have hmod := hv.1.trans h1.symm
      obtain ⟨k, hk⟩ := Int.modEq_iff_dvd.1 hmod
      have hpos : (0:Int) < 256 ^ w := by positivity
      generalize (256:Int) ^ w = N at *
      have : k = 0 := by
        by_contra hne
        rcases lt_or_gt_of_ne hne with h | h
        · have : N * k ≤ N * (-1) := Int.mul_le_mul_of_nonneg_left (by omega) hpos.le
          omega
        · have : N * 1 ≤ N * k := Int.mul_le_mul_of_nonneg_left (by omega) hpos.le
          omega
      subst this
      omega
  unfold readInt
  constructor
  · intro v rest
    constructor
    · intro h
      cases hr : readExact w s with
      | none => rw [hr] at h; cases h
      | some p =>
        obtain ⟨bs, rest'⟩ := p
        rw [hr] at h
        simp only [Option.some.injEq, Prod.mk.injEq] at h
        obtain ⟨h0, rfl⟩ := h
        obtain ⟨h1, h2⟩ := readExact_some.1 hr
        exact ⟨bs, h1, h2, (key bs h2 v).1 h0⟩
    · rintro ⟨bs, rfl, rfl, h⟩
      rw [readExact_append]
      dsimp only
      rw [(key bs rfl v).2 h]
  · rw [← readExact_none]
    cases readExact w s <;> simp

example : readInt .little 2 ([0xfe, 0xff]) = some (-2, []) ∧ readInt .big 1 ([0x7f]) = some (127, []) := by decide

/-! ### floats -/

open F64 in
/-- **C71**: every `f64` is read back as it was written (NaN as some NaN), and every bit pattern of a number is kept. -/
theorem c71_f64 (e : Endian) :
    (∀ x rest, Rep x → readF64 e (toBytes64 e x ++ rest) = some (x, rest)) ∧
    (∀ s x rest, readF64 e s = some (x, rest) → Rep x ∧ (x ≠ .nan → s = toBytes64 e x ++ rest)) ∧
    (∀ s, readF64 e s = none ↔ s.length < 8) := by
  refine ⟨?_, ?_, ?_⟩
  · intro x rest hx
    obtain ⟨h1, h2⟩ := (rep_iff_repFmt x).1 hx
    obtain ⟨h3, h4⟩ := ofBits_toBits (by norm_num) (by norm_num) h1 h2
    have hl : (toBytes64 e x).length = 8 := bytesOfNat_length _ _ _
    unfold readF64
    rw [← hl, readExact_append]
    dsimp only
    rw [ofBytes64, toBytes64, natOfBytes_bytesOfNat e (by norm_num at h4 ⊢; exact h4), h3]
  · intro s x rest h
    unfold readF64 at h
    cases hr : readExact 8 s with
    | none => rw [hr] at h; cases h
    | some p =>
      obtain ⟨bs, rest'⟩ := p
      rw [hr] at h
      simp only [Option.some.injEq, Prod.mk.injEq] at h
      obtain ⟨rfl, rfl⟩ := h
      obtain ⟨rfl, h2⟩ := readExact_some.1 hr
      refine ⟨(rep_iff_repFmt _).2 (ofBits_rep (by norm_num) _), fun hne => ?_⟩
      congr 1
      have hlt := value_lt e bs
      rw [← natOfBytes_eq, h2] at hlt
      unfold toBytes64 ofBytes64
      rw [toBits_ofBits (by norm_num) (by norm_num at hlt ⊢; exact hlt) hne, ← h2, bytesOfNat_natOfBytes]
  · intro s
    unfold readF64
    rw [← readExact_none]
    cases readExact 8 s <;> simp

open F64 in
theorem toF32_exact {x : F64} (h : RepFmt 23 8 x) (h0 : ∀ s q, x = .fin s q → 0 ≤ q) : toF32 x = x := by
  cases x with
  | nan => rfl
  | inf s => rfl
  | fin s q =>
    unfold toF32
    dsimp only
    rcases lt_or_eq_of_le (h0 s q rfl) with hq | rfl
    · obtain ⟨m, -, -, -, he⟩ := repFmt_norm h hq
      have e1 : q * (2:ℚ) ^ (-ulp 23 8 q) = ((m : ℤ) : ℚ) := by
        conv_lhs => rw [he]
        generalize hu : ulp 23 8 q = u at he
        rw [← he, hu]
        rw [he, mul_assoc, ← zpow_add₀ two_ne_zero, add_neg_cancel, zpow_zero, mul_one, Int.cast_natCast]
      rw [if_neg (not_le.2 hq), e1, roundEven_int, Int.cast_natCast, ← he, if_neg (not_le.2 (by simpa using h.1))]
    · simp

open F64 in
/-- **C71**: an `f64` written as `f32` is read back rounded, and every bit pattern of a number is kept. -/
theorem c71_f32 (e : Endian) :
    (∀ x rest, readF32 e (toBytes32 e x ++ rest) = some (toF32 x, rest)) ∧
    (∀ s x rest, readF32 e s = some (x, rest) → toF32 x = x ∧ (x ≠ .nan → s = toBytes32 e x ++ rest)) ∧
    (∀ s, readF32 e s = none ↔ s.length < 4) := by
  refine ⟨?_, ?_, ?_⟩
  · intro x rest
    obtain ⟨h1, h2⟩ := @toF32_rep x
    obtain ⟨h3, h4⟩ := ofBits_toBits (by norm_num) (by norm_num) h1 h2
    have hl : (toBytes32 e x).length = 4 := bytesOfNat_length _ _ _
    unfold readF32
    rw [← hl, readExact_append]
    dsimp only
    rw [ofBytes32, toBytes32, natOfBytes_bytesOfNat e (by norm_num at h4 ⊢; exact h4), h3]
  · intro s x rest h
    unfold readF32 at h
    cases hr : readExact 4 s with
    | none => rw [hr] at h; cases h
    | some p =>
      obtain ⟨bs, rest'⟩ := p
      rw [hr] at h
      simp only [Option.some.injEq, Prod.mk.injEq] at h
      obtain ⟨rfl, rfl⟩ := h
      obtain ⟨rfl, h2⟩ := readExact_some.1 hr
      have hrep := @ofBits_rep 23 8 (by norm_num) (natOfBytes e bs)
      have hex : toF32 (ofBytes32 e bs) = ofBytes32 e bs := toF32_exact hrep.1 hrep.2
      refine ⟨hex, fun hne => ?_⟩
      congr 1
      have hlt := value_lt e bs
      rw [← natOfBytes_eq, h2] at hlt
      unfold toBytes32
      rw [hex]
      unfold ofBytes32 at hne ⊢
      rw [toBits_ofBits (by norm_num) (by norm_num at hlt ⊢; exact hlt) hne, ← h2, bytesOfNat_natOfBytes]
  · intro s
    unfold readF32
    rw [← readExact_none]
    cases readExact 4 s <;> simp

/-- 1.5, -0.0, the smallest number and infinity as written by Rust -/
example : F64.toBytes64 .big (.fin false (3/2)) = [0x3f, 0xf8, 0x00, 0x00, 0x00, 0x00, 0x00, 0x00] ∧
    F64.toBytes64 .big (.fin true 0) = [0x80, 0x00, 0x00, 0x00, 0x00, 0x00, 0x00, 0x00] ∧
    F64.toBytes64 .little (.fin false ((2:ℚ) ^ (-1074 : ℤ))) = [0x01, 0x00, 0x00, 0x00, 0x00, 0x00, 0x00, 0x00] ∧
    F64.toBytes64 .big (.inf true) = [0xff, 0xf0, 0x00, 0x00, 0x00, 0x00, 0x00, 0x00] := by decide +kernel

example : F64.toBytes32 .big (F64.ofRat (1/10)) = [0x3d, 0xcc, 0xcc, 0xcd] := by decide +kernel

/-! ### slices -/

theorem fromSlices_ok {β : Type} (w : Nat) (dec : Bytes → β) (bs : Bytes) (cs : List Bytes) (hcs : ∀ c ∈ cs, c.length = w) (i : Nat)
    (pre : Bytes) (hpre : pre.length = i * w) (h : bs = pre ++ cs.flatten) :
    fromSlices w dec bs i cs.length = some (.ok (cs.map dec)) := by
  induction cs generalizing i pre with
  | nil => rfl
  | cons c cs ih =>
    have hc := hcs c (by simp)
    have hl : (i + 1) * w ≤ bs.length := by
      rw [h]
      simp only [List.length_append, List.flatten_cons, hc, hpre, Nat.add_mul, one_mul]
      omega
    have hd : (bs.drop (i * w)).take w = c := by
      rw [h, ← hpre, List.drop_left' rfl, List.flatten_cons, ← hc, List.take_left' rfl]
    rw [List.length_cons, fromSlices, if_pos hl, hd, fromSlice, if_pos hc]
    dsimp only
    rw [ih (fun c hc => hcs c (by simp [hc])) (i + 1) (pre ++ c) (by simp [hpre, hc, Nat.add_mul]) (by simp [h])]
    rfl

/-- **C71**: arrays of numbers are decoded element by element, buffers of another size are rejected (both orders of the array
macros and the little endian slice function). -/
theorem c71_array {β : Type} (w : Nat) (dec : Bytes → β) (n : Nat) (bs : Bytes) :
    (∀ cs : List Bytes, bs = cs.flatten → cs.length = n → (∀ c ∈ cs, c.length = w) → arrayFromBytes w dec n bs = some (.ok (cs.map dec))) ∧
    (bs.length ≠ w * n → arrayFromBytes w dec n bs = some (.error .SizeMismatch)) := by
  constructor
  · rintro cs rfl rfl hcs
    have hlen : cs.flatten.length = w * cs.length := by
      rw [List.length_flatten, List.map_congr_left (g := fun _ => w) (fun c hc => hcs c hc)]
      simp [Nat.mul_comm]
    rw [arrayFromBytes, if_neg (by simpa using hlen)]
    exact fromSlices_ok w dec _ cs hcs 0 [] (by simp) rfl
  · intro h
    rw [arrayFromBytes, if_pos h]

/-- C71 is violated by `slice_from_bytes_be`: for types of more than one byte it never succeeds on a non empty target; buffers of
the right size are rejected, others can panic. -/
theorem c71_violated_slice_be {β : Type} (w : Nat) (hw : 2 ≤ w) (dec : Bytes → β) (n : Nat) (hn : 0 < n) (bs : Bytes) :
    (∀ xs, sliceFromBytesBe w dec n bs ≠ some (.ok xs)) ∧
    (bs.length = w * n → sliceFromBytesBe w dec n bs = some (.error .SizeMismatch)) ∧
    (w * bs.length = n → sliceFromBytesBe w dec n bs = none) := by
  have h3 : w * bs.length = n → sliceFromBytesBe w dec n bs = none := by
    intro h
    rw [sliceFromBytesBe, if_neg (by simpa using h)]
    -- some index is beyond the end
    have hk : ∀ m i, bs.length < (i + m) * w → fromSlices w dec bs i m = none ∨ m = 0 := by
      intro m
      induction m with
      | zero => intro i _; exact .inr rfl
      | succ m ih =>
        intro i hi
        left
        rw [fromSlices]
        split_ifs with hl
        · have hlen : ((bs.drop (i * w)).take w).length = w := by
            rw [List.length_take, List.length_drop]
            rw [Nat.add_mul, one_mul] at hl
            omega
          rw [fromSlice, if_pos hlen]
          dsimp only
          rcases ih (i + 1) (by rwa [show i + 1 + m = i + (m + 1) by omega]) with h0 | h0
          · rw [h0]
          · subst h0
            exact absurd hl (by rw [not_le]; exact hi)
        · rfl
    rcases hk n 0 (by
      rw [Nat.zero_add, ← h]
      have hb : 0 < bs.length := by
        rcases Nat.eq_zero_or_pos bs.length with h0 | h0
        · rw [h0] at h; omega
        · exact h0
      calc bs.length < 2 * bs.length := by omega
        _ ≤ w * bs.length := Nat.mul_le_mul_right _ hw
        _ ≤ w * bs.length * w := Nat.le_mul_of_pos_right _ (by omega)) with h0 | h0
    · exact h0
    · omega
  refine ⟨?_, ?_, h3⟩
  · intro xs
    by_cases h : w * bs.length = n
    · rw [h3 h]; simp
    · rw [sliceFromBytesBe, if_pos h]; simp
  · intro h
    rw [sliceFromBytesBe, if_pos]
    rw [h]
    have : 2 * n ≤ w * n := Nat.mul_le_mul_right _ hw
    have : w * n ≤ w * (w * n) := Nat.le_mul_of_pos_left _ (by omega)
    omega

/-- two `u16` in big endian: with the four bytes needed the slice is refused, with one byte the code panics -/
example : sliceFromBytesBe 2 (value .big) 2 [0, 1, 0, 2] = some (.error .SizeMismatch) ∧
    sliceFromBytesBe 2 (value .big) 2 [0] = none := by decide

end R3D

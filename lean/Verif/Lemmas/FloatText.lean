import Verif.Model.FloatText
import Verif.Lemmas.F64
import Verif.Props.Text

/-! Numbers written by the model of `to_string` and `{:e}` are read back by the model of `f64::from_str`. -/

namespace R3D

def AllDigits (s : Bytes) : Prop := ∀ b ∈ s, isDigit b = true

theorem AllDigits.fmtNat (n : Nat) : AllDigits (fmtNat n) := by
  intro b hb
  have := (fmtNat_digits n).2 b hb
  simp [isDigit, this]

theorem AllDigits.zeros (n : Nat) : AllDigits (List.replicate n 48) := by
  intro b hb
  rw [(List.mem_replicate.1 hb).2]; decide

theorem AllDigits.append {s t : Bytes} (hs : AllDigits s) (ht : AllDigits t) : AllDigits (s ++ t) := by
  intro b hb
  rcases List.mem_append.1 hb with h | h
  · exact hs b h
  · exact ht b h

theorem AllDigits.take {s : Bytes} (hs : AllDigits s) (n : Nat) : AllDigits (s.take n) :=
  fun b hb => hs b (List.mem_of_mem_take hb)
theorem AllDigits.drop {s : Bytes} (hs : AllDigits s) (n : Nat) : AllDigits (s.drop n) :=
  fun b hb => hs b (List.mem_of_mem_drop hb)

/-- the next byte is no digit -/
def NoDigit (r : Bytes) : Prop := ∀ b, r.head? = some b → isDigit b = false

theorem takeWhile_digits {i r : Bytes} (hi : AllDigits i) (hr : NoDigit r) :
    (i ++ r).takeWhile isDigit = i ∧ (i ++ r).dropWhile isDigit = r := by
  induction i with
  | nil =>
    cases r with
    | nil => simp
    | cons b r => simp [hr b rfl]
  | cons a i ih =>
    have h := hi a (by simp)
    obtain ⟨h1, h2⟩ := ih fun b hb => hi b (by simp [hb])
    simp [h, h1, h2]

theorem parseDec_point {i f r : Bytes} (hi : AllDigits i) (hf : AllDigits f) (hne : i ≠ []) (hr : NoDigit r)
    {m : Nat} {x : Int} (hm : digitsVal 0 (i ++ f) = some m) (hx : parseExp r = some x) :
    parseDec (i ++ (46 :: (f ++ r))) = some (m, x - f.length) := by
  have h46 : NoDigit (46 :: (f ++ r)) := by rintro b ⟨⟩; decide
  obtain ⟨h1, h2⟩ := takeWhile_digits hi h46
  obtain ⟨h3, h4⟩ := takeWhile_digits hf hr
  unfold parseDec
  simp only [h1, h2, parseFrac, h3, h4, if_true, hne, false_and, if_false, hm, hx]
  rfl

theorem parseDec_plain {i r : Bytes} (hi : AllDigits i) (hne : i ≠ []) (hr : NoDigit r) (hp : r.head? ≠ some 46)
    {m : Nat} {x : Int} (hm : digitsVal 0 i = some m) (hx : parseExp r = some x) :
    parseDec (i ++ r) = some (m, x) := by
  obtain ⟨h1, h2⟩ := takeWhile_digits hi hr
  have h3 : parseFrac r = ([], r) := by
    cases r with
    | nil => rfl
    | cons b r =>
      have : b ≠ 46 := fun h => hp (by simp [h])
      simp [parseFrac, this]
  unfold parseDec
  simp only [h1, h2, h3, hne, false_and, if_false, List.append_nil, hm, hx]
  simp

theorem digitsVal_zeros (n : Nat) : ∀ v, digitsVal v (List.replicate n 48) = some (v * 10 ^ n) := by
  induction n with
  | zero => intro v; simp [digitsVal]
  | succ n ih =>
    intro v
    rw [List.replicate_succ, digitsVal]
    have : (48 : UInt8).toNat = 48 := rfl
    simp only [this, le_refl, true_and]
    rw [if_pos (by norm_num), ih]
    congr 1
    ring

theorem decText_parse (d : Nat) (e : Int) : ∃ m x, parseDec (decText d e) = some (m, x) ∧
    (m : ℚ) * (10 : ℚ) ^ x = (d : ℚ) * (10 : ℚ) ^ e := by
  have hd := AllDigits.fmtNat d
  have hne := (fmtNat_digits d).1
  have hv := digitsVal_fmtNat d
  have nil : NoDigit [] := by rintro b ⟨⟩
  unfold decText
  by_cases h : 0 ≤ e
  · simp only [if_pos h]
    refine ⟨d * 10 ^ e.toNat, 0, ?_, ?_⟩
    · have := parseDec_plain (hd.append (AllDigits.zeros e.toNat)) (by simp [hne]) nil (by simp)
        (m := d * 10 ^ e.toNat) (x := 0) (by rw [digitsVal_append, hv]; exact digitsVal_zeros _ _) rfl
      simpa using this
    · lift e to ℕ using h
      push_cast
      simp
  · simp only [if_neg h]
    obtain ⟨f, rfl⟩ : ∃ f : ℕ, e = -(f : ℤ) := ⟨(-e).toNat, by omega⟩
    have hf : (-(-(f:ℤ))).toNat = f := by omega
    simp only [hf]
    split_ifs with h2
    · refine ⟨d, 0 - ((fmtNat d).drop ((fmtNat d).length - f)).length, ?_, ?_⟩
      · have := parseDec_point (hd.take ((fmtNat d).length - f)) (hd.drop ((fmtNat d).length - f)) (r := [])
          (by rw [Ne, List.take_eq_nil_iff, not_or]; exact ⟨by omega, hne⟩) nil (m := d) (x := 0) (by rw [List.take_append_drop]; exact hv) rfl
        simpa using this
      · rw [List.length_drop]
        congr 2
        omega
    · refine ⟨d, 0 - (List.replicate (f - (fmtNat d).length) (48:UInt8) ++ fmtNat d).length, ?_, ?_⟩
      · have := parseDec_point (i := b!"0") (f := List.replicate (f - (fmtNat d).length) 48 ++ fmtNat d) (r := [])
          (AllDigits.zeros 1) ((AllDigits.zeros _).append hd) (by decide) nil (m := d) (x := 0) (by
            have e0 : digitsVal 0 (b!"0") = some 0 := by decide
            rw [digitsVal_append, e0]
            show digitsVal 0 _ = _
            rw [digitsVal_append, digitsVal_zeros, zero_mul]
            exact hv) rfl
        simpa using this
      · rw [List.length_append, List.length_replicate]
        congr 2
        omega

theorem parseExp_of_sign {s r : Bytes} {neg : Bool} {x : Nat} (h : parseSign s = (neg, r)) (hne : r ≠ [])
    (hv : digitsVal 0 r = some x) : parseExp (101 :: s) = some (if neg then -(x : Int) else (x : Int)) := by
  simp only [parseExp, true_or, if_true]
  rw [h]
  simp only [hne, if_false, hv, Option.map_some]

theorem parseExp_fmtInt (x : Int) : parseExp (101 :: fmtInt x) = some x := by
  unfold fmtInt
  by_cases h : x < 0
  · rw [if_pos h, parseExp_of_sign (neg := true) (r := fmtNat (-x).toNat) rfl (fmtNat_digits _).1 (digitsVal_fmtNat _)]
    simp only [if_true]
    congr 1; omega
  · obtain ⟨hne, hdig⟩ := fmtNat_digits x.toNat
    have : parseSign (fmtNat x.toNat) = (false, fmtNat x.toNat) := by
      cases hs : fmtNat x.toNat with
      | nil => exact absurd hs hne
      | cons b s =>
        have := hdig b (by simp [hs])
        have h1 : b ≠ 45 := by rintro rfl; revert this; decide
        have h2 : b ≠ 43 := by rintro rfl; revert this; decide
        simp [parseSign, h1, h2]
    rw [if_neg h, parseExp_of_sign this hne (digitsVal_fmtNat _)]
    simp only [Bool.false_eq_true, if_false]
    congr 1; omega

theorem expText_parse (d : Nat) (e : Int) : ∃ m x, parseDec (expText d e) = some (m, x) ∧
    (m : ℚ) * (10 : ℚ) ^ x = (d : ℚ) * (10 : ℚ) ^ e := by
  have hd := AllDigits.fmtNat d
  have hne := (fmtNat_digits d).1
  have hv := digitsVal_fmtNat d
  have hl : 0 < (fmtNat d).length := List.length_pos_iff.2 hne
  have nod : ∀ r, NoDigit (101 :: r) := by rintro r b ⟨⟩; decide
  unfold expText
  simp only
  split_ifs with h
  · have h1 : (fmtNat d).take 1 = fmtNat d := List.take_of_length_le h
    refine ⟨d, e + ((fmtNat d).length - 1 : Nat), ?_, ?_⟩
    · rw [h1]
      have := parseDec_plain hd hne (nod (fmtInt (e + ((fmtNat d).length - 1 : Nat)))) (by simp) hv (parseExp_fmtInt _)
      simpa using this
    · congr 2; omega
  · refine ⟨d, e + ((fmtNat d).length - 1 : Nat) - ((fmtNat d).drop 1).length, ?_, ?_⟩
    · have := parseDec_point (hd.take 1) (hd.drop 1) (by rw [Ne, List.take_eq_nil_iff, not_or]; exact ⟨by omega, hne⟩)
        (nod (fmtInt (e + ((fmtNat d).length - 1 : Nat)))) (m := d) (by rw [List.take_append_drop]; exact hv)
        (parseExp_fmtInt _)
      rw [← this]
      simp [List.append_assoc]
    · rw [List.length_drop]
      congr 2; omega

theorem stripZeros_value (n : Nat) : ∀ (d : Nat) (e : Int),
    ((stripZeros n d e).1 : ℚ) * (10 : ℚ) ^ (stripZeros n d e).2 = (d : ℚ) * (10 : ℚ) ^ e := by
  induction n with
  | zero => intro d e; rfl
  | succ n ih =>
    intro d e
    unfold stripZeros
    split_ifs with h
    · rw [ih, zpow_add₀ (by norm_num : (10:ℚ) ≠ 0), zpow_one]
      have : d = d / 10 * 10 := by omega
      conv_rhs => rw [this]
      push_cast
      ring
    · rfl

open F64

theorem shortest_value {m : ℚ} (h : Rep (.fin false m)) :
    F64.round false (((shortest m).1 : ℚ) * (10 : ℚ) ^ (shortest m).2) = .fin false m := by
  unfold shortest
  split
  · rename_i c hc
    have := List.find?_some hc
    rw [stripZeros_value]
    simpa [readsBack] using this
  · simp only
    obtain ⟨k, e, hk, he, hm⟩ := h.2.2
    obtain ⟨j, hj⟩ : ∃ j : ℕ, e = j - 1074 := ⟨(e + 1074).toNat, by omega⟩
    have h10 : (10:ℚ) ^ (1074 : Int) = 2 ^ (1074 : Int) * ((5 ^ 1074 : ℕ) : ℚ) := by
      rw [show (10:ℚ) = 2 * 5 by norm_num, mul_zpow, Nat.cast_pow]
      rfl
    have hne : (2:ℚ) ^ (1074 : Int) ≠ 0 := zpow_ne_zero _ two_ne_zero
    have hne10 : (10:ℚ) ^ (1074 : Int) ≠ 0 := zpow_ne_zero _ (by norm_num)
    have hint : m * (10 : ℚ) ^ (1074 : Int) = ((k * 2 ^ j * 5 ^ 1074 : ℕ) : ℚ) := by
      rw [h10, hm, hj, zpow_sub₀ two_ne_zero, Nat.cast_mul, Nat.cast_mul, Nat.cast_pow, zpow_natCast, Nat.cast_ofNat]
      generalize (2:ℚ) ^ (1074 : Int) = a at *
      generalize ((5 ^ 1074 : ℕ) : ℚ) = b at *
      field_simp
      push_cast
      rfl
    rw [hint]
    have hfl : ⌊((k * 2 ^ j * 5 ^ 1074 : ℕ) : ℚ)⌋.toNat = k * 2 ^ j * 5 ^ 1074 := by
      rw [Int.floor_natCast, Int.toNat_natCast]
    rw [hfl, ← hint, zpow_neg, mul_assoc, mul_inv_cancel₀ hne10, mul_one]
    exact round_exact false h

theorem round_neg {s : Bool} {q m : ℚ} (h : F64.round false q = .fin false m) : F64.round s q = .fin s m := by
  rw [round_eq] at h ⊢
  split_ifs at h ⊢
  simp only [F64.fin.injEq, true_and] at h
  rw [h]

/-- starts with a digit and is made of bytes of numbers -/
def NumText (t : Bytes) : Prop := (∃ b, t.head? = some b ∧ isDigit b = true) ∧ ∀ b ∈ t, isNumByte b = true

theorem isNumByte_digit {b : UInt8} (h : isDigit b = true) : isNumByte b = true := by
  unfold isDigit at h
  simp [isNumByte, h]

theorem fmtNat_head (n : Nat) : ∃ b s, fmtNat n = b :: s ∧ isDigit b = true := by
  obtain ⟨h1, -⟩ := fmtNat_digits n
  cases hs : fmtNat n with
  | nil => exact absurd hs h1
  | cons b s => exact ⟨b, s, rfl, AllDigits.fmtNat n b (by simp [hs])⟩

theorem AllDigits.num {s : Bytes} (h : AllDigits s) : ∀ b ∈ s, isNumByte b = true := fun b hb => isNumByte_digit (h b hb)

theorem decText_num (d : Nat) (e : Int) : NumText (decText d e) := by
  obtain ⟨b, s, hs, hb⟩ := fmtNat_head d
  have hd := AllDigits.fmtNat d
  unfold decText
  simp only
  split_ifs with h1 h2
  · exact ⟨⟨b, by simp [hs], hb⟩, (hd.append (AllDigits.zeros _)).num⟩
  · refine ⟨⟨b, ?_, hb⟩, ?_⟩
    · rw [List.append_assoc, List.head?_append, List.head?_take, if_neg (by omega), hs]; rfl
    · intro c hc
      simp only [List.mem_append] at hc
      rcases hc with (hc | hc) | hc
      · exact (hd.take _).num c hc
      · revert c; decide
      · exact (hd.drop _).num c hc
  · refine ⟨⟨48, rfl, rfl⟩, ?_⟩
    intro c hc
    simp only [List.mem_append] at hc
    rcases hc with (hc | hc) | hc
    · revert c; decide
    · exact (AllDigits.zeros _).num c hc
    · exact hd.num c hc

theorem fmtInt_num (x : Int) : ∀ b ∈ fmtInt x, isNumByte b = true := by
  unfold fmtInt
  split_ifs
  · intro c hc
    rcases List.mem_append.1 hc with hc | hc
    · rw [List.mem_singleton.1 hc]; rfl
    · exact (AllDigits.fmtNat _).num c hc
  · exact (AllDigits.fmtNat _).num

theorem expText_num (d : Nat) (e : Int) : NumText (expText d e) := by
  obtain ⟨b, s, hs, hb⟩ := fmtNat_head d
  have hd := AllDigits.fmtNat d
  unfold expText
  simp only
  refine ⟨⟨b, ?_, hb⟩, ?_⟩
  · simp [hs]
  · intro c hc
    simp only [List.mem_append] at hc
    rcases hc with ((hc | hc) | hc) | hc
    · exact (hd.take _).num c hc
    · split_ifs at hc
      · simp at hc
      · rcases List.mem_append.1 hc with hc | hc
        · rw [List.mem_singleton.1 hc]; rfl
        · exact (hd.drop _).num c hc
    · revert c; decide
    · exact fmtInt_num _ c hc

theorem parseF64_sign (s : Bool) {t : Bytes} (ht : NumText t) {m : Nat} {x : Int} (h : parseDec t = some (m, x)) :
    parseF64 ((if s then b!"-" else []) ++ t) = some (F64.round s ((m : ℚ) * (10 : ℚ) ^ x)) := by
  obtain ⟨⟨b, hb, hd⟩, -⟩ := ht
  obtain ⟨r, rfl⟩ : ∃ r, t = b :: r := by
    cases t with
    | nil => simp at hb
    | cons c r => simp at hb; exact ⟨r, by rw [hb]⟩
  have hs : parseSign ((if s then b!"-" else []) ++ b :: r) = (s, b :: r) := by
    cases s with
    | true => rfl
    | false =>
      have h1 : b ≠ 45 := by rintro rfl; revert hd; decide
      have h2 : b ≠ 43 := by rintro rfl; revert hd; decide
      simp [parseSign, h1, h2]
  have hl : lowerByte b = b := by
    unfold lowerByte
    rw [if_neg]
    intro h
    simp only [isDigit, Bool.and_eq_true, decide_eq_true_eq] at hd
    omega
  have n1 : b ≠ 105 := by rintro rfl; revert hd; decide
  have n2 : b ≠ 110 := by rintro rfl; revert hd; decide
  unfold parseF64
  rw [hs]
  simp only [List.map_cons, hl]
  rw [if_neg, if_neg, h]
  · rfl
  · intro h; injection h with h; exact n2 h
  · rintro (h | h) <;> (injection h with h; exact n1 h)

/-- any text that denotes the number reads back to it -/
theorem lawful_of_text {text : Nat → Int → Bytes} (hn : ∀ d e, NumText (text d e))
    (hp : ∀ d e, ∃ m x, parseDec (text d e) = some (m, x) ∧ (m : ℚ) * (10 : ℚ) ^ x = (d : ℚ) * (10 : ℚ) ^ e) :
    (⟨fmtF64With text, parseF64⟩ : FloatText F64).Lawful Rep where
  parse_fmt x hx := by
    show parseF64 (fmtF64With text x) = some x
    cases x with
    | nan => show parseF64 b!"NaN" = _; decide +kernel
    | inf s =>
      cases s
      · show parseF64 b!"inf" = _; decide +kernel
      · show parseF64 b!"-inf" = _; decide +kernel
    | fin s m =>
      simp only [fmtF64With]
      have hm : Rep (.fin false m) := hx
      by_cases h0 : m = 0
      · subst h0
        obtain ⟨k, x, h1, h2⟩ := hp 0 0
        rw [if_pos rfl, parseF64_sign s (hn 0 0) h1, h2]
        simp [round_zero]
      · obtain ⟨k, x, h1, h2⟩ := hp (shortest m).1 (shortest m).2
        rw [if_neg h0, parseF64_sign s (hn _ _) h1, h2, round_neg (shortest_value hm)]
  fmt_ne x _ := by
    show fmtF64With text x ≠ []
    have ne : ∀ d e, text d e ≠ [] := by
      intro d e h
      obtain ⟨⟨b, hb, -⟩, -⟩ := hn d e
      simp [h] at hb
    cases x with
    | nan => exact List.cons_ne_nil _ _
    | inf s => cases s <;> exact List.cons_ne_nil _ _
    | fin s m =>
      simp only [fmtF64With]
      split_ifs <;> simp [ne]
  fmt_bytes x _ := by
    show ∀ b ∈ fmtF64With text x, isNumByte b = true
    cases x with
    | nan => show ∀ b ∈ b!"NaN", _; decide
    | inf s =>
      cases s
      · show ∀ b ∈ b!"inf", _; decide
      · show ∀ b ∈ b!"-inf", _; decide
    | fin s m =>
      simp only [fmtF64With]
      intro b hb
      rcases List.mem_append.1 hb with hb | hb
      · cases s
        · simp at hb
        · rw [List.mem_singleton.1 hb]; rfl
      · split_ifs at hb
        · exact (hn _ _).2 b hb
        · exact (hn _ _).2 b hb

/-- `to_string` of every double reads back to it -/
theorem displayText_lawful : displayText.Lawful Rep := lawful_of_text decText_num decText_parse
/-- `{:e}` of every double reads back to it -/
theorem lowerExpText_lawful : lowerExpText.Lawful Rep := lawful_of_text expText_num expText_parse

end R3D

import Verif.Lemmas.F64
import Verif.Model.ByteCodec
import Mathlib.Tactic.Ring
/-!
The IEEE bit patterns: encoding and decoding are inverse to each other.
-/
namespace R3D.F64

/-- the numbers of the format with `mw` fraction bits and `ew` exponent bits -/
def RepFmt (mw ew : Nat) : F64 → Prop
  | .fin _ q => q < (2:ℚ) ^ (2 ^ (ew - 1) : ℤ) ∧ ∃ (m : ℕ) (e : ℤ), m < 2 ^ (mw + 1) ∧ emin mw ew ≤ e ∧ q = m * (2:ℚ) ^ e
  | _ => True

theorem ilog2_of {q : ℚ} (h : 0 < q) {k : ℤ} (h1 : (2:ℚ) ^ k ≤ q) (h2 : q < 2 ^ (k + 1)) : ilog2 q = k := by
  obtain ⟨h3, h4⟩ := ilog2_spec h
  have a := h1.trans_lt h4
  have b := h3.trans_lt h2
  rw [zpow_lt_zpow_iff_right₀ one_lt_two] at a b
  omega

/-- the normalised representation is unique -/
theorem ulp_of (mw ew m : ℕ) (e : ℤ) (hm0 : 0 < m) (hm : m < 2 ^ (mw + 1)) (he : emin mw ew ≤ e) (hn : e = emin mw ew ∨ 2 ^ mw ≤ m) :
    ulp mw ew (m * (2:ℚ) ^ e) = e := by
  have hq : (0:ℚ) < m * 2 ^ e := mul_pos (by exact_mod_cast hm0) (two_zpow_pos _)
  have hub : (m:ℚ) * 2 ^ e < 2 ^ (mw + 1 + e) := by
    rw [zpow_add₀ two_ne_zero]
    refine mul_lt_mul_of_pos_right ?_ (two_zpow_pos _)
    exact_mod_cast hm
  obtain ⟨h1, h2⟩ := ilog2_spec hq
  have h3 := h1.trans_lt hub
  rw [zpow_lt_zpow_iff_right₀ one_lt_two] at h3
  unfold ulp
  rcases hn with hn | hn
  · omega
  · have hlb : (2:ℚ) ^ (mw + e : ℤ) ≤ m * 2 ^ e := by
      rw [zpow_add₀ two_ne_zero]
      refine mul_le_mul_of_nonneg_right ?_ (two_zpow_pos _).le
      exact_mod_cast hn
    have h4 := hlb.trans_lt h2
    rw [zpow_lt_zpow_iff_right₀ one_lt_two] at h4
    omega

/-- every positive number of the format has a normalised representation -/
theorem repFmt_norm {mw ew : ℕ} {s : Bool} {q : ℚ} (h : RepFmt mw ew (.fin s q)) (hq : 0 < q) :
    ∃ m : ℕ, 0 < m ∧ m < 2 ^ (mw + 1) ∧ (ulp mw ew q = emin mw ew ∨ 2 ^ mw ≤ m) ∧ q = m * (2:ℚ) ^ ulp mw ew q := by
  obtain ⟨-, m, e, hm, he, rfl⟩ := h
  have hm0 : 0 < m := by
    rcases Nat.eq_zero_or_pos m with rfl | h
    · simp at hq
    · exact h
  obtain ⟨h1, h2⟩ := ilog2_spec hq
  have hub : (m:ℚ) * 2 ^ e < 2 ^ (mw + 1 + e) := by
    rw [zpow_add₀ two_ne_zero]
    refine mul_lt_mul_of_pos_right ?_ (two_zpow_pos _)
    exact_mod_cast hm
  have h3 := h1.trans_lt hub
  rw [zpow_lt_zpow_iff_right₀ one_lt_two] at h3
  have hue : ulp mw ew (m * (2:ℚ) ^ e) ≤ e := by unfold ulp; omega
  obtain ⟨d, hd⟩ := Int.eq_ofNat_of_zero_le (sub_nonneg.2 hue)
  generalize hu : ulp mw ew (m * (2:ℚ) ^ e) = u at hue hd ⊢
  have he' : e = u + d := by omega
  have heq : (m:ℚ) * 2 ^ e = ((m * 2 ^ d : ℕ) : ℚ) * 2 ^ u := by
    rw [he', zpow_add₀ two_ne_zero, zpow_natCast]; push_cast; ring
  refine ⟨m * 2 ^ d, by positivity, ?_, ?_, heq⟩
  · have hlt : ((m * 2 ^ d : ℕ) : ℚ) * 2 ^ u < 2 ^ (mw + 1 : ℤ) * 2 ^ u := by
      rw [← heq, ← zpow_add₀ two_ne_zero]
      refine h2.trans_le (zpow_le_zpow_right₀ one_le_two ?_)
      have : ilog2 ((m:ℚ) * 2 ^ e) - mw ≤ u := by rw [← hu]; exact le_max_left _ _
      omega
    have := lt_of_mul_lt_mul_right hlt (two_zpow_pos _).le
    exact_mod_cast this
  · by_cases hem : u = emin mw ew
    · exact .inl hem
    · right
      have hu' : u = ilog2 ((m:ℚ) * 2 ^ e) - mw := by
        rw [← hu]
        unfold ulp at hu ⊢
        omega
      have hle : (2:ℚ) ^ (mw : ℤ) * 2 ^ u ≤ ((m * 2 ^ d : ℕ) : ℚ) * 2 ^ u := by
        rw [← heq, ← zpow_add₀ two_ne_zero]
        refine le_trans ?_ h1
        rw [show (mw:ℤ) + u = ilog2 ((m:ℚ) * 2 ^ e) by omega]
      have := le_of_mul_le_mul_right hle (two_zpow_pos _)
      exact_mod_cast this

theorem num_of_mul (m : ℕ) (u : ℤ) : ((m:ℚ) * (2:ℚ) ^ u * (2:ℚ) ^ (-u)).num.natAbs = m := by
  rw [mul_assoc, ← zpow_add₀ two_ne_zero, add_neg_cancel, zpow_zero, mul_one]
  rfl

theorem signBit_split (mw ew : ℕ) (s : Bool) {n : ℕ} (h : n < 2 ^ (mw + ew)) :
    (2 ^ (mw + ew) ≤ signBit mw ew s + n ↔ s = true) ∧ (signBit mw ew s + n) / 2 ^ mw % 2 ^ ew = n / 2 ^ mw ∧
      (signBit mw ew s + n) % 2 ^ mw = n % 2 ^ mw := by
  have hlt : n / 2 ^ mw < 2 ^ ew := by
    rw [Nat.div_lt_iff_lt_mul (by positivity), mul_comm, ← pow_add]; exact h
  have hdiv : (2 ^ (mw + ew) + n) / 2 ^ mw = 2 ^ ew + n / 2 ^ mw := by
    rw [pow_add, Nat.mul_add_div (by positivity)]
  cases s
  · refine ⟨by simp [signBit, h], ?_, by simp [signBit]⟩
    simp only [signBit, Bool.false_eq_true, if_false, Nat.zero_add]
    exact Nat.mod_eq_of_lt hlt
  · refine ⟨by simp [signBit], ?_, ?_⟩
    · simp only [signBit, if_true]
      rw [hdiv, Nat.add_mod_left]
      exact Nat.mod_eq_of_lt hlt
    · simp only [signBit, if_true]
      rw [pow_add, Nat.mul_add_mod]

theorem ofBits_split (mw ew : ℕ) (s : Bool) {n : ℕ} (h : n < 2 ^ (mw + ew)) : ofBits mw ew (signBit mw ew s + n) =
    if n / 2 ^ mw = 2 ^ ew - 1 then (if n % 2 ^ mw = 0 then .inf s else .nan)
    else if n / 2 ^ mw = 0 then .fin s (((n % 2 ^ mw : ℕ) : ℚ) * (2 : ℚ) ^ emin mw ew)
    else .fin s (((2 ^ mw + n % 2 ^ mw : ℕ) : ℚ) * (2 : ℚ) ^ (((n / 2 ^ mw : ℕ) : ℤ) - 1 + emin mw ew)) := by
  obtain ⟨e0, e1, e2⟩ := signBit_split mw ew s h
  unfold ofBits
  dsimp only
  rw [e1, e2]
  simp only [e0, Bool.decide_eq_true]

/-- the bits of a finite number -/
theorem toBits_fin {mw ew : ℕ} (hew : 2 ≤ ew) {s : Bool} {q : ℚ} (h : RepFmt mw ew (.fin s q)) (hq : 0 < q) :
    ∃ m E : ℕ, 0 < m ∧ m < 2 ^ (mw + 1) ∧ (E = 0 ∨ 2 ^ mw ≤ m) ∧ E + 3 ≤ 2 ^ ew ∧ q = m * (2:ℚ) ^ (E + emin mw ew : ℤ) ∧
      toBits mw ew (.fin s q) = signBit mw ew s + (E * 2 ^ mw + m) := by
  obtain ⟨m, hm0, hm, hn, he⟩ := repFmt_norm h hq
  generalize hu : ulp mw ew q = u at hn he
  have hue : emin mw ew ≤ u := by rw [← hu]; exact le_max_right _ _
  obtain ⟨E, hE⟩ := Int.eq_ofNat_of_zero_le (sub_nonneg.2 hue)
  have hpow : (2:ℤ) ^ ew = 2 * 2 ^ (ew - 1) := by
    obtain ⟨k, rfl⟩ := Nat.exists_eq_add_of_le hew
    rw [show 2 + k - 1 = k + 1 by omega, show 2 + k = (k + 1) + 1 by omega, pow_succ]; ring
  have hpow2 : (2:ℤ) ≤ 2 ^ (ew - 1) := by
    calc (2:ℤ) = 2 ^ 1 := by norm_num
      _ ≤ 2 ^ (ew - 1) := pow_le_pow_right₀ (by norm_num) (by omega)
  refine ⟨m, E, hm0, hm, ?_, ?_, ?_, ?_⟩
  · rcases hn with hn | hn
    · exact .inl (by omega)
    · exact .inr hn
  · rcases hn with hn | hn
    · have : E = 0 := by omega
      subst this
      zify
      omega
    · have hlb : (2:ℚ) ^ (mw + u : ℤ) ≤ q := by
        rw [he, zpow_add₀ two_ne_zero]
        refine mul_le_mul_of_nonneg_right ?_ (two_zpow_pos _).le
        exact_mod_cast hn
      have := hlb.trans_lt h.1
      rw [zpow_lt_zpow_iff_right₀ one_lt_two] at this
      have e1 : emin mw ew = 2 - 2 ^ (ew - 1) - mw := rfl
      zify
      omega
  · rw [show (E:ℤ) + emin mw ew = u by omega]; exact he
  · simp only [toBits, if_neg (not_le.2 hq), hu, hE]
    congr 2
    conv_lhs => rw [he]
    exact num_of_mul m u

theorem ofBits_toBits {mw ew : ℕ} (hew : 2 ≤ ew) (hmw : 1 ≤ mw) {x : F64} (h : RepFmt mw ew x) (h0 : ∀ s q, x = .fin s q → 0 ≤ q) :
    ofBits mw ew (toBits mw ew x) = x ∧ toBits mw ew x < 2 ^ (mw + ew + 1) := by
  have hp2 : 4 ≤ 2 ^ ew := by
    calc 4 = 2 ^ 2 := by norm_num
      _ ≤ 2 ^ ew := Nat.pow_le_pow_right (by norm_num) hew
  have hpm : 0 < 2 ^ mw := by positivity
  have hsplit : 2 ^ (mw + ew + 1) = 2 ^ mw * 2 ^ ew + 2 ^ mw * 2 ^ ew := by rw [pow_succ, pow_add]; ring
  have hsb : ∀ s, signBit mw ew s ≤ 2 ^ mw * 2 ^ ew := by
    intro s
    rw [← pow_add]
    cases s <;> simp [signBit]
  have main : ∀ s n, n < 2 ^ mw * 2 ^ ew → signBit mw ew s + n < 2 ^ (mw + ew + 1) := by
    intro s n hn
    have := hsb s
    omega
  cases x with
  | nan =>
    have hm1 : 2 ^ (mw - 1) < 2 ^ mw := Nat.pow_lt_pow_right (by norm_num) (by omega)
    have hlt : (2 ^ ew - 1) * 2 ^ mw + 2 ^ (mw - 1) < 2 ^ (mw + ew) := by
      rw [pow_add]
      have : (2 ^ ew - 1) * 2 ^ mw = 2 ^ mw * 2 ^ ew - 2 ^ mw := by rw [Nat.sub_mul, one_mul, mul_comm]
      have h4 : 2 ^ mw ≤ 2 ^ mw * 2 ^ ew := Nat.le_mul_of_pos_right _ (by positivity)
      omega
    have e1 : ((2 ^ ew - 1) * 2 ^ mw + 2 ^ (mw - 1)) / 2 ^ mw = 2 ^ ew - 1 := by
      rw [mul_comm, Nat.mul_add_div hpm, Nat.div_eq_of_lt hm1, Nat.add_zero]
    have e2 : ((2 ^ ew - 1) * 2 ^ mw + 2 ^ (mw - 1)) % 2 ^ mw = 2 ^ (mw - 1) := by
      rw [mul_comm, Nat.mul_add_mod, Nat.mod_eq_of_lt hm1]
    refine ⟨?_, hlt.trans (Nat.pow_lt_pow_right (by norm_num) (by omega))⟩
    have hs := ofBits_split mw ew false hlt
    rw [e1, e2, if_pos rfl, if_neg (pow_ne_zero _ two_ne_zero)] at hs
    simpa [signBit, toBits] using hs
  | inf s =>
    have hlt : (2 ^ ew - 1) * 2 ^ mw < 2 ^ (mw + ew) := by
      rw [pow_add, mul_comm]
      exact Nat.mul_lt_mul_of_pos_left (by omega) hpm
    refine ⟨?_, main s _ (by rw [← pow_add]; exact hlt)⟩
    rw [toBits, ofBits_split mw ew s hlt, Nat.mul_div_cancel _ hpm, Nat.mul_mod_left, if_pos rfl, if_pos rfl]
  | fin s q =>
    rcases lt_or_eq_of_le (h0 s q rfl) with hq | rfl
    · obtain ⟨m, E, hm0, hm, hn, hE, he, hb⟩ := toBits_fin hew h hq
      have hm' : m < 2 * 2 ^ mw := by rw [pow_succ] at hm; omega
      have hlt : E * 2 ^ mw + m < 2 ^ (mw + ew) := by
        rw [pow_add]
        calc E * 2 ^ mw + m < E * 2 ^ mw + 2 * 2 ^ mw := by omega
          _ = 2 ^ mw * (E + 2) := by ring
          _ ≤ 2 ^ mw * 2 ^ ew := Nat.mul_le_mul_left _ (by omega)
      refine ⟨?_, by rw [hb]; exact main s _ (by rw [← pow_add]; exact hlt)⟩
      rw [hb, ofBits_split mw ew s hlt]
      by_cases hc : 2 ^ mw ≤ m
      · have d1 : (E * 2 ^ mw + m) / 2 ^ mw = E + 1 := by
          rw [mul_comm, Nat.mul_add_div hpm]
          congr 1
          rw [Nat.div_eq_iff hpm]
          omega
        have d2 : (E * 2 ^ mw + m) % 2 ^ mw = m - 2 ^ mw := by
          rw [mul_comm, Nat.mul_add_mod, Nat.mod_eq_sub_mod hc, Nat.mod_eq_of_lt (by omega)]
        rw [d1, d2, if_neg (by omega), if_neg (by omega)]
        rw [he, show 2 ^ mw + (m - 2 ^ mw) = m by omega]
        congr 3
        push_cast
        ring
      · have hE0 : E = 0 := hn.resolve_right hc
        subst hE0
        rw [Nat.zero_mul, Nat.zero_add, Nat.div_eq_of_lt (by omega), Nat.mod_eq_of_lt (by omega), if_neg (by omega), if_pos rfl, he]
        congr 3
        push_cast
        ring
    · have hz : (0:ℕ) < 2 ^ (mw + ew) := by positivity
      refine ⟨?_, by simp only [toBits, le_refl, if_true]; exact main s 0 (by positivity)⟩
      simp only [toBits, le_refl, if_true]
      rw [ofBits_split mw ew s hz, Nat.zero_div, Nat.zero_mod, if_neg (by omega)]
      simp

theorem ofBits_rep {mw ew : ℕ} (hew : 2 ≤ ew) (n : ℕ) : RepFmt mw ew (ofBits mw ew n) ∧ ∀ s q, ofBits mw ew n = .fin s q → 0 ≤ q := by
  have hpow : (2:ℤ) ^ ew = 2 * 2 ^ (ew - 1) := by
    obtain ⟨k, rfl⟩ := Nat.exists_eq_add_of_le hew
    rw [show 2 + k - 1 = k + 1 by omega, show 2 + k = (k + 1) + 1 by omega, pow_succ]; ring
  have hpow2 : (2:ℤ) ≤ 2 ^ (ew - 1) := by
    calc (2:ℤ) = 2 ^ 1 := by norm_num
      _ ≤ 2 ^ (ew - 1) := pow_le_pow_right₀ (by norm_num) (by omega)
  have hm : n % 2 ^ mw < 2 ^ mw := Nat.mod_lt _ (by positivity)
  have he : n / 2 ^ mw % 2 ^ ew < 2 ^ ew := Nat.mod_lt _ (by positivity)
  have bound : ∀ (m : ℕ) (e : ℤ), m < 2 ^ (mw + 1) → e + mw + 1 ≤ 2 ^ (ew - 1) → (m:ℚ) * 2 ^ e < (2:ℚ) ^ (2 ^ (ew - 1) : ℤ) := by
    intro m e h1 h2
    calc (m:ℚ) * 2 ^ e < 2 ^ (mw + 1 : ℤ) * 2 ^ e := by
          refine mul_lt_mul_of_pos_right ?_ (two_zpow_pos _)
          exact_mod_cast h1
      _ = 2 ^ (e + mw + 1 : ℤ) := by rw [← zpow_add₀ two_ne_zero]; congr 1; ring
      _ ≤ _ := zpow_le_zpow_right₀ one_le_two h2
  unfold ofBits
  dsimp only
  split_ifs with h1 h2 h3
  · exact ⟨trivial, by simp⟩
  · exact ⟨trivial, by simp⟩
  · have hmm : n % 2 ^ mw < 2 ^ (mw + 1) := by rw [pow_succ]; omega
    refine ⟨⟨bound _ _ hmm ?_, _, _, hmm, le_rfl, rfl⟩, ?_⟩
    · unfold emin; omega
    · intro s q hq
      simp only [F64.fin.injEq] at hq
      rw [← hq.2]
      positivity
  · have hmm : 2 ^ mw + n % 2 ^ mw < 2 ^ (mw + 1) := by rw [pow_succ]; omega
    refine ⟨⟨bound _ _ hmm ?_, _, _, hmm, ?_, rfl⟩, ?_⟩
    · have : ((n / 2 ^ mw % 2 ^ ew : ℕ) : ℤ) + 2 ≤ 2 ^ ew := by
        have : n / 2 ^ mw % 2 ^ ew + 2 ≤ 2 ^ ew := by omega
        exact_mod_cast this
      unfold emin; omega
    · have : 1 ≤ n / 2 ^ mw % 2 ^ ew := Nat.one_le_iff_ne_zero.2 h3
      omega
    · intro s q hq
      simp only [F64.fin.injEq] at hq
      rw [← hq.2]
      positivity

theorem toBits_ofBits {mw ew : ℕ} (hew : 2 ≤ ew) {n : ℕ} (hn : n < 2 ^ (mw + ew + 1)) (hnan : ofBits mw ew n ≠ .nan) :
    toBits mw ew (ofBits mw ew n) = n := by
  -- sign and the rest
  obtain ⟨s, r, hr, rfl⟩ : ∃ s r, r < 2 ^ (mw + ew) ∧ n = signBit mw ew s + r := by
    by_cases h : 2 ^ (mw + ew) ≤ n
    · refine ⟨true, n - 2 ^ (mw + ew), ?_, ?_⟩
      · rw [pow_succ] at hn; omega
      · simp [signBit]; omega
    · exact ⟨false, n, by omega, by simp [signBit]⟩
  have hm : r % 2 ^ mw < 2 ^ mw := Nat.mod_lt _ (by positivity)
  have hdm : 2 ^ mw * (r / 2 ^ mw) + r % 2 ^ mw = r := Nat.div_add_mod _ _
  rw [ofBits_split mw ew s hr] at hnan ⊢
  clear hn
  by_cases h1 : r / 2 ^ mw = 2 ^ ew - 1
  · rw [if_pos h1] at hnan ⊢
    by_cases h2 : r % 2 ^ mw = 0
    · rw [if_pos h2]
      simp only [toBits]
      rw [← h1, mul_comm]
      omega
    · rw [if_neg h2] at hnan
      exact absurd rfl hnan
  rw [if_neg h1]
  by_cases h3 : r / 2 ^ mw = 0
  · rw [if_pos h3]
    rw [h3] at hdm
    rcases Nat.eq_zero_or_pos (r % 2 ^ mw) with h0 | h0
    · rw [h0]
      simp only [toBits, Nat.cast_zero, zero_mul, le_refl, if_true]
      omega
    · have hq : (0:ℚ) < ((r % 2 ^ mw : ℕ) : ℚ) * 2 ^ emin mw ew := mul_pos (by exact_mod_cast h0) (two_zpow_pos _)
      simp only [toBits, if_neg (not_le.2 hq)]
      rw [ulp_of mw ew _ _ h0 (by rw [pow_succ]; omega) le_rfl (.inl rfl), num_of_mul]
      simp
      omega
  · rw [if_neg h3]
    have hq : (0:ℚ) < ((2 ^ mw + r % 2 ^ mw : ℕ) : ℚ) * 2 ^ (((r / 2 ^ mw : ℕ) : ℤ) - 1 + emin mw ew) :=
      mul_pos (by positivity) (two_zpow_pos _)
    simp only [toBits, if_neg (not_le.2 hq)]
    have h4 : 1 ≤ r / 2 ^ mw := Nat.one_le_iff_ne_zero.2 h3
    rw [ulp_of mw ew _ _ (by positivity) (by rw [pow_succ]; omega) (by omega) (.inr (by omega)), num_of_mul,
      show ((r / 2 ^ mw : ℕ) : ℤ) - 1 + emin mw ew - emin mw ew = ((r / 2 ^ mw - 1 : ℕ) : ℤ) by omega, Int.toNat_natCast]
    have : (r / 2 ^ mw - 1) * 2 ^ mw + 2 ^ mw = 2 ^ mw * (r / 2 ^ mw) := by
      rw [← Nat.succ_mul, Nat.succ_eq_add_one, Nat.sub_add_cancel h4, mul_comm]
    omega

/-- rounding to f32 gives an f32 -/
theorem toF32_rep {x : F64} : RepFmt 23 8 (toF32 x) ∧ ∀ s q, toF32 x = .fin s q → 0 ≤ q := by
  cases x with
  | nan => exact ⟨trivial, by simp [toF32]⟩
  | inf s => exact ⟨trivial, by simp [toF32]⟩
  | fin s q =>
    unfold toF32
    dsimp only
    split_ifs with h1 h2
    · refine ⟨⟨by positivity, 0, emin 23 8, by norm_num, le_rfl, by simp⟩, ?_⟩
      intro s' q' h
      simp only [F64.fin.injEq] at h
      rw [← h.2]
    · exact ⟨trivial, by simp⟩
    · push Not at h1 h2
      have hr : 0 ≤ roundEven (q * (2:ℚ) ^ (-ulp 23 8 q)) := roundEven_nonneg (mul_pos h1 (two_zpow_pos _)).le
      constructor
      · refine ⟨by simpa using h2, ?_⟩
        have hub : roundEven (q * (2:ℚ) ^ (-ulp 23 8 q)) ≤ 2 ^ 24 := by
          have h3 : q * (2:ℚ) ^ (-ulp 23 8 q) ≤ (((2:ℤ) ^ 24 : ℤ) : ℚ) := by
            rw [zpow_neg, ← div_eq_mul_inv, div_le_iff₀ (two_zpow_pos _)]
            refine (ilog2_spec h1).2.le.trans ?_
            have e1 : (((2:ℤ) ^ 24 : ℤ) : ℚ) * 2 ^ ulp 23 8 q = 2 ^ ((24 : ℤ) + ulp 23 8 q) := by
              rw [zpow_add₀ two_ne_zero]; norm_num
            rw [e1]
            exact zpow_le_zpow_right₀ one_le_two (by unfold ulp; omega)
          have := roundEven_mono h3
          rwa [roundEven_int] at this
        have hge : emin 23 8 ≤ ulp 23 8 q := le_max_right _ _
        obtain ⟨n, hn⟩ := Int.eq_ofNat_of_zero_le hr
        rw [hn] at hub ⊢
        rcases lt_or_eq_of_le hub with hlt | heq
        · exact ⟨n, _, by zify; exact hlt, hge, by rw [Int.cast_natCast]⟩
        · refine ⟨2 ^ 23, ulp 23 8 q + 1, by norm_num, by omega, ?_⟩
          have : n = 2 ^ 24 := by exact_mod_cast heq
          rw [this, zpow_add₀ two_ne_zero]
          push_cast
          ring
      · intro s' q' h
        simp only [F64.fin.injEq] at h
        rw [← h.2]
        have : (0:ℚ) ≤ (roundEven (q * (2:ℚ) ^ (-ulp 23 8 q)) : ℚ) := by exact_mod_cast hr
        positivity

/-- the numbers of the 64 bit format are those of the float model -/
theorem rep_iff_repFmt (x : F64) : Rep x ↔ RepFmt 52 11 x ∧ ∀ s q, x = .fin s q → 0 ≤ q := by
  cases x with
  | nan => simp [Rep, RepFmt]
  | inf s => simp [Rep, RepFmt]
  | fin s q =>
    have e : emin 52 11 = -1074 := by norm_num [emin]
    simp only [Rep, RepFmt, Dyad, e]
    norm_num
    constructor
    · rintro ⟨h1, h2, h3⟩; exact ⟨⟨h2, h3⟩, h1⟩
    · rintro ⟨⟨h2, h3⟩, h1⟩; exact ⟨h1, h2, h3⟩

end R3D.F64

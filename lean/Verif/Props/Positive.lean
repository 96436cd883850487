import Verif.Model.Point
import Verif.Lemmas.F64
/-!
# C38: `Positive` and `NonNegative`
-/
namespace R3D
open Scalar LawfulScalar

section
variable {α : Type} [Scalar α]

/-- Everything a program can get by constructing and combining the two wrappers (compound assignments give
the same values as the operators). The two guards restrict the operands of multiplication and division. -/
inductive Reach (gMul gDiv : α → α → Prop) (good : α → Prop) : Positive α ⊕ NonNegative α → Prop
  | newP {v p} (h : good v) (e : Positive.new v = some p) : Reach gMul gDiv good (.inl p)
  | newN {v p} (h : good v) (e : NonNegative.new v = some p) : Reach gMul gDiv good (.inr p)
  | oneP : Reach gMul gDiv good (.inl Positive.one)
  | oneN : Reach gMul gDiv good (.inr NonNegative.one)
  | zeroN : Reach gMul gDiv good (.inr NonNegative.zero)
  | sqrtP {a} : Reach gMul gDiv good (.inl a) → Reach gMul gDiv good (.inl a.sqrt)
  | sqrtN {a} : Reach gMul gDiv good (.inr a) → Reach gMul gDiv good (.inr a.sqrt)
  | ofPositive {a} : Reach gMul gDiv good (.inl a) → Reach gMul gDiv good (.inr (.ofPositive a))
  | addPP {a b} : Reach gMul gDiv good (.inl a) → Reach gMul gDiv good (.inl b) →
      Reach gMul gDiv good (.inl (a.add b))
  | addPN {a b} : Reach gMul gDiv good (.inl a) → Reach gMul gDiv good (.inr b) →
      Reach gMul gDiv good (.inl (a.addNonNegative b))
  | addNN {a b} : Reach gMul gDiv good (.inr a) → Reach gMul gDiv good (.inr b) →
      Reach gMul gDiv good (.inr (a.add b))
  | addNP {a b} : Reach gMul gDiv good (.inr a) → Reach gMul gDiv good (.inl b) →
      Reach gMul gDiv good (.inr (a.addPositive b))
  | mulPP {a b} : gMul a.val b.val → Reach gMul gDiv good (.inl a) → Reach gMul gDiv good (.inl b) →
      Reach gMul gDiv good (.inl (a.mul b))
  | mulPN {a b} : gMul a.val b.val → Reach gMul gDiv good (.inl a) → Reach gMul gDiv good (.inr b) →
      Reach gMul gDiv good (.inr (a.mulNonNegative b))
  | mulNN {a b} : gMul a.val b.val → Reach gMul gDiv good (.inr a) → Reach gMul gDiv good (.inr b) →
      Reach gMul gDiv good (.inr (a.mul b))
  | mulNP {a b} : gMul a.val b.val → Reach gMul gDiv good (.inr a) → Reach gMul gDiv good (.inl b) →
      Reach gMul gDiv good (.inr (a.mulPositive b))
  | divPP {a b c} : Reach gMul gDiv good (.inl a) → Reach gMul gDiv good (.inl b) →
      a.div b = some c → Reach gMul gDiv good (.inr c)
  | divPN {a b c} : Reach gMul gDiv good (.inl a) → Reach gMul gDiv good (.inr b) →
      a.divNonNegative b = some c → Reach gMul gDiv good (.inr c)
  | divNN {a b} : gDiv a.val b.val → Reach gMul gDiv good (.inr a) → Reach gMul gDiv good (.inr b) →
      Reach gMul gDiv good (.inr (a.div b))
  | divNP {a b} : gDiv a.val b.val → Reach gMul gDiv good (.inr a) → Reach gMul gDiv good (.inl b) →
      Reach gMul gDiv good (.inr (a.divPositive b))

/-- C38: construction succeeds exactly for the numbers above (at least) zero and keeps the number; for
doubles: NaN and negative numbers are refused -/
theorem c38_new [LawfulScalar α] (v : α) (h0 : key (Scalar.zero : α) = 0) :
    (∀ p : Positive α, Positive.new v = some p ↔ p.val = v ∧ ok v ∧ 0 < key v) ∧
    (∀ p : NonNegative α, NonNegative.new v = some p ↔ p.val = v ∧ ok v ∧ 0 ≤ key v) := by
  have hz : ok (Scalar.zero : α) := LawfulScalar.ok_zero
  constructor
  · intro p
    unfold Positive.new
    by_cases h : ok v ∧ 0 < key v
    · rw [if_pos ((lt_iff _ _).2 ⟨hz, h.1, by rw [h0]; exact h.2⟩), Option.some.injEq]
      constructor
      · rintro rfl; exact ⟨rfl, h⟩
      · rintro ⟨e, -⟩; cases p; cases e; rfl
    · rw [if_neg (fun hc => h ⟨((lt_iff _ _).1 hc).2.1, by have := ((lt_iff _ _).1 hc).2.2; rwa [h0] at this⟩)]
      simp [h]
  · intro p
    unfold NonNegative.new
    by_cases h : ok v ∧ 0 ≤ key v
    · rw [if_pos ((le_iff _ _).2 ⟨hz, h.1, by rw [h0]; exact h.2⟩), Option.some.injEq]
      constructor
      · rintro rfl; exact ⟨rfl, h⟩
      · rintro ⟨e, -⟩; cases p; cases e; rfl
    · rw [if_neg (fun hc => h ⟨((le_iff _ _).1 hc).2.1, by have := ((le_iff _ _).1 hc).2.2; rwa [h0] at this⟩)]
      simp [h]

end

theorem key_zero_real : key (Scalar.zero : ℝ) = 0 := by simp [LawfulScalar.key]
theorem key_zero_f64 : key (Scalar.zero : F64) = 0 := by
  show F64.key (F64.ofRat 0) = 0
  exact F64.rkey_zero

example : Positive.new (F64.ofRat 2) = some ⟨F64.ofRat 2⟩ ∧ Positive.new (F64.fin true 0) = none ∧
    NonNegative.new (F64.fin true 0) = some ⟨F64.fin true 0⟩ ∧ NonNegative.new F64.nan = none := by
  decide +kernel

/-- C38 with exact arithmetic: every value a program can build is in range, as long as it never divides by
a `NonNegative` that is zero. -/
theorem c38_range_real (x : Positive ℝ ⊕ NonNegative ℝ)
    (h : Reach (fun _ _ => True) (fun _ b => b ≠ 0) (fun _ => True) x) :
    match x with
    | .inl p => 0 < p.val
    | .inr n => 0 ≤ n.val := by
  induction h with
  | newP _ e => simp [Positive.new] at e; obtain ⟨h, rfl⟩ := e; exact h
  | newN _ e => simp [NonNegative.new] at e; obtain ⟨h, rfl⟩ := e; exact h
  | oneP => simp [Positive.one]
  | oneN => simp [NonNegative.one]
  | zeroN => simp [NonNegative.zero]
  | sqrtP _ h => exact Real.sqrt_pos.2 h
  | sqrtN _ _ => exact Real.sqrt_nonneg _
  | ofPositive _ h => exact h.le
  | addPP _ _ h1 h2 => exact add_pos h1 h2
  | addPN _ _ h1 h2 => exact add_pos_of_pos_of_nonneg h1 h2
  | addNN _ _ h1 h2 => exact add_nonneg h1 h2
  | addNP _ _ h1 h2 => exact (add_pos_of_nonneg_of_pos h1 h2).le
  | mulPP _ _ _ h1 h2 => exact mul_pos h1 h2
  | mulPN _ _ _ h1 h2 => exact mul_nonneg h2 h1.le
  | mulNN _ _ _ h1 h2 => exact mul_nonneg h1 h2
  | mulNP _ _ _ h1 h2 => exact mul_nonneg h1 h2.le
  | divPP _ _ e h1 h2 => simp [Positive.div, NonNegative.new] at e; obtain ⟨h, rfl⟩ := e; exact h
  | divPN _ _ e h1 h2 => simp [Positive.divNonNegative, NonNegative.new] at e; obtain ⟨h, rfl⟩ := e; exact h
  | divNN _ _ _ h1 h2 => exact div_nonneg h1 h2
  | divNP _ _ _ h1 h2 => exact div_nonneg h1 h2.le

/-- C38: with exact arithmetic the `unwrap`s of the divisions never panic for values in range -/
theorem c38_div_real (a b : Positive ℝ) (c : NonNegative ℝ) (ha : 0 < a.val) (hb : 0 < b.val)
    (hc : 0 < c.val) :
    a.div b = some ⟨a.val / b.val⟩ ∧ a.divNonNegative c = some ⟨a.val / c.val⟩ := by
  have h1 := (div_pos ha hb).le
  have h2 := (div_pos ha hc).le
  constructor
  · simp only [Positive.div, NonNegative.new, Real.scalar_le, Real.scalar_zero, h1, decide_true, if_true]
  · simp only [Positive.divNonNegative, NonNegative.new, Real.scalar_le, Real.scalar_zero, h2, decide_true, if_true]

/-- C38: the wrappers compute what they say (exact arithmetic): the sum, product and root of the wrapped
numbers -/
theorem c38_values_real (a b : Positive ℝ) (c d : NonNegative ℝ) (ha : 0 < a.val) (hc : 0 ≤ c.val) :
    (a.add b).val = a.val + b.val ∧ (a.addNonNegative c).val = a.val + c.val ∧
    (c.add d).val = c.val + d.val ∧ (c.addPositive a).val = c.val + a.val ∧
    (a.mul b).val = a.val * b.val ∧ (a.mulNonNegative c).val = a.val * c.val ∧
    (c.mul d).val = c.val * d.val ∧ (c.mulPositive a).val = c.val * a.val ∧
    (c.div d).val = c.val / d.val ∧ (c.divPositive a).val = c.val / a.val ∧
    (NonNegative.ofPositive a).val = a.val ∧
    (a.sqrt).val ^ 2 = a.val ∧ (c.sqrt).val ^ 2 = c.val :=
  ⟨rfl, rfl, rfl, rfl, rfl, mul_comm _ _, rfl, rfl, rfl, rfl, rfl, Real.sq_sqrt ha.le, Real.sq_sqrt hc⟩

namespace F64

/-- at least zero (so not NaN) and a double -/
def NN (x : F64) : Prop := x.ok ∧ 0 ≤ key x ∧ Rep x
/-- above zero and a double -/
def PP (x : F64) : Prop := x.ok ∧ 0 < key x ∧ Rep x

theorem PP.nn {x : F64} (h : PP x) : NN x := ⟨h.1, h.2.1.le, h.2.2⟩

theorem nn_cases {x : F64} (h : NN x) : x = .inf false ∨ ∃ s m, x = .fin s m ∧ 0 ≤ val s m ∧ Rep (.fin s m) := by
  obtain ⟨h1, h2, h3⟩ := h
  cases x with
  | nan => exact absurd rfl h1
  | inf s => cases s with
    | false => exact Or.inl rfl
    | true => simp [key] at h2
  | fin s m =>
    refine Or.inr ⟨s, m, rfl, ?_, h3⟩
    simp only [key] at h2
    exact_mod_cast h2

theorem pp_cases {x : F64} (h : PP x) : x = .inf false ∨ ∃ m, x = .fin false m ∧ 0 < m ∧ Rep (.fin false m) := by
  rcases nn_cases h.nn with e | ⟨s, m, rfl, hv, hr⟩
  · exact Or.inl e
  · have hk := h.2.1
    simp only [key] at hk
    have hpos : 0 < val s m := by exact_mod_cast hk
    cases s with
    | false => exact Or.inr ⟨m, rfl, by simpa [val] using hpos, hr⟩
    | true =>
      have := hr.1
      simp [val] at hpos
      linarith

theorem rkey_nonneg {q : ℚ} (h : 0 ≤ q) : 0 ≤ rkey q := by rw [← rkey_zero]; exact rkey_mono h

/-- no underflow from `2^-1074` upwards -/
theorem rkey_pos {q : ℚ} (h : (2:ℚ) ^ (-1074 : ℤ) ≤ q) : 0 < rkey q := by
  have hr : Rep (.fin false ((2:ℚ) ^ (-1074 : ℤ))) :=
    ⟨(two_zpow_pos _).le, zpow_lt_zpow_right₀ one_lt_two (by norm_num), 1, -1074, by norm_num, le_rfl,
      by rw [Nat.cast_one, one_mul]⟩
  have h1 := rkey_mono h
  have h2 := rkey_val hr
  simp only [val, Bool.false_eq_true, if_false] at h2
  rw [h2] at h1
  refine lt_of_lt_of_le ?_ h1
  have : (0:ℝ) < (((2:ℚ) ^ (-1074 : ℤ) : ℚ) : ℝ) := by
    rw [Rat.cast_pos]; exact two_zpow_pos _
  exact_mod_cast this

theorem dyad_ge {m : ℚ} (h : Dyad m) (hpos : 0 < m) : (2:ℚ) ^ (-1074 : ℤ) ≤ m := by
  obtain ⟨n, e, -, he, rfl⟩ := h
  have hn : 1 ≤ n := by
    rcases Nat.eq_zero_or_pos n with rfl | h
    · simp at hpos
    · exact h
  calc (2:ℚ) ^ (-1074 : ℤ) ≤ 2 ^ e := zpow_le_zpow_right₀ one_le_two he
    _ = 1 * 2 ^ e := (one_mul _).symm
    _ ≤ n * 2 ^ e := mul_le_mul_of_nonneg_right (by exact_mod_cast hn) (two_zpow_pos _).le

theorem ok_round (s : Bool) (q : ℚ) : ok (round s q) := by
  rw [round_eq]; split_ifs <;> simp [ok]

theorem ok_add_fin (s t : Bool) (m n : ℚ) : ok (F64.add (.fin s m) (.fin t n)) := by
  simp only [F64.add]
  split_ifs
  · simp [ok]
  · unfold ofRat; split_ifs <;> exact ok_round _ _

theorem NN.add {a b : F64} (ha : NN a) (hb : NN b) : NN (F64.add a b) := by
  refine ⟨?_, ?_, add_rep _ _⟩
  · rcases nn_cases ha with rfl | ⟨s, m, rfl, hv, hr⟩ <;> rcases nn_cases hb with rfl | ⟨t, n, rfl, hw, hr'⟩
    · simp [F64.add, ok]
    · simp [F64.add, ok]
    · simp [F64.add, ok]
    · exact ok_add_fin _ _ _ _
  · rcases nn_cases ha with rfl | ⟨s, m, rfl, hv, hr⟩ <;> rcases nn_cases hb with rfl | ⟨t, n, rfl, hw, hr'⟩
    · simp [F64.add, key]
    · simp [F64.add, key]
    · simp [F64.add, key]
    · rw [key_add]; exact rkey_nonneg (add_nonneg hv hw)

theorem PP.add {a b : F64} (ha : PP a) (hb : NN b) : PP (F64.add a b) := by
  refine ⟨(ha.nn.add hb).1, ?_, add_rep _ _⟩
  rcases pp_cases ha with rfl | ⟨m, rfl, hv, hr⟩ <;> rcases nn_cases hb with rfl | ⟨t, n, rfl, hw, hr'⟩
  · simp [F64.add, key]
  · simp [F64.add, key]
  · simp [F64.add, key]
  · rw [key_add]
    apply rkey_pos
    have := dyad_ge hr.2.2 hv
    simp only [val, Bool.false_eq_true, if_false] at hw ⊢
    linarith

theorem add_comm' (a b : F64) : F64.add a b = F64.add b a := by
  cases a with
  | nan => cases b <;> rfl
  | inf s =>
    cases b with
    | nan => rfl
    | inf t =>
      simp only [F64.add]
      by_cases h : s = t
      · subst h; rfl
      · rw [if_neg h, if_neg (Ne.symm h)]
    | fin t n => rfl
  | fin s m =>
    cases b with
    | nan => rfl
    | inf t => rfl
    | fin t n => simp only [F64.add]; rw [_root_.add_comm (val s m), Bool.and_comm]

theorem mul_comm' (a b : F64) : F64.mul a b = F64.mul b a := by
  cases a with
  | nan => cases b <;> rfl
  | inf s =>
    cases b with
    | nan => rfl
    | inf t => simp only [F64.mul]; rw [Bool.xor_comm]
    | fin t n => simp only [F64.mul]; rw [Bool.xor_comm]
  | fin s m =>
    cases b with
    | nan => rfl
    | inf t => simp only [F64.mul]; rw [Bool.xor_comm]
    | fin t n => simp only [F64.mul]; rw [_root_.mul_comm m, Bool.xor_comm]

theorem NN.mul {a b : F64} (ha : NN a) (hb : NN b) (h : ok (F64.mul a b)) : NN (F64.mul a b) := by
  refine ⟨h, ?_, mul_rep _ _⟩
  rcases nn_cases ha with rfl | ⟨s, m, rfl, hv, hr⟩ <;> rcases nn_cases hb with rfl | ⟨t, n, rfl, hw, hr'⟩
  · simp [F64.mul, key]
  · have hn := hr'.1
    simp only [F64.mul, ok] at h ⊢
    split_ifs at h ⊢ with h0
    · exact absurd rfl h
    · cases t with
      | false => simp [key]
      | true => simp [val] at hw; exact absurd (by linarith) h0
  · have hm := hr.1
    simp only [F64.mul, ok] at h ⊢
    split_ifs at h ⊢ with h0
    · exact absurd rfl h
    · cases s with
      | false => simp [key]
      | true => simp [val] at hv; exact absurd (by linarith) h0
  · rw [key_mul hr.1 hr'.1]; exact rkey_nonneg (mul_nonneg hv hw)

theorem NN.div {a b : F64} (ha : NN a) (hb : NN b) (hb0 : 0 < key b) (h : ok (F64.div a b)) : NN (F64.div a b) := by
  refine ⟨h, ?_, div_rep _ _⟩
  rcases pp_cases ⟨hb.1, hb0, hb.2.2⟩ with rfl | ⟨n, rfl, hw, hr'⟩ <;>
    rcases nn_cases ha with rfl | ⟨s, m, rfl, hv, hr⟩
  · simp [F64.div, key]
  · simp [F64.div, key, val]
  · simp [F64.div, key]
  · rw [key_div hr.1 hw]
    apply rkey_nonneg
    simp only [val, Bool.false_eq_true, if_false] at hv ⊢
    exact div_nonneg hv hw.le

theorem isqrt_ge (n : Nat) : ∀ (k acc : Nat), acc ≤ isqrt n k acc := by
  intro k
  induction k with
  | zero => intro acc; exact le_rfl
  | succ k ih =>
    intro acc
    unfold isqrt
    split_ifs
    · exact (Nat.le_add_right _ _).trans (ih _)
    · exact ih _

theorem isqrt_pos {n : Nat} (h : 1 ≤ n) : 1 ≤ isqrt n (Nat.log2 n / 2 + 1) 0 := by
  unfold isqrt
  rw [if_pos]
  · refine le_trans ?_ (isqrt_ge _ _ _)
    rw [Nat.zero_add]; exact Nat.one_le_two_pow
  · rw [Nat.zero_add, ← pow_add]
    refine le_trans (Nat.pow_le_pow_right (by norm_num) (?_ : _ ≤ Nat.log2 n)) (Nat.log2_self_le (by omega))
    omega

theorem key_sqrtMag_pos {m : ℚ} (hm : (2:ℚ) ^ (-1074 : ℤ) ≤ m) : 0 < key (sqrtMag m) := by
  have hpos : 0 < m := lt_of_lt_of_le (two_zpow_pos _) hm
  unfold sqrtMag
  rw [if_neg (not_le.2 hpos)]
  dsimp only
  have hl : -1074 ≤ ilog2 m := by
    have h2 := (ilog2_spec hpos).2
    have : (2:ℚ) ^ (-1074 : ℤ) < 2 ^ (ilog2 m + 1) := lt_of_le_of_lt hm h2
    rw [zpow_lt_zpow_iff_right₀ one_lt_two] at this
    omega
  generalize hk : max 0 (56 - ilog2 m / 2) = k
  have hk1 : k ≤ 593 := by omega
  have hk2 : 56 - ilog2 m / 2 ≤ k := by omega
  have hx : (1:ℚ) ≤ m * 4 ^ k := by
    have h1 := (ilog2_spec hpos).1
    have h4 : (4:ℚ) ^ k = 2 ^ (2 * k) := by rw [zpow_mul]; norm_num
    rw [h4]
    calc (1:ℚ) = 2 ^ (0:ℤ) := by simp
      _ ≤ 2 ^ (ilog2 m + 2 * k) := zpow_le_zpow_right₀ one_le_two (by omega)
      _ = 2 ^ ilog2 m * 2 ^ (2 * k) := zpow_add₀ two_ne_zero _ _
      _ ≤ m * 2 ^ (2 * k) := mul_le_mul_of_nonneg_right h1 (two_zpow_pos _).le
  generalize m * (4:ℚ) ^ k = x at hx ⊢
  have hn : 1 ≤ (x.num / (x.den : ℤ)).toNat := by
    have h1 : (1:ℤ) ≤ ⌊x⌋ := by rw [Int.le_floor]; exact_mod_cast hx
    have h2 : ⌊x⌋ = x.num / (x.den : ℤ) := Rat.floor_def'
    omega
  have hs := isqrt_pos hn
  generalize isqrt (x.num / (x.den : ℤ)).toNat (Nat.log2 (x.num / (x.den : ℤ)).toNat / 2 + 1) 0 = s at hs ⊢
  have hge : (2:ℚ) ^ (-1074 : ℤ) ≤ ((s:ℚ) + if (s * s : ℚ) = x then 0 else 1 / 2) * (2 : ℚ) ^ (-k) := by
    have h1 : (1:ℚ) ≤ (s:ℚ) + if (s * s : ℚ) = x then 0 else 1 / 2 := by
      have : (1:ℚ) ≤ s := by exact_mod_cast hs
      split_ifs <;> linarith
    calc (2:ℚ) ^ (-1074 : ℤ) ≤ 2 ^ (-k) := zpow_le_zpow_right₀ one_le_two (by omega)
      _ = 1 * 2 ^ (-k) := (one_mul _).symm
      _ ≤ _ := mul_le_mul_of_nonneg_right h1 (two_zpow_pos _).le
  have := rkey_pos hge
  unfold rkey ofRat at this
  rwa [if_neg (not_lt.2 ((two_zpow_pos _).le.trans hge))] at this

theorem NN.sqrt {a : F64} (ha : NN a) : NN (F64.sqrt a) := by
  refine ⟨?_, ?_, sqrt_rep _⟩
  · rcases nn_cases ha with rfl | ⟨s, m, rfl, hv, hr⟩
    · simp [F64.sqrt, ok]
    · simp only [F64.sqrt]
      split_ifs with h0 h1
      · simp [ok]
      · subst h1
        simp [val] at hv
        exact absurd (le_antisymm hv hr.1) h0
      · unfold sqrtMag; split_ifs
        · simp [ok]
        · exact ok_round _ _
  · rcases nn_cases ha with rfl | ⟨s, m, rfl, hv, hr⟩
    · simp [F64.sqrt, key]
    · simp only [F64.sqrt]
      split_ifs with h0 h1
      · simp [key, val]
      · simp [key]
      · unfold sqrtMag; split_ifs
        · simp [key, val]
        · exact key_round_nonneg _

theorem PP.sqrt {a : F64} (ha : PP a) : PP (F64.sqrt a) := by
  refine ⟨ha.nn.sqrt.1, ?_, sqrt_rep _⟩
  rcases pp_cases ha with rfl | ⟨m, rfl, hv, hr⟩
  · simp [F64.sqrt, key]
  · simp only [F64.sqrt, if_neg hv.ne', Bool.false_eq_true, if_false]
    exact key_sqrtMag_pos (dyad_ge hr.2.2 hv)

end F64

/-- guard for doubles: a product must not be `0 * inf`, and must not underflow: an exact non zero product
is at least the smallest double -/
def F64.MulSafe : F64 → F64 → Prop
  | .fin _ m, .fin _ n => m = 0 ∨ n = 0 ∨ (2:ℚ) ^ (-1074 : ℤ) ≤ m * n
  | .fin _ m, .inf _ => m ≠ 0
  | .inf _, .fin _ n => n ≠ 0
  | _, _ => True

/-- guard for doubles: the divisor is above zero and not both operands are infinite -/
def F64.DivSafe : F64 → F64 → Prop
  | .fin _ _, .fin _ n => n ≠ 0
  | .fin _ _, .inf _ => True
  | .inf _, .fin _ n => n ≠ 0
  | _, _ => False

namespace F64

theorem MulSafe.ok {a b : F64} (ha : NN a) (hb : NN b) (h : MulSafe a b) : F64.ok (F64.mul a b) := by
  rcases nn_cases ha with rfl | ⟨s, m, rfl, hv, hr⟩ <;> rcases nn_cases hb with rfl | ⟨t, n, rfl, hw, hr'⟩
  · simp [F64.mul, F64.ok]
  · simp only [MulSafe] at h; simp [F64.mul, F64.ok, h]
  · simp only [MulSafe] at h; simp [F64.mul, F64.ok, h]
  · exact ok_round _ _

theorem PP.mul {a b : F64} (ha : PP a) (hb : PP b) (h : MulSafe a b) : PP (F64.mul a b) := by
  refine ⟨h.ok ha.nn hb.nn, ?_, mul_rep _ _⟩
  rcases pp_cases ha with rfl | ⟨m, rfl, hv, hr⟩ <;> rcases pp_cases hb with rfl | ⟨n, rfl, hw, hr'⟩
  · simp [F64.mul, key]
  · simp [F64.mul, key, hw.ne']
  · simp [F64.mul, key, hv.ne']
  · rw [key_mul hr.1 hr'.1]
    apply rkey_pos
    simp only [MulSafe, hv.ne', hw.ne', false_or] at h
    simpa [val] using h

theorem DivSafe.pos {a b : F64} (hb : NN b) (h : DivSafe a b) : 0 < key b := by
  rcases nn_cases hb with rfl | ⟨t, n, rfl, hw, hr'⟩
  · simp [key]
  · have hn : n ≠ 0 := by cases a with
      | nan => exact h.elim
      | inf _ => exact h
      | fin _ _ => exact h
    cases t with
    | false =>
      have : 0 < n := lt_of_le_of_ne hr'.1 (Ne.symm hn)
      simp only [key, val, Bool.false_eq_true, if_false]
      exact_mod_cast this
    | true => simp [val] at hw; exact absurd (le_antisymm hw hr'.1) hn

theorem DivSafe.ok {a b : F64} (ha : NN a) (hb : NN b) (h : DivSafe a b) : F64.ok (F64.div a b) := by
  rcases nn_cases ha with rfl | ⟨s, m, rfl, hv, hr⟩ <;> rcases nn_cases hb with rfl | ⟨t, n, rfl, hw, hr'⟩
  · exact h.elim
  · simp [F64.div, F64.ok]
  · simp [F64.div, F64.ok]
  · simp only [DivSafe] at h
    simp only [F64.div, h, if_false]
    exact ok_round _ _

end F64

/-- C38 for doubles: every value a program can build is in range (and not NaN), provided no
multiplication is `0 * inf` or underflows and no `NonNegative` division is by zero or `inf / inf`. The property
without these guards is false, see `c38_violated`. -/
theorem c38_range_f64_partial (x : Positive F64 ⊕ NonNegative F64)
    (h : Reach F64.MulSafe F64.DivSafe F64.Rep x) :
    match x with
    | .inl p => F64.ok p.val ∧ 0 < F64.key p.val
    | .inr n => F64.ok n.val ∧ 0 ≤ F64.key n.val := by
  have hone : F64.PP (lit 1 : F64) := by
    have h1 : F64.Rep (.fin false 1) := by
      refine ⟨zero_le_one, one_lt_zpow₀ one_lt_two (by norm_num), 1, 0, by norm_num, by norm_num, by norm_num⟩
    have h2 : (lit 1 : F64) = .fin false 1 := by decide +kernel
    rw [h2]
    exact ⟨by simp [F64.ok], by simp [F64.key, F64.val], h1⟩
  have hz : F64.NN (Scalar.zero : F64) := by
    refine ⟨?_, key_zero_f64.ge, F64.ofRat_rep 0⟩
    show F64.ok (F64.ofRat 0)
    unfold F64.ofRat; split_ifs <;> exact F64.ok_round _ _
  suffices H : match x with
      | .inl p => F64.PP p.val
      | .inr n => F64.NN n.val by
    cases x with
    | inl p => exact ⟨H.1, H.2.1⟩
    | inr p => exact ⟨H.1, H.2.1⟩
  induction h with
  | newP hr e =>
    obtain ⟨e, h1, h2⟩ := ((c38_new _ key_zero_f64).1 _).1 e
    cases e; exact ⟨h1, h2, hr⟩
  | newN hr e =>
    obtain ⟨e, h1, h2⟩ := ((c38_new _ key_zero_f64).2 _).1 e
    cases e; exact ⟨h1, h2, hr⟩
  | oneP => exact hone
  | oneN => exact hone.nn
  | zeroN => exact hz
  | sqrtP _ h => exact h.sqrt
  | sqrtN _ h => exact h.sqrt
  | ofPositive _ h => exact h.nn
  | addPP _ _ h1 h2 => exact h1.add h2.nn
  | addPN _ _ h1 h2 => exact h1.add h2
  | addNN _ _ h1 h2 => exact h1.add h2
  | addNP _ _ h1 h2 => exact h1.add h2.nn
  | mulPP g _ _ h1 h2 => exact h1.mul h2 g
  | mulPN g _ _ h1 h2 =>
    have e := F64.MulSafe.ok h1.nn h2 g
    rw [F64.mul_comm'] at e
    exact h2.mul h1.nn e
  | mulNN g _ _ h1 h2 => exact h1.mul h2 (g.ok h1 h2)
  | mulNP g _ _ h1 h2 => exact h1.mul h2.nn (g.ok h1 h2.nn)
  | divPP _ _ e h1 h2 =>
    obtain ⟨e, h3, h4⟩ := ((c38_new _ key_zero_f64).2 _).1 e
    show F64.NN _
    rw [e]; exact ⟨h3, h4, F64.div_rep _ _⟩
  | divPN _ _ e h1 h2 =>
    obtain ⟨e, h3, h4⟩ := ((c38_new _ key_zero_f64).2 _).1 e
    show F64.NN _
    rw [e]; exact ⟨h3, h4, F64.div_rep _ _⟩
  | divNN g _ _ h1 h2 => exact h1.div h2 (g.pos h2) (g.ok h1 h2)
  | divNP g _ _ h1 h2 => exact h1.div h2.nn (g.pos h2.nn) (g.ok h1 h2.nn)

example : Reach F64.MulSafe F64.DivSafe F64.Rep (.inl ((Positive.mk (F64.ofRat 2)).mul ⟨F64.ofRat (1/3)⟩)) := by
  refine .mulPP ?_ (.newP (v := F64.ofRat 2) (F64.ofRat_rep _) (by decide +kernel))
    (.newP (v := F64.ofRat (1/3)) (F64.ofRat_rep _) (by decide +kernel))
  have h1 : F64.ofRat 2 = .fin false 2 := by decide +kernel
  have h2 : F64.ofRat (1/3) = .fin false (6004799503160661/18014398509481984) := by decide +kernel
  rw [h1, h2]
  refine Or.inr (Or.inr ?_)
  decide +kernel

/-- C38 is violated for doubles: a `NonNegative` can hold NaN (`0 / 0`, `0 * inf`), a `Positive` can hold
zero (underflow), and dividing two `Positive`s can panic (`inf / inf`). -/
theorem c38_violated :
    ((NonNegative.zero : NonNegative F64).div .zero).val = .nan ∧
    ((NonNegative.zero : NonNegative F64).mulPositive ⟨.inf false⟩).val = .nan ∧
    ((Positive.mk (F64.fin false (1 / 2 ^ 600))).mul ⟨.fin false (1 / 2 ^ 600)⟩).val = .fin false 0 ∧
    (Positive.mk (F64.inf false)).div ⟨.inf false⟩ = none ∧
    Positive.new (F64.inf false) = some ⟨.inf false⟩ ∧
    Positive.new (F64.fin false (1 / 2 ^ 600)) = some ⟨.fin false (1 / 2 ^ 600)⟩ := by
  decide +kernel

end R3D

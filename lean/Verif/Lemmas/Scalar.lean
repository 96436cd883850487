import Verif.Model.F64
import Mathlib.Data.EReal.Basic
import Mathlib.Tactic.Linarith
import Mathlib.Tactic.Positivity
/-
Order structure of scalars. `LawfulScalar` states what the comparisons mean; it holds for `ℝ` and
for the binary64 model including infinities and NaN, so theorems proved from it hold for the
numbers the library really computes with.
-/
namespace R3D

/-- The comparisons of `α` compare an extended real value; `ok` is "not NaN". -/
class LawfulScalar (α : Type) [Scalar α] where
  ok : α → Prop
  key : α → EReal
  lt_iff : ∀ a b : α, Scalar.lt a b = true ↔ ok a ∧ ok b ∧ key a < key b
  le_iff : ∀ a b : α, Scalar.le a b = true ↔ ok a ∧ ok b ∧ key a ≤ key b
  eq_iff : ∀ a b : α, Scalar.eq a b = true ↔ ok a ∧ ok b ∧ key a = key b
  ok_zero : ok (Scalar.zero : α)
  key_zero : key (Scalar.zero : α) = 0

namespace Real
@[simp] theorem scalar_lt (a b : ℝ) : Scalar.lt a b = decide (a < b) := rfl
@[simp] theorem scalar_le (a b : ℝ) : Scalar.le a b = decide (a ≤ b) := rfl
@[simp] theorem scalar_eq (a b : ℝ) : Scalar.eq a b = decide (a = b) := rfl
@[simp] theorem scalar_lit (q : ℚ) : (Scalar.lit q : ℝ) = (q : ℝ) := rfl
@[simp] theorem scalar_zero : (Scalar.zero : ℝ) = 0 := by simp [Scalar.zero]
@[simp] theorem scalar_abs (a : ℝ) : Scalar.abs a = |a| := rfl
@[simp] theorem scalar_sqrt (a : ℝ) : Scalar.sqrt a = Real.sqrt a := rfl
@[simp] theorem scalar_toNatSat (m : Nat) (a : ℝ) : Scalar.toNatSat m a = min m ⌊a⌋₊ := rfl
theorem scalar_max2 (a b : ℝ) : Scalar.max2 a b = max a b := by
  unfold Scalar.max2
  rcases lt_or_ge b a with h | h
  · simp [h, le_of_lt h]
  · simp [not_lt.2 h, h]
end Real

noncomputable instance : LawfulScalar ℝ where
  ok _ := True
  key x := (x : EReal)
  lt_iff a b := by simp
  le_iff a b := by simp
  eq_iff a b := by simp
  ok_zero := trivial
  key_zero := by simp

namespace F64

/-- extended real value of a binary64 number (NaN arbitrary) -/
noncomputable def key : F64 → EReal
  | .nan => 0
  | .inf s => if s then ⊥ else ⊤
  | .fin s m => (((val s m : ℚ) : ℝ) : EReal)

/-- not NaN -/
def ok (x : F64) : Prop := x ≠ .nan

theorem lt_iff (a b : F64) : lt a b = true ↔ ok a ∧ ok b ∧ key a < key b := by
  cases a with
  | nan => simp [lt, ok]
  | inf s =>
    cases b with
    | nan => simp [lt, ok]
    | inf t => cases s <;> cases t <;> simp [lt, ok, key]
    | fin t n => cases s <;> simp [lt, ok, key, EReal.bot_lt_coe]
  | fin s m =>
    cases b with
    | nan => simp [lt, ok]
    | inf t => cases t <;> simp [lt, ok, key, EReal.coe_lt_top]
    | fin t n => simp [lt, ok, key]

theorem eq_iff (a b : F64) : eq a b = true ↔ ok a ∧ ok b ∧ key a = key b := by
  cases a with
  | nan => simp [eq, ok]
  | inf s =>
    cases b with
    | nan => simp [eq, ok]
    | inf t => cases s <;> cases t <;> simp [eq, ok, key]
    | fin t n => cases s <;> simp [eq, ok, key]
  | fin s m =>
    cases b with
    | nan => simp [eq, ok]
    | inf t => cases t <;> simp [eq, ok, key]
    | fin t n => simp [eq, ok, key]

end F64

noncomputable instance : LawfulScalar F64 where
  ok := F64.ok
  key := F64.key
  lt_iff := F64.lt_iff
  le_iff a b := by
    show F64.le a b = true ↔ _
    rw [F64.le, Bool.or_eq_true, F64.lt_iff, F64.eq_iff, le_iff_lt_or_eq]
    tauto
  eq_iff := F64.eq_iff
  ok_zero := by
    show F64.ofRat 0 ≠ F64.nan
    decide +kernel
  key_zero := by
    show F64.key (F64.ofRat 0) = 0
    have : F64.ofRat 0 = .fin false 0 := by decide +kernel
    simp [this, F64.key, F64.val]

namespace LawfulScalar
variable {α : Type} [Scalar α] [LawfulScalar α]

theorem lt_of_ok {a b : α} (ha : ok a) (hb : ok b) : Scalar.lt a b = true ↔ key a < key b := by
  simp [lt_iff, ha, hb]
theorem le_of_ok {a b : α} (ha : ok a) (hb : ok b) : Scalar.le a b = true ↔ key a ≤ key b := by
  simp [le_iff, ha, hb]
theorem eq_of_ok {a b : α} (ha : ok a) (hb : ok b) : Scalar.eq a b = true ↔ key a = key b := by
  simp [eq_iff, ha, hb]
end LawfulScalar

end R3D

namespace R3D

/-- The sign rules of subtraction and the rules for zero which hold for reals and binary64. -/
class LawfulZero (α : Type) [Scalar α] extends LawfulScalar α where
  sub_neg : ∀ a b : α, ok a → ok b → key a < key b → ok (a - b) ∧ key (a - b) ≤ 0
  mul_zero : ∀ a b : α, ok a → ok b → key a = 0 → key b = 0 → ok (a * b) ∧ key (a * b) = 0
  add_zero : ∀ a b : α, ok a → ok b → key a = 0 → key b = 0 → ok (a + b) ∧ key (a + b) = 0
  sqrt_zero : ∀ a : α, ok a → key a = 0 → ok (Scalar.sqrt a) ∧ key (Scalar.sqrt a) = 0

noncomputable instance : LawfulZero ℝ where
  sub_neg a b _ _ h := by
    refine ⟨trivial, ?_⟩
    have h' : a < b := by simpa [LawfulScalar.key] using h
    show ((a - b : ℝ) : EReal) ≤ 0
    exact_mod_cast (sub_neg.2 h').le
  mul_zero a b _ _ h h' := by
    refine ⟨trivial, ?_⟩
    have e : a = 0 := by simpa [LawfulScalar.key] using h
    subst e
    simp [LawfulScalar.key]
  add_zero a b _ _ h h' := by
    refine ⟨trivial, ?_⟩
    have e : a = 0 := by simpa [LawfulScalar.key] using h
    have e' : b = 0 := by simpa [LawfulScalar.key] using h'
    subst e; subst e'
    simp [LawfulScalar.key]
  sqrt_zero a _ h := by
    refine ⟨trivial, ?_⟩
    have e : a = 0 := by simpa [LawfulScalar.key] using h
    subst e
    simp [LawfulScalar.key]

namespace F64

theorem roundEven_nonneg {q : ℚ} (h : 0 ≤ q) : 0 ≤ roundEven q := by
  have hn : 0 ≤ q.num / (q.den : Int) := Int.ediv_nonneg (Rat.num_nonneg.2 h) (by positivity)
  unfold roundEven
  simp only
  split_ifs <;> omega

theorem round_zero (s : Bool) : round s 0 = .fin s 0 := by simp [round]

/-- rounding keeps the sign -/
theorem round_cases (s : Bool) {q : ℚ} (h : 0 ≤ q) :
    round s q = .inf s ∨ ∃ m, 0 ≤ m ∧ round s q = .fin s m := by
  unfold round
  split_ifs with h1
  · exact .inr ⟨0, le_rfl, rfl⟩
  · have hq := lt_of_not_ge h1
    simp only
    split_ifs with h2
    · exact .inl rfl
    · refine .inr ⟨_, ?_, rfl⟩
      have : (0:ℚ) ≤ roundEven (q * 2 ^ (-max (ilog2 q - 52) (-1074))) := by
        exact_mod_cast roundEven_nonneg (mul_nonneg h (zpow_nonneg (by norm_num) _))
      exact mul_nonneg this (zpow_nonneg (by norm_num) _)

theorem ofRat_neg {q : ℚ} (h : q < 0) : ok (ofRat q) ∧ key (ofRat q) ≤ 0 := by
  unfold ofRat
  rw [if_pos h]
  rcases round_cases true (q := -q) (by linarith) with e | ⟨m, hm, e⟩
  · rw [e]; simp [ok, key]
  · rw [e]
    refine ⟨by simp [ok], ?_⟩
    simp only [key, val, if_true]
    have : ((-m : ℚ) : ℝ) ≤ 0 := by exact_mod_cast neg_nonpos.2 hm
    exact_mod_cast this

theorem key_zero_iff {a : F64} (ho : ok a) (h : key a = 0) : ∃ s m, a = .fin s m ∧ m = 0 := by
  cases a with
  | nan => exact absurd rfl ho
  | inf s => cases s <;> simp [key] at h
  | fin s m =>
    refine ⟨s, m, rfl, ?_⟩
    cases s <;> simpa [key, val] using h

end F64

noncomputable instance : LawfulZero F64 where
  sub_neg a b ha hb h := by
    show F64.ok (F64.sub a b) ∧ F64.key (F64.sub a b) ≤ 0
    replace h : F64.key a < F64.key b := h
    cases a with
    | nan => exact absurd rfl ha
    | inf s =>
      cases b with
      | nan => exact absurd rfl hb
      | inf t => cases s <;> cases t <;> simp [F64.key, F64.sub, F64.neg, F64.add, F64.ok] at h ⊢
      | fin t n => cases s <;> simp [F64.key, F64.sub, F64.neg, F64.add, F64.ok] at h ⊢
    | fin s m =>
      cases b with
      | nan => exact absurd rfl hb
      | inf t => cases t <;> simp [F64.key, F64.sub, F64.neg, F64.add, F64.ok] at h ⊢
      | fin t n =>
        have h' : F64.val s m < F64.val t n := by
          simp only [F64.key] at h
          exact_mod_cast h
        have e : F64.val (!t) n = -F64.val t n := by cases t <;> simp [F64.val]
        have hq : F64.val s m + F64.val (!t) n < 0 := by rw [e]; linarith
        simp only [F64.sub, F64.neg, F64.add]
        rw [if_neg hq.ne]
        exact F64.ofRat_neg hq
  mul_zero a b ha hb h h' := by
    obtain ⟨s, m, rfl, rfl⟩ := F64.key_zero_iff ha h
    obtain ⟨t, n, rfl, rfl⟩ := F64.key_zero_iff hb h'
    show F64.ok (F64.mul _ _) ∧ F64.key (F64.mul _ _) = 0
    simp [F64.mul, F64.round_zero, F64.ok, F64.key, F64.val]
  add_zero a b ha hb h h' := by
    obtain ⟨s, m, rfl, rfl⟩ := F64.key_zero_iff ha h
    obtain ⟨t, n, rfl, rfl⟩ := F64.key_zero_iff hb h'
    show F64.ok (F64.add _ _) ∧ F64.key (F64.add _ _) = 0
    simp [F64.add, F64.ok, F64.key, F64.val]
  sqrt_zero a ha h := by
    obtain ⟨s, m, rfl, rfl⟩ := F64.key_zero_iff ha h
    show F64.ok (F64.sqrt _) ∧ F64.key (F64.sqrt _) = 0
    simp [F64.sqrt, F64.ok, F64.key, F64.val]

end R3D

namespace R3D

/-- Finite scalars: the center of a finite interval is never NaN. -/
class FiniteScalar (α : Type) [Scalar α] extends LawfulZero α where
  fin : α → Prop
  fin_ok : ∀ a : α, fin a → ok a
  mid_ok : ∀ a b : α, fin a → fin b → ok (a + (b - a) / Scalar.lit 2)

noncomputable instance : FiniteScalar ℝ where
  fin _ := True
  fin_ok _ _ := trivial
  mid_ok _ _ _ _ := trivial

namespace F64

/-- not NaN and not infinite -/
def IsFin (x : F64) : Prop := ∃ s m, x = .fin s m

theorem round_ok (s : Bool) (q : ℚ) : (∃ t, round s q = .inf t) ∨ IsFin (round s q) := by
  unfold round
  split_ifs
  · exact .inr ⟨_, _, rfl⟩
  · simp only
    split_ifs
    · exact .inl ⟨_, rfl⟩
    · exact .inr ⟨_, _, rfl⟩

theorem ofRat_ok (q : ℚ) : (∃ t, ofRat q = .inf t) ∨ IsFin (ofRat q) := by
  unfold ofRat; split_ifs <;> exact round_ok _ _

theorem add_fin {a b : F64} (ha : IsFin a) (hb : IsFin b) : (∃ t, add a b = .inf t) ∨ IsFin (add a b) := by
  obtain ⟨s, m, rfl⟩ := ha
  obtain ⟨t, n, rfl⟩ := hb
  simp only [add]
  split_ifs
  · exact .inr ⟨_, _, rfl⟩
  · exact ofRat_ok _

theorem div_two {a : F64} (h : (∃ t, a = .inf t) ∨ IsFin a) :
    (∃ t, div a (ofRat 2) = .inf t) ∨ IsFin (div a (ofRat 2)) := by
  have h2 : ofRat 2 = .fin false 2 := by decide +kernel
  rw [h2]
  rcases h with ⟨t, rfl⟩ | ⟨s, m, rfl⟩
  · exact .inl ⟨_, rfl⟩
  · simp only [div]
    rw [if_neg (by norm_num)]
    exact round_ok _ _
end F64

noncomputable instance : FiniteScalar F64 where
  fin := F64.IsFin
  fin_ok a h := by obtain ⟨s, m, rfl⟩ := h; exact F64.noConfusion
  mid_ok a b ha hb := by
    show F64.add a (F64.div (F64.sub b a) (F64.ofRat 2)) ≠ F64.nan
    have hs : (∃ t, F64.sub b a = .inf t) ∨ F64.IsFin (F64.sub b a) := by
      apply F64.add_fin hb
      obtain ⟨s, m, rfl⟩ := ha
      exact ⟨_, _, rfl⟩
    rcases F64.div_two hs with ⟨t, e⟩ | h
    · obtain ⟨s, m, rfl⟩ := ha
      rw [e]
      simp [F64.add]
    · rcases F64.add_fin ha h with ⟨t, e⟩ | ⟨s, m, e⟩ <;> rw [e] <;> exact F64.noConfusion
end R3D

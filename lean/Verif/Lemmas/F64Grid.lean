import Verif.Lemmas.F64Op
import Verif.Lemmas.F64Box
/-!
Doubles that are multiples of a power of two: sums and products of few steps are exact.
-/
namespace R3D
namespace F64
open Scalar LawfulScalar

/-- finite, and `n` steps of size `2^e` -/
def Grid (e : ℤ) (n : ℤ) (x : F64) : Prop := Num x ∧ toR x = n * 2 ^ e

theorem dyad_int {n e : ℤ} (hn : |n| < 2 ^ 53) (he : -1074 ≤ e) : Dyad |(n : ℚ) * 2 ^ e| :=
  ⟨n.natAbs, e, by zify; exact hn, he, by
    rw [abs_mul, abs_of_pos (two_zpow_pos e), ← Int.cast_natCast n.natAbs, Int.natCast_natAbs, Int.cast_abs]⟩

theorem int_bound {n e : ℤ} (hn : |n| < 2 ^ 53) (he : e ≤ 970) : |(n : ℚ) * 2 ^ e| ≤ 2 ^ (1023 : ℤ) := by
  rw [abs_mul, abs_of_pos (two_zpow_pos e)]
  have h1 : |(n : ℚ)| ≤ 2 ^ (53 : ℤ) := by
    have : ((|n| : ℤ) : ℚ) ≤ ((2 ^ 53 : ℤ) : ℚ) := by exact_mod_cast hn.le
    rw [Int.cast_abs] at this
    refine this.trans (by norm_num)
  calc |(n : ℚ)| * 2 ^ e ≤ 2 ^ (53 : ℤ) * 2 ^ (970 : ℤ) :=
        mul_le_mul h1 (zpow_le_zpow_right₀ (by norm_num) he) (two_zpow_pos _).le (two_zpow_pos _).le
    _ = 2 ^ (1023 : ℤ) := by rw [← zpow_add₀ two_ne_zero]; norm_num

theorem ofRat_grid {n e : ℤ} (hn : |n| < 2 ^ 53) (he : -1074 ≤ e) (he' : e ≤ 970) : Grid e n (ofRat ((n : ℚ) * 2 ^ e)) := by
  obtain ⟨h1, h2⟩ := ofRat_err (q := (n : ℚ) * 2 ^ e) (e := 0) (int_bound hn he') (by
    rw [rnd_exact (dyad_int hn he), sub_self, abs_zero])
  refine ⟨h1, ?_⟩
  have : toR (ofRat ((n : ℚ) * 2 ^ e)) - n * 2 ^ e = 0 := by simpa using h2
  exact sub_eq_zero.1 this

namespace Grid
variable {e e' n m : ℤ} {a b : F64}

theorem neg (h : Grid e n a) : Grid e (-n) (F64.neg a) := by
  refine ⟨h.1.neg, ?_⟩
  rw [toR_neg h.1, h.2]; push_cast; ring

theorem val_eq {s : Bool} {q : ℚ} (h : ((val s q : ℚ) : ℝ) = n * 2 ^ e) : val s q = n * 2 ^ e := by
  have : ((val s q : ℚ) : ℝ) = (((n : ℚ) * 2 ^ e : ℚ) : ℝ) := by rw [h]; push_cast; ring
  exact_mod_cast this

theorem add (ha : Grid e n a) (hb : Grid e m b) (hn : |n + m| < 2 ^ 53) (he : -1074 ≤ e) (he' : e ≤ 970) :
    Grid e (n + m) (a + b) := by
  obtain ⟨s, p, rfl, r, -, e1⟩ := ha.1.form
  obtain ⟨t, q, rfl, r', -, e2⟩ := hb.1.form
  have h1 := val_eq (e1.symm.trans ha.2)
  have h2 := val_eq (e2.symm.trans hb.2)
  have hs : val s p + val t q = ((n + m : ℤ) : ℚ) * 2 ^ e := by rw [h1, h2]; push_cast; ring
  show Grid e (n + m) (F64.add _ _)
  simp only [F64.add]
  split_ifs with h0
  · refine ⟨Num.mk' (fin_zero_rep _), ?_⟩
    rw [real_fin]
    rw [hs] at h0
    have : (((n + m : ℤ) : ℚ) : ℝ) * 2 ^ e = 0 := by
      have := congrArg (fun x : ℚ => (x : ℝ)) h0
      push_cast at this ⊢
      exact this
    push_cast at this ⊢
    rw [this]; simp [val]
  · rw [hs]
    exact ofRat_grid hn he he'

theorem sub (ha : Grid e n a) (hb : Grid e m b) (hn : |n - m| < 2 ^ 53) (he : -1074 ≤ e) (he' : e ≤ 970) :
    Grid e (n - m) (a - b) := by
  rw [sub_eq_add_neg', sub_eq_add_neg]
  exact ha.add hb.neg (by rwa [← sub_eq_add_neg]) he he'

theorem mul (ha : Grid e n a) (hb : Grid e' m b) (hn : |n * m| < 2 ^ 53) (he : -1074 ≤ e + e') (he' : e + e' ≤ 970) :
    Grid (e + e') (n * m) (a * b) := by
  obtain ⟨s, p, rfl, r, -, e1⟩ := ha.1.form
  obtain ⟨t, q, rfl, r', -, e2⟩ := hb.1.form
  have h1 := val_eq (e1.symm.trans ha.2)
  have h2 := val_eq (e2.symm.trans hb.2)
  have hp := mul_nonneg r.1 r'.1
  have hv : val s p * val t q = val (xor s t) (p * q) := by cases s <;> cases t <;> simp [val]
  have hs : val s p * val t q = ((n * m : ℤ) : ℚ) * 2 ^ (e + e') := by
    rw [h1, h2, zpow_add₀ two_ne_zero]; push_cast; ring
  have hab : |val s p * val t q| = p * q := by
    rw [hv]; cases (xor s t) <;> simp only [val] <;> simp [abs_of_nonneg r.1, abs_of_nonneg r'.1]
  rw [hs] at hab
  have hd := dyad_int hn he
  have hbd := int_bound hn he'
  rw [hab] at hd hbd
  show Grid _ _ (F64.mul _ _)
  simp only [F64.mul]
  have hr := round_rep (xor s t) (p * q)
  rw [round_fin _ hbd, rnd_exact hd] at hr ⊢
  refine ⟨Num.mk' hr, ?_⟩
  rw [real_fin, ← hv, hs]
  push_cast
  ring

theorem mono (h : Grid e n a) {k : ℕ} : Grid (e - k) (n * 2 ^ k) a := by
  refine ⟨h.1, ?_⟩
  rw [h.2]
  push_cast
  rw [mul_assoc, ← zpow_natCast (2:ℝ) k, ← zpow_add₀ two_ne_zero]
  ring_nf

theorem lt (ha : Grid e n a) (hb : Grid e m b) : Scalar.lt a b = true ↔ n < m := by
  rw [num_lt ha.1 hb.1, ha.2, hb.2, mul_lt_mul_iff_left₀ (zpow_pos two_pos e)]
  exact_mod_cast Iff.rfl

theorem le (ha : Grid e n a) (hb : Grid e m b) : Scalar.le a b = true ↔ n ≤ m := by
  rw [num_le ha.1 hb.1, ha.2, hb.2, mul_le_mul_iff_left₀ (zpow_pos two_pos e)]
  exact_mod_cast Iff.rfl

theorem zero : Grid e 0 (Scalar.zero : F64) := ⟨num_zero, by rw [toR_zero]; simp⟩

end Grid
end F64
end R3D

import Verif.Lemmas.BoundingBox
import Mathlib.Tactic.FieldSimp
import Mathlib.Tactic.Ring
import Mathlib.Algebra.Order.Field.Basic
/- Bounding boxes with exact (real) arithmetic. -/
namespace R3D
open Scalar LawfulScalar

theorem Real.key_lt {a b : ℝ} : key a < key b ↔ a < b := by
  show ((a : ℝ) : EReal) < b ↔ _
  exact EReal.coe_lt_coe_iff
theorem Real.key_le {a b : ℝ} : key a ≤ key b ↔ a ≤ b := by
  show ((a : ℝ) : EReal) ≤ b ↔ _
  exact EReal.coe_le_coe_iff
theorem Real.key_eq {a b : ℝ} : key a = key b ↔ a = b := by
  show ((a : ℝ) : EReal) = b ↔ _
  exact EReal.coe_eq_coe_iff

theorem Positive.new_real (v : ℝ) (h : 0 < v) : Positive.new v = some ⟨v⟩ := by
  simp [Positive.new, h]
theorem NonNegative.new_real (v : ℝ) (h : 0 ≤ v) : NonNegative.new v = some ⟨v⟩ := by
  simp [NonNegative.new, h]

theorem size_real {lo hi : ℝ} (h : lo < hi) :
    Positive.new (Scalar.abs (hi - lo)) = some ⟨hi - lo⟩ := by
  have : |hi - lo| = hi - lo := abs_of_pos (sub_pos.2 h)
  rw [Real.scalar_abs, this, Positive.new_real _ (sub_pos.2 h)]

/-- overlap of two intervals by centers and sizes -/
theorem overlap_real {a b c d : ℝ} (h1 : a < b) (h2 : c < d) :
    2 * |a + (b - a) / 2 - (c + (d - c) / 2)| < (b - a) + (d - c) ↔
      ∃ x, (a < x ∧ x < b) ∧ (c < x ∧ x < d) := by
  have e : 2 * |a + (b - a) / 2 - (c + (d - c) / 2)| = |a + b - (c + d)| := by
    rw [← abs_of_pos (show (0:ℝ) < 2 by norm_num), ← abs_mul, abs_of_pos (show (0:ℝ) < 2 by norm_num)]
    congr 1; ring
  rw [e, abs_lt]
  constructor
  · rintro ⟨h3, h4⟩
    refine ⟨(max a c + min b d) / 2, ?_⟩
    have hm : max a c < min b d := by
      rw [max_lt_iff, lt_min_iff, lt_min_iff]
      exact ⟨⟨h1, by linarith⟩, by linarith, h2⟩
    have := le_max_left a c
    have := le_max_right a c
    have := min_le_left b d
    have := min_le_right b d
    refine ⟨⟨?_, ?_⟩, ?_, ?_⟩ <;> linarith
  · rintro ⟨x, ⟨h3, h4⟩, h5, h6⟩
    constructor <;> linarith

/-- distance of a coordinate to an interval -/
theorem max3_real (lo x hi : ℝ) : max3 (lo - x) zero (x - hi) = max (max (lo - x) 0) (x - hi) := by
  unfold max3
  rw [Real.scalar_max2, Real.scalar_max2, Real.scalar_zero]

/-- the point of `[lo, hi]` next to `x` -/
noncomputable def clamp (lo x hi : ℝ) : ℝ := max lo (min x hi)

theorem clamp_mem {lo x hi : ℝ} (h : lo ≤ hi) : lo ≤ clamp lo x hi ∧ clamp lo x hi ≤ hi :=
  ⟨le_max_left _ _, max_le h (min_le_right _ _)⟩

theorem clamp_dist {lo x hi : ℝ} (h : lo ≤ hi) :
    max3 (lo - x) zero (x - hi) * max3 (lo - x) zero (x - hi) = (x - clamp lo x hi) ^ 2 := by
  rw [max3_real, clamp]
  rcases le_total x lo with h1 | h1
  · have e1 : min x hi = x := min_eq_left (h1.trans h)
    rw [e1, max_eq_left h1, max_eq_left (a := lo - x) (by linarith), max_eq_left (by linarith)]
    ring
  · rcases le_total x hi with h2 | h2
    · rw [min_eq_left h2, max_eq_right h1, max_eq_right (a := lo - x) (by linarith), max_eq_left (by linarith)]
      ring
    · rw [min_eq_right h2, max_eq_right h, max_eq_right (a := lo - x) (by linarith), max_eq_right (by linarith)]
      ring

theorem clamp_best {lo x hi : ℝ} (h : lo ≤ hi) {y : ℝ} (h1 : lo ≤ y) (h2 : y ≤ hi) :
    (x - clamp lo x hi) ^ 2 ≤ (x - y) ^ 2 := by
  unfold clamp
  rcases le_total x lo with h3 | h3
  · rw [min_eq_left (h3.trans h), max_eq_left h3]
    nlinarith
  · rcases le_total x hi with h4 | h4
    · rw [min_eq_left h4, max_eq_right h3]
      nlinarith [sq_nonneg (x - y)]
    · rw [min_eq_right h4, max_eq_right h]
      nlinarith

/-- nearest points of two intervals -/
theorem gap_real {a b c d : ℝ} (h1 : a ≤ b) (h2 : c ≤ d) :
    ∃ x y, (a ≤ x ∧ x ≤ b) ∧ (c ≤ y ∧ y ≤ d) ∧
      BoundingBox2D.gap a b c d * BoundingBox2D.gap a b c d = (x - y) ^ 2 ∧
      ∀ x' y', a ≤ x' → x' ≤ b → c ≤ y' → y' ≤ d → (x - y) ^ 2 ≤ (x' - y') ^ 2 := by
  unfold BoundingBox2D.gap
  simp only [Real.scalar_lt, decide_eq_true_eq, Real.scalar_zero]
  split_ifs with h3 h4
  · refine ⟨a, d, ⟨le_rfl, h1⟩, ⟨h2, le_rfl⟩, by ring, ?_⟩
    intro x' y' k1 k2 k3 k4
    nlinarith
  · refine ⟨b, c, ⟨h1, le_rfl⟩, ⟨le_rfl, h2⟩, by ring, ?_⟩
    intro x' y' k1 k2 k3 k4
    nlinarith
  · refine ⟨max a c, max a c, ⟨le_max_left _ _, max_le h1 (not_lt.1 h4)⟩,
      ⟨le_max_right _ _, max_le (not_lt.1 h3) h2⟩, by ring, ?_⟩
    intro x' y' _ _ _ _
    nlinarith [sq_nonneg (x' - y')]

end R3D

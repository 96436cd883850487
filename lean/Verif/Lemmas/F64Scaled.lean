import Verif.Lemmas.F64Near
/-!
Absolute errors relative to a scale: `Sc a x S α k` says that `a` is `x` up to `k` units in the scale `S`, and `x` is
at most `α` times the scale.
-/
namespace R3D
open Scalar Spec
namespace F64

/-- `a` is `x` up to `k` roundings of `S`, and `x` is at most `α * S` -/
abbrev Sc (a : F64) (x S α k : ℝ) : Prop := Near a x (α * S) (k * (uu * S))

namespace Sc
variable {a b : F64} {x y S T α β γ k l m : ℝ}

theorem self (h : Num a) (hX : |toR a| ≤ S) : Sc a (toR a) S 1 0 :=
  (Near.self h hX).mono (by simp) (by simp)

theorem add (ha : Sc a x S α k) (hb : Sc b y S β l) (hS : 0 ≤ S) (hk : k + l ≤ 2 ^ 53) (h : (α + β + 1) * S ≤ 2 ^ (1023 : ℤ))
    (hγ : α + β ≤ γ) (hm : k + l + (α + β) + 1 ≤ m) : Sc (a + b) (x + y) S γ m := by
  have hu := uu_pos
  have hu53 : (k + l) * uu ≤ 1 := by
    rw [uu_53]
    have := mul_le_mul_of_nonneg_right hk (show (0:ℝ) ≤ 1 / 2 ^ 53 by positivity)
    norm_num at this ⊢
    linarith
  have h1 := mul_le_mul_of_nonneg_right hu53 hS
  refine (Near.add ha hb (by nlinarith only [h, h1])).mono ?_ ?_
  · nlinarith only [mul_le_mul_of_nonneg_right hγ hS]
  · have h2 := mul_le_mul_of_nonneg_right hm (mul_nonneg hu.le hS)
    have h3 := mul_le_mul_of_nonneg_left h1 hu.le
    nlinarith only [h2, h3]

theorem sub (ha : Sc a x S α k) (hb : Sc b y S β l) (hS : 0 ≤ S) (hk : k + l ≤ 2 ^ 53) (h : (α + β + 1) * S ≤ 2 ^ (1023 : ℤ))
    (hγ : α + β ≤ γ) (hm : k + l + (α + β) + 1 ≤ m) : Sc (a - b) (x - y) S γ m := by
  have := Sc.add ha (Near.neg hb) hS hk h hγ hm
  rw [← sub_eq_add_neg] at this
  exact this

theorem mul (ha : Sc a x S α k) (hb : Sc b y T β l) (hS : 0 ≤ S) (hT : 0 ≤ T) (hα : 0 ≤ α) (hβ : 0 ≤ β) (hk0 : 0 ≤ k) (hl0 : 0 ≤ l)
    (hk : α * l + β * k + 2 * (k * l) + 1 ≤ 2 ^ 51) (h : (α * β + 1) * (S * T) ≤ 2 ^ (1023 : ℤ)) (hST : 2 ^ (-1021 : ℤ) ≤ S * T)
    (hγ : α * β ≤ γ) (hm : α * l + β * k + α * β + 1 ≤ m) : Sc (a * b) (x * y) (S * T) γ m := by
  have hu := uu_pos
  have hu1 : uu ≤ 1 := by linarith [uu_le]
  have hST0 : 0 ≤ S * T := mul_nonneg hS hT
  have hkl := mul_nonneg hk0 hl0
  have hal := mul_nonneg hα hl0
  have hbk := mul_nonneg hβ hk0
  have hu53 : (α * l + β * k + 2 * (k * l) + 1) * uu ≤ 1 / 4 := by
    rw [uu_53]
    have := mul_le_mul_of_nonneg_right hk (show (0:ℝ) ≤ 1 / 2 ^ 53 by positivity)
    norm_num at this ⊢
    linarith
  have hq : (k * l) * uu ≤ k * l := by nlinarith only [mul_le_mul_of_nonneg_left hu1 hkl]
  have hprod : (α * S + k * (uu * S)) * (β * T + l * (uu * T)) ≤ (α * β + 1 / 4) * (S * T) := by
    have e : (α * S + k * (uu * S)) * (β * T + l * (uu * T)) = (α * β + (α * l + β * k + (k * l) * uu) * uu) * (S * T) := by ring
    rw [e]
    refine mul_le_mul_of_nonneg_right ?_ hST0
    have := mul_le_mul_of_nonneg_right hq hu.le
    nlinarith only [this, hu53, mul_nonneg hkl hu.le, hu]
  have tiny : (2:ℝ) ^ (-1075 : ℤ) ≤ 1 / 2 * (uu * (S * T)) := by
    have := mul_le_mul_of_nonneg_left hST hu.le
    have e : (2:ℝ) ^ (-1075 : ℤ) = 1 / 2 * (uu * 2 ^ (-1021 : ℤ)) := by
      unfold uu
      rw [← zpow_add₀ two_ne_zero, show (1:ℝ) / 2 = 2 ^ (-1 : ℤ) by norm_num, ← zpow_add₀ two_ne_zero]
      norm_num
    rw [e]
    linarith
  refine (Near.mul ha hb (hprod.trans (le_trans ?_ h))).mono ?_ ?_
  · exact mul_le_mul_of_nonneg_right (by linarith) hST0
  · have := mul_le_mul_of_nonneg_right hγ hST0
    calc α * S * (β * T) = α * β * (S * T) := by ring
      _ ≤ γ * (S * T) := this
  · generalize (2:ℝ) ^ (-1075 : ℤ) = Z at *
    have h2 := mul_le_mul_of_nonneg_right hm (mul_nonneg hu.le hST0)
    have h3 := mul_le_mul_of_nonneg_left hprod hu.le
    have h4 : k * (uu * S) * (l * (uu * T)) ≤ 1 / 4 * (uu * (S * T)) := by
      have : k * (uu * S) * (l * (uu * T)) = (k * l * uu) * (uu * (S * T)) := by ring
      rw [this]
      refine mul_le_mul_of_nonneg_right ?_ (mul_nonneg hu.le hST0)
      nlinarith only [hu53, mul_nonneg hkl hu.le, mul_nonneg hal hu.le, mul_nonneg hbk hu.le, hu]
    nlinarith only [h2, h3, h4, tiny]

end Sc

/-- dividing, when the quotient is known to be at most `Q` -/
theorem Near.div' {a b : F64} {x y X Y δ ε c Q : ℝ} (ha : Near a x X δ) (hb : Near b y Y ε) (hc : c ≤ |y|) (hε : 2 * ε ≤ c) (hc0 : 0 < c)
    (hQ : |x / y| ≤ Q) (h : 2 * (X + δ) / c ≤ 2 ^ (1023 : ℤ)) :
    Near (a / b) (x / y) Q (3 * δ / c + 3 * Q * ε / c + uu * Q + 2 ^ (-1075 : ℤ)) := by
  have hX := ha.X0; have hd := ha.δ0; have he := hb.δ0
  have hQ0 : 0 ≤ Q := (abs_nonneg _).trans hQ
  have hy : 0 < |y| := hc0.trans_le hc
  have hb1 : c / 2 ≤ |toR b| := by
    have := abs_sub_abs_le_abs_sub y (toR b)
    rw [abs_sub_comm] at this
    linarith [hb.err]
  have hb0 : 0 < |toR b| := by linarith
  have h1 : |toR a / toR b| ≤ 2 * (X + δ) / c := by
    rw [abs_div, div_le_div_iff₀ hb0 hc0]
    have := ha.bound
    nlinarith [abs_nonneg (toR a)]
  obtain ⟨n, q⟩ := toR_div ha.num hb.num (abs_pos.1 hb0) (h1.trans h)
  refine ⟨n, hQ, ?_⟩
  have e : toR a / toR b - x / y = (toR a - x) / toR b + x / y * ((y - toR b) / toR b) := by
    have := abs_pos.1 hb0; have := abs_pos.1 hy
    field_simp; ring
  have k1 : |(toR a - x) / toR b| ≤ 2 * (δ / c) := by
    rw [abs_div, ← mul_div_assoc, div_le_div_iff₀ hb0 hc0]
    nlinarith [ha.err, abs_nonneg (toR a - x)]
  have k2 : |(y - toR b) / toR b| ≤ 2 * (ε / c) := by
    rw [abs_div, ← mul_div_assoc, div_le_div_iff₀ hb0 hc0, abs_sub_comm]
    nlinarith [hb.err, abs_nonneg (toR b - y)]
  have k3 : |x / y * ((y - toR b) / toR b)| ≤ Q * (2 * (ε / c)) := by
    rw [abs_mul]
    exact mul_le_mul hQ k2 (abs_nonneg _) hQ0
  have k4 : |toR a / toR b - x / y| ≤ 2 * (δ / c) + Q * (2 * (ε / c)) := by
    rw [e]; exact (abs_add_le _ _).trans (add_le_add k1 k3)
  have k5 : |toR a / toR b| ≤ Q + (2 * (δ / c) + Q * (2 * (ε / c))) := by
    have := abs_add_le (x / y) (toR a / toR b - x / y)
    rw [add_sub_cancel] at this
    linarith
  have h5 : |toR (a / b) - toR a / toR b| ≤ uu * |toR a / toR b| + 2 ^ (-1075 : ℤ) := q
  have m1 := abs_add_le (toR (a / b) - toR a / toR b) (toR a / toR b - x / y)
  rw [sub_add_sub_cancel] at m1
  have h6 := mul_le_mul_of_nonneg_left k5 uu_pos.le
  have p1 : 0 ≤ δ / c := by positivity
  have p2 : 0 ≤ Q * (ε / c) := by positivity
  have h7 := mul_le_mul_of_nonneg_right uu_le p1
  have h8 := mul_le_mul_of_nonneg_right uu_le p2
  have g1 : 3 * δ / c = 3 * (δ / c) := by ring
  have g2 : 3 * Q * ε / c = 3 * (Q * (ε / c)) := by ring
  rw [g1, g2]
  generalize (2:ℝ) ^ (-1075 : ℤ) = Z at *
  nlinarith only [h5, h6, h7, h8, m1, k4, p1, p2]

end F64
end R3D

import Verif.Lemmas.F64Box
/-!
Running error analysis: `Appr a x A k e` says that the computed number `a` is the exact number `x` (of at most `A`)
up to `k` roundings of `A` and an absolute error of `e`.
-/
namespace R3D
namespace F64

/-- the unit roundoff -/
noncomputable def uu : ℝ := 2 ^ (-53 : ℤ)

theorem uu_pos : 0 < uu := u_pos
theorem uu_le : uu ≤ 1 / 4 := by unfold uu; rw [u_small]; norm_num

theorem one_le_pow_uu (k : ℕ) : (1:ℝ) ≤ (1 + uu) ^ k := one_le_pow₀ (by linarith [uu_pos])

theorem pow_uu_mono {k l : ℕ} (h : k ≤ l) : (1 + uu) ^ k ≤ (1 + uu) ^ l := pow_le_pow_right₀ (by linarith [uu_pos]) h

/-- `k` roundings -/
theorem pow_uu_le {k : ℕ} (h : 2 * k * uu ≤ 1) : (1 + uu) ^ k ≤ 1 + 2 * k * uu := by
  induction k with
  | zero => simp
  | succ k ih =>
    have hu := uu_pos
    push_cast at h ⊢
    have h1 := ih (by linarith)
    have h2 : 0 ≤ (1:ℝ) - 2 * k * uu := by linarith
    have h3 := mul_nonneg h2 hu.le
    rw [pow_succ]
    have h4 := mul_le_mul_of_nonneg_right h1 (show (0:ℝ) ≤ 1 + uu by linarith)
    refine h4.trans ?_
    nlinarith only [h3, hu]

structure Appr (a : F64) (x A : ℝ) (k : ℕ) (e : ℝ) : Prop where
  num : Num a
  le : |x| ≤ A
  nonneg : 0 ≤ e
  err : |toR a - x| ≤ ((1 + uu) ^ k - 1) * A + e

namespace Appr
variable {a b : F64} {x y A B e f : ℝ} {k l : ℕ}

theorem exact (h : Num a) (hA : |toR a| ≤ A) : Appr a (toR a) A 0 0 := ⟨h, hA, le_rfl, by simp⟩

theorem pos (h : Appr a x A k e) : 0 ≤ A := (abs_nonneg _).trans h.le

theorem mono (h : Appr a x A k e) {l : ℕ} {f : ℝ} (hk : k ≤ l) (he : e ≤ f) : Appr a x A l f :=
  ⟨h.num, h.le, h.nonneg.trans he, h.err.trans (add_le_add
    (mul_le_mul_of_nonneg_right (sub_le_sub_right (pow_uu_mono hk) 1) h.pos) he)⟩

theorem toR_le (h : Appr a x A k e) : |toR a| ≤ (1 + uu) ^ k * A + e := by
  have := abs_add_le (toR a - x) x
  rw [sub_add_cancel] at this
  linarith [h.err, h.le]

/-- a rounding of something near -/
theorem round {r y' : ℝ} (hr : |r - y| ≤ ((1 + uu) ^ k - 1) * B + f) (hB : |y| ≤ B) (hf : 0 ≤ f) (ha : Num a)
    (h : |toR a - r| ≤ uu * |r| + y') (hy' : 0 ≤ y') : Appr a y B (k + 1) ((1 + uu) * f + y') := by
  have hu := uu_pos
  refine ⟨ha, hB, by positivity, ?_⟩
  have h1 : |r| ≤ (1 + uu) ^ k * B + f := by
    have := abs_add_le (r - y) y
    rw [sub_add_cancel] at this
    linarith
  have h2 := abs_add_le (toR a - r) (r - y)
  rw [sub_add_sub_cancel] at h2
  have h3 := mul_le_mul_of_nonneg_left h1 hu.le
  rw [pow_succ]
  linarith

theorem add (ha : Appr a x A k e) (hb : Appr b y B k f) (h : (1 + uu) ^ k * (A + B) + (e + f) ≤ 2 ^ (1023 : ℤ)) :
    Appr (a + b) (x + y) (A + B) (k + 1) (2 * (e + f)) := by
  have hle : |toR a + toR b| ≤ 2 ^ (1023 : ℤ) := by
    refine le_trans ((abs_add_le _ _).trans ?_) h
    linarith [ha.toR_le, hb.toR_le]
  obtain ⟨n, q⟩ := toR_add ha.num hb.num hle
  have hab : |x + y| ≤ A + B := (abs_add_le _ _).trans (add_le_add ha.le hb.le)
  have hr : |toR a + toR b - (x + y)| ≤ ((1 + uu) ^ k - 1) * (A + B) + (e + f) := by
    have := abs_add_le (toR a - x) (toR b - y)
    rw [show toR a - x + (toR b - y) = toR a + toR b - (x + y) by ring] at this
    linarith [ha.err, hb.err]
  have ef : 0 ≤ e + f := add_nonneg ha.nonneg hb.nonneg
  refine (round (y' := 0) hr hab ef n (by rw [add_zero]; exact q) le_rfl).mono le_rfl ?_
  nlinarith [uu_le]

theorem neg (ha : Appr a x A k e) : Appr (-a) (-x) A k e := by
  refine ⟨ha.num.neg, by rw [abs_neg]; exact ha.le, ha.nonneg, ?_⟩
  have : toR (-a) = -toR a := toR_neg ha.num
  rw [this, ← neg_sub', abs_neg]; exact ha.err

theorem sub (ha : Appr a x A k e) (hb : Appr b y B k f) (h : (1 + uu) ^ k * (A + B) + (e + f) ≤ 2 ^ (1023 : ℤ)) :
    Appr (a - b) (x - y) (A + B) (k + 1) (2 * (e + f)) := by
  have hle : |toR a - toR b| ≤ 2 ^ (1023 : ℤ) := by
    refine le_trans ((abs_sub _ _).trans ?_) h
    linarith [ha.toR_le, hb.toR_le]
  obtain ⟨n, q⟩ := toR_sub ha.num hb.num hle
  have hab : |x - y| ≤ A + B := (abs_sub _ _).trans (add_le_add ha.le hb.le)
  have hr : |toR a - toR b - (x - y)| ≤ ((1 + uu) ^ k - 1) * (A + B) + (e + f) := by
    have := abs_sub (toR a - x) (toR b - y)
    rw [show toR a - x - (toR b - y) = toR a - toR b - (x - y) by ring] at this
    linarith [ha.err, hb.err]
  have ef : 0 ≤ e + f := add_nonneg ha.nonneg hb.nonneg
  refine (round (y' := 0) hr hab ef n (by rw [add_zero]; exact q) le_rfl).mono le_rfl ?_
  nlinarith [uu_le]

theorem mul (ha : Appr a x A k e) (hb : Appr b y B l f)
    (h : ((1 + uu) ^ k * A + e) * ((1 + uu) ^ l * B + f) ≤ 2 ^ (1023 : ℤ)) :
    Appr (a * b) (x * y) (A * B) (k + l + 1)
      (2 * ((1 + uu) ^ k * A * f + e * ((1 + uu) ^ l * B) + e * f) + 2 ^ (-1075 : ℤ)) := by
  have hP := ha.toR_le
  have hQ := hb.toR_le
  have p1 := one_le_pow_uu k
  have p2 := one_le_pow_uu l
  have hA := ha.pos
  have hB := hb.pos
  have he := ha.nonneg
  have hf := hb.nonneg
  have hle : |toR a * toR b| ≤ 2 ^ (1023 : ℤ) := by
    rw [abs_mul]
    exact le_trans (mul_le_mul hP hQ (abs_nonneg _) (by positivity)) h
  obtain ⟨n, q⟩ := toR_mul ha.num hb.num hle
  have hab : |x * y| ≤ A * B := by rw [abs_mul]; exact mul_le_mul ha.le hb.le (abs_nonneg _) hA
  have hr : |toR a * toR b - x * y| ≤ ((1 + uu) ^ (k + l) - 1) * (A * B) + ((1 + uu) ^ k * A * f + e * ((1 + uu) ^ l * B) + e * f) := by
    have h1 : toR a * toR b - x * y = (toR a - x) * toR b + x * (toR b - y) := by ring
    rw [h1]
    refine (abs_add_le _ _).trans ?_
    rw [abs_mul, abs_mul]
    have h2 := mul_le_mul ha.err hQ (abs_nonneg _) (add_nonneg (mul_nonneg (by linarith) hA) he)
    have h3 := mul_le_mul ha.le hb.err (abs_nonneg _) hA
    refine (add_le_add h2 h3).trans ?_
    rw [pow_add]
    have h4 : A * f ≤ (1 + uu) ^ k * A * f := by
      have := mul_le_mul_of_nonneg_right p1 (mul_nonneg hA hf)
      linarith
    nlinarith only [h4]
  have ef : 0 ≤ (1 + uu) ^ k * A * f + e * ((1 + uu) ^ l * B) + e * f := by positivity
  refine (round (y' := 2 ^ (-1075 : ℤ)) hr hab ef n q (zpow_pos two_pos _).le).mono le_rfl ?_
  nlinarith [uu_le]

end Appr
end F64
end R3D

import Verif.Lemmas.F64Appr
import Verif.Props.VectorFloat
/-!
Absolute errors of single operations and of scalar and cross products.
-/
namespace R3D
open Scalar Spec
namespace F64

/-- `a` is `x` up to `δ`, and `x` is at most `X` -/
structure Near (a : F64) (x X δ : ℝ) : Prop where
  num : Num a
  le : |x| ≤ X
  err : |toR a - x| ≤ δ

namespace Near
variable {a b : F64} {x y X Y δ ε : ℝ}

theorem self (h : Num a) (hX : |toR a| ≤ X) : Near a (toR a) X 0 := ⟨h, hX, by simp⟩

theorem X0 (h : Near a x X δ) : 0 ≤ X := (abs_nonneg _).trans h.le
theorem δ0 (h : Near a x X δ) : 0 ≤ δ := (abs_nonneg _).trans h.err

theorem mono (h : Near a x X δ) (h1 : X ≤ Y) (h2 : δ ≤ ε) : Near a x Y ε := ⟨h.num, h.le.trans h1, h.err.trans h2⟩

theorem bound (h : Near a x X δ) : |toR a| ≤ X + δ := by
  have := abs_add_le x (toR a - x)
  rw [add_sub_cancel] at this
  linarith [h.le, h.err]

theorem add (ha : Near a x X δ) (hb : Near b y Y ε) (h : X + δ + (Y + ε) ≤ 2 ^ (1023 : ℤ)) :
    Near (a + b) (x + y) (X + Y) (δ + ε + uu * (X + δ + (Y + ε))) := by
  have h1 : |toR a + toR b| ≤ X + δ + (Y + ε) := (abs_add_le _ _).trans (add_le_add ha.bound hb.bound)
  obtain ⟨n, q⟩ := toR_add ha.num hb.num (h1.trans h)
  refine ⟨n, (abs_add_le _ _).trans (add_le_add ha.le hb.le), ?_⟩
  have h2 : toR (a + b) - (x + y) = (toR (a + b) - (toR a + toR b)) + ((toR a - x) + (toR b - y)) := by ring
  rw [h2]
  have h3 := mul_le_mul_of_nonneg_left h1 uu_pos.le
  have h4 := abs_add_le (toR a - x) (toR b - y)
  refine (abs_add_le _ _).trans ?_
  have h5 : |toR (a + b) - (toR a + toR b)| ≤ uu * |toR a + toR b| := q
  linarith only [h3, h4, h5, ha.err, hb.err]

theorem neg (h : Near a x X δ) : Near (-a) (-x) X δ := by
  refine ⟨h.num.neg, by rw [abs_neg]; exact h.le, ?_⟩
  have : toR (-a) = -toR a := toR_neg h.num
  rw [this, show -toR a - -x = -(toR a - x) by ring, abs_neg]
  exact h.err

theorem sub (ha : Near a x X δ) (hb : Near b y Y ε) (h : X + δ + (Y + ε) ≤ 2 ^ (1023 : ℤ)) :
    Near (a - b) (x - y) (X + Y) (δ + ε + uu * (X + δ + (Y + ε))) := by
  have := ha.add hb.neg h
  rw [← sub_eq_add_neg] at this
  exact this

/-- subtracting two doubles: the error is relative to the difference -/
theorem sub_exact (ha : Num a) (hb : Num b) (hX : |toR a - toR b| ≤ X) (h : X ≤ 2 ^ (1023 : ℤ)) :
    Near (a - b) (toR a - toR b) X (uu * X) := by
  obtain ⟨n, q⟩ := toR_sub ha hb (hX.trans h)
  exact ⟨n, hX, q.trans (mul_le_mul_of_nonneg_left hX uu_pos.le)⟩

theorem mul (ha : Near a x X δ) (hb : Near b y Y ε) (h : (X + δ) * (Y + ε) ≤ 2 ^ (1023 : ℤ)) :
    Near (a * b) (x * y) (X * Y) (X * ε + Y * δ + δ * ε + uu * ((X + δ) * (Y + ε)) + 2 ^ (-1075 : ℤ)) := by
  have hX := ha.X0; have hY := hb.X0; have hd := ha.δ0; have he := hb.δ0
  have h1 : |toR a * toR b| ≤ (X + δ) * (Y + ε) := by
    rw [abs_mul]; exact mul_le_mul ha.bound hb.bound (abs_nonneg _) (by linarith)
  obtain ⟨n, q⟩ := toR_mul ha.num hb.num (h1.trans h)
  refine ⟨n, by rw [abs_mul]; exact mul_le_mul ha.le hb.le (abs_nonneg _) hX, ?_⟩
  have h2 : toR (a * b) - x * y = (toR (a * b) - toR a * toR b) + (x * (toR b - y) + (toR a - x) * y + (toR a - x) * (toR b - y)) := by ring
  rw [h2]
  have h3 := mul_le_mul_of_nonneg_left h1 uu_pos.le
  have k1 : |x * (toR b - y)| ≤ X * ε := by rw [abs_mul]; exact mul_le_mul ha.le hb.err (abs_nonneg _) hX
  have k2 : |(toR a - x) * y| ≤ Y * δ := by rw [abs_mul, mul_comm]; exact mul_le_mul hb.le ha.err (abs_nonneg _) hY
  have k3 : |(toR a - x) * (toR b - y)| ≤ δ * ε := by rw [abs_mul]; exact mul_le_mul ha.err hb.err (abs_nonneg _) hd
  have h5 : |toR (a * b) - toR a * toR b| ≤ uu * |toR a * toR b| + 2 ^ (-1075 : ℤ) := q
  have m1 := abs_add_le (toR (a * b) - toR a * toR b) (x * (toR b - y) + (toR a - x) * y + (toR a - x) * (toR b - y))
  have m2 := abs_add_le (x * (toR b - y) + (toR a - x) * y) ((toR a - x) * (toR b - y))
  have m3 := abs_add_le (x * (toR b - y)) ((toR a - x) * y)
  generalize (2:ℝ) ^ (-1075 : ℤ) = T at *
  linarith only [h3, h5, k1, k2, k3, m1, m2, m3]

theorem div {c : ℝ} (ha : Near a x X δ) (hb : Near b y Y ε) (hc : c ≤ |y|) (hε : 2 * ε ≤ c) (hc0 : 0 < c)
    (h : 2 * (X + δ) / c ≤ 2 ^ (1023 : ℤ)) :
    Near (a / b) (x / y) (X / c) (2 * δ / c + 2 * X * ε / (c * c) + uu * (2 * (X + δ) / c) + 2 ^ (-1075 : ℤ)) := by
  have hX := ha.X0; have hd := ha.δ0; have he := hb.δ0
  have hy : 0 < |y| := hc0.trans_le hc
  have hb1 : c / 2 ≤ |toR b| := by
    have := abs_sub_abs_le_abs_sub y (toR b)
    rw [abs_sub_comm] at this
    linarith [hb.err]
  have hb0 : 0 < |toR b| := by linarith
  have h1 : |toR a / toR b| ≤ 2 * (X + δ) / c := by
    rw [abs_div, div_le_div_iff₀ hb0 hc0]
    have := ha.bound
    nlinarith [abs_nonneg (toR a)]
  obtain ⟨n, q⟩ := toR_div ha.num hb.num (abs_pos.1 hb0) (h1.trans h)
  have hq0 : |x / y| ≤ X / c := by
    rw [abs_div, div_le_div_iff₀ hy hc0]
    nlinarith [ha.le, abs_nonneg x]
  refine ⟨n, hq0, ?_⟩
  have e : toR (a / b) - x / y = (toR (a / b) - toR a / toR b) + ((toR a - x) / toR b + x / y * ((y - toR b) / toR b)) := by
    have := abs_pos.1 hb0; have := abs_pos.1 hy
    field_simp; ring
  have k1 : |(toR a - x) / toR b| ≤ 2 * δ / c := by
    rw [abs_div, div_le_div_iff₀ hb0 hc0]
    nlinarith [ha.err, abs_nonneg (toR a - x)]
  have k2 : |(y - toR b) / toR b| ≤ 2 * ε / c := by
    rw [abs_div, div_le_div_iff₀ hb0 hc0, abs_sub_comm]
    nlinarith [hb.err, abs_nonneg (toR b - y)]
  have k3 : |x / y * ((y - toR b) / toR b)| ≤ 2 * X * ε / (c * c) := by
    rw [abs_mul]
    refine (mul_le_mul hq0 k2 (abs_nonneg _) (by positivity)).trans (le_of_eq ?_)
    field_simp
  rw [e]
  have h3 := mul_le_mul_of_nonneg_left h1 uu_pos.le
  have h5 : |toR (a / b) - toR a / toR b| ≤ uu * |toR a / toR b| + 2 ^ (-1075 : ℤ) := q
  have m1 := abs_add_le (toR (a / b) - toR a / toR b) ((toR a - x) / toR b + x / y * ((y - toR b) / toR b))
  have m2 := abs_add_le ((toR a - x) / toR b) (x / y * ((y - toR b) / toR b))
  generalize (2:ℝ) ^ (-1075 : ℤ) = T at *
  linarith only [h3, h5, k1, k3, m1, m2]

end Near

/-- every coordinate is near -/
def NearV (p : Point3D F64) (v : Point3D ℝ) (X δ : ℝ) : Prop := ∀ d, Near (at3 p d) (at3 v d) X δ

theorem uu_53 : uu = 1 / 2 ^ 53 := by unfold uu; rw [u_small]; norm_num

/-- a product of coordinates, with simple bounds -/
theorem Near.mul' {a b : F64} {x y X Y δ ε : ℝ} (ha : Near a x X δ) (hb : Near b y Y ε) (hd : δ ≤ X) (he : ε ≤ Y)
    (h1 : 2 ^ (-1000 : ℤ) ≤ X * Y) (h2 : X * Y ≤ 2 ^ (1000 : ℤ)) :
    Near (a * b) (x * y) (X * Y) (2 * X * ε + Y * δ + 5 * uu * (X * Y)) := by
  have hX := ha.X0; have hY := hb.X0; have hd0 := ha.δ0; have he0 := hb.δ0
  have k : (X + δ) * (Y + ε) ≤ 4 * (X * Y) := by nlinarith
  have h4 : (2:ℝ) ^ (1023 : ℤ) = 2 ^ 23 * 2 ^ (1000 : ℤ) := by rw [← zpow_natCast, ← zpow_add₀ two_ne_zero]; norm_num
  have h5 : (2:ℝ) ^ (-1075 : ℤ) = 1 / 2 ^ 75 * 2 ^ (-1000 : ℤ) := by
    rw [show (1:ℝ) / 2 ^ 75 = 2 ^ (-75 : ℤ) by rw [zpow_neg, one_div]; norm_cast, ← zpow_add₀ two_ne_zero]; norm_num
  have hT : (0:ℝ) < 2 ^ (1000 : ℤ) := zpow_pos two_pos _
  have := ha.mul hb (by
    rw [h4]
    generalize (2:ℝ) ^ (1000 : ℤ) = T at *
    nlinarith only [k, h2, hT])
  refine this.mono le_rfl ?_
  rw [h5]
  have k2 := mul_le_mul_of_nonneg_left k uu_pos.le
  have k3 : δ * ε ≤ X * ε := mul_le_mul_of_nonneg_right hd he0
  rw [uu_53] at *
  generalize (2:ℝ) ^ (-1000 : ℤ) = S at *
  have hXY := mul_nonneg hX hY
  nlinarith only [k2, k3, h1, hXY]

theorem NearV.dot {p q : Point3D F64} {v w : Point3D ℝ} {X Y δ ε : ℝ} (hp : NearV p v X δ) (hq : NearV q w Y ε) (hd : δ ≤ X) (he : ε ≤ Y)
    (h1 : 2 ^ (-1000 : ℤ) ≤ X * Y) (h2 : X * Y ≤ 2 ^ (1000 : ℤ)) :
    Near (p.dot q) (v.dot w) (3 * (X * Y)) (8 * X * ε + 4 * Y * δ + 64 * uu * (X * Y)) := by
  have hX := (hp 0).X0; have hY := (hq 0).X0; have hd0 := (hp 0).δ0; have he0 := (hq 0).δ0
  have m0 := (hp 0).mul' (hq 0) hd he h1 h2
  have m1 := (hp 1).mul' (hq 1) hd he h1 h2
  have m2 := (hp 2).mul' (hq 2) hd he h1 h2
  have h4 : (2:ℝ) ^ (1023 : ℤ) = 2 ^ 23 * 2 ^ (1000 : ℤ) := by rw [← zpow_natCast, ← zpow_add₀ two_ne_zero]; norm_num
  have k1 : X * ε ≤ X * Y := mul_le_mul_of_nonneg_left he hX
  have k2 : Y * δ ≤ X * Y := by rw [mul_comm X]; exact mul_le_mul_of_nonneg_left hd hY
  have hXY := mul_nonneg hX hY
  have k3 := mul_nonneg hX he0
  have k4 := mul_nonneg hY hd0
  have u1 := uu_53
  have s := (m0.add m1 (by
    rw [h4]
    rw [u1]
    generalize (2:ℝ) ^ (1000 : ℤ) = T at *
    linarith only [k1, k2, hXY, h2])).add m2 (by
    rw [h4]
    rw [u1]
    generalize (2:ℝ) ^ (1000 : ℤ) = T at *
    linarith only [k1, k2, hXY, h2])
  refine s.mono (by linarith) ?_
  rw [u1]
  linarith only [k1, k2, hXY, k3, k4]

theorem det_near {a b c d : F64} {x y z w X Y δ ε : ℝ} (ha : Near a x X δ) (hb : Near b y X δ) (hc : Near c z Y ε) (hw : Near d w Y ε) (hd : δ ≤ X) (he : ε ≤ Y)
    (h1 : 2 ^ (-1000 : ℤ) ≤ X * Y) (h2 : X * Y ≤ 2 ^ (1000 : ℤ)) :
    Near (a * d - b * c) (x * w - y * z) (2 * (X * Y)) (6 * X * ε + 3 * Y * δ + 32 * uu * (X * Y)) := by
  have hX := ha.X0; have hY := hc.X0; have hd0 := ha.δ0; have he0 := hc.δ0
  have m0 := ha.mul' hw hd he h1 h2
  have m1 := hb.mul' hc hd he h1 h2
  have h4 : (2:ℝ) ^ (1023 : ℤ) = 2 ^ 23 * 2 ^ (1000 : ℤ) := by rw [← zpow_natCast, ← zpow_add₀ two_ne_zero]; norm_num
  have k1 : X * ε ≤ X * Y := mul_le_mul_of_nonneg_left he hX
  have k2 : Y * δ ≤ X * Y := by rw [mul_comm X]; exact mul_le_mul_of_nonneg_left hd hY
  have hXY := mul_nonneg hX hY
  have k3 := mul_nonneg hX he0
  have k4 := mul_nonneg hY hd0
  have u1 := uu_53
  have s := m0.sub m1 (by
    rw [h4]
    rw [u1]
    generalize (2:ℝ) ^ (1000 : ℤ) = T at *
    linarith only [k1, k2, hXY, h2])
  refine s.mono (by linarith) ?_
  rw [u1]
  linarith only [k1, k2, hXY, k3, k4]

theorem NearV.cross {p q : Point3D F64} {v w : Point3D ℝ} {X Y δ ε : ℝ} (hp : NearV p v X δ) (hq : NearV q w Y ε) (hd : δ ≤ X) (he : ε ≤ Y)
    (h1 : 2 ^ (-1000 : ℤ) ≤ X * Y) (h2 : X * Y ≤ 2 ^ (1000 : ℤ)) :
    NearV (p.cross q) (v.cross w) (2 * (X * Y)) (6 * X * ε + 3 * Y * δ + 32 * uu * (X * Y)) := by
  unfold NearV
  rw [forall_fin3]
  exact ⟨det_near (hp 1) (hp 2) (hq 1) (hq 2) hd he h1 h2, det_near (hp 2) (hp 0) (hq 2) (hq 0) hd he h1 h2,
    det_near (hp 0) (hp 1) (hq 0) (hq 1) hd he h1 h2⟩

end F64
end R3D

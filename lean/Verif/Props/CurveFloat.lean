import Verif.Props.ArcFloat
import Verif.Props.CosineFloat
/-!
# C110: rectangles, ellipses and involutes of doubles
-/
namespace R3D
open Scalar LawfulScalar Spec F64

namespace F64

theorem Appr.widen {a : F64} {x A B e : ℝ} {k : ℕ} (h : Appr a x A k e) (hB : A ≤ B) : Appr a x B k e :=
  ⟨h.num, h.le.trans hB, h.nonneg, h.err.trans (add_le_add
    (mul_le_mul_of_nonneg_left hB (by linarith [one_le_pow_uu k])) le_rfl)⟩

/-- times a sine or a cosine -/
theorem Appr.mul_unit {a b : F64} {x y A e : ℝ} {k : ℕ} (ha : Appr a x A k e) (hb : Appr b y 1 2 0) (hk : k ≤ 100) (he : e ≤ 1)
    (hA : A ≤ 2 ^ (990 : ℤ)) : Appr (a * b) (x * y) A (k + 3) (4 * e + 2 ^ (-1075 : ℤ)) := by
  have p1 := pow_uu_two (k := k) (by omega)
  have p2 := pow_uu_two (k := 2) (by norm_num)
  have q1 := one_le_pow_uu k
  have q2 := one_le_pow_uu 2
  have A0 := ha.pos
  have e0 := ha.nonneg
  have b1000 := pow990 hA
  have h := ha.mul hb (by
    rw [mul_one, add_zero]
    have g1 : (1 + uu) ^ k * A + e ≤ 2 * A + 1 := add_le_add (mul_le_mul_of_nonneg_right p1 A0) he
    have g2 := mul_le_mul g1 p2 (by linarith) (by linarith)
    refine g2.trans ?_
    have := big_any (S := 100 * A) b1000 (k := 0) (e := 2) (by norm_num) (by norm_num)
    rw [pow_zero, one_mul] at this
    refine le_trans ?_ this
    linarith)
  simp only [mul_zero, mul_one, zero_add, add_zero] at h
  refine h.mono le_rfl ?_
  have := mul_le_mul_of_nonneg_left p2 e0
  linarith

/-- the `i`-th of `n` equal steps of the length `x / (n - 1)` -/
theorem step_appr {x : F64} {X A : ℝ} {k : ℕ} (hx : Appr x X A k 0) (hk : k ≤ 100) (hA : A ≤ 2 ^ (900 : ℤ)) (n : Nat) (h2 : 2 ≤ n)
    (hn : n ≤ 2 ^ 53) (i : Nat) (hi : i < n) :
    Appr (Scalar.lit (i : Nat) * (x / Scalar.lit (n - 1 : Nat))) (X * (i / (n - 1))) A (k + 2) (2 ^ (-1012 : ℤ)) := by
  have A0 := hx.pos
  have b1000 : 8 * A ≤ 2 ^ (1000 : ℤ) := by
    have : (2:ℝ) ^ (900 : ℤ) ≤ 2 ^ (990 : ℤ) := zpow_le_zpow_right₀ one_le_two (by norm_num)
    have := pow990 (hA.trans this)
    clear hA; generalize (2:ℝ) ^ (1000 : ℤ) = U at *; linarith
  clear hA
  have ln := lit_nat (k := n - 1) (by omega)
  have li := lit_nat (k := i) (by omega)
  have hc : ((n - 1 : ℕ) : ℝ) = n - 1 := by rw [Nat.cast_sub (by omega)]; simp
  have hn1 : (1:ℝ) ≤ (n : ℝ) - 1 := by
    have : (2:ℝ) ≤ n := by exact_mod_cast h2
    linarith
  have hi1 : (i : ℝ) ≤ n - 1 := by
    have : ((i + 1 : ℕ) : ℝ) ≤ n := by exact_mod_cast hi
    push_cast at this; linarith
  have hi0 : (0:ℝ) ≤ i := Nat.cast_nonneg i
  have hi53 : (i : ℝ) ≤ 2 ^ 53 := by exact_mod_cast (hi.le.trans hn)
  have η0 : (0:ℝ) < 2 ^ (-1075 : ℤ) := by positivity
  have η1 : (2:ℝ) ^ 63 * 2 ^ (-1075 : ℤ) ≤ 1 := by
    rw [← eta63]; exact zpow_le_one_of_nonpos₀ one_le_two (by norm_num)
  have q := hx.div_exact ln.1 (by rw [ln.2, hc]; exact hn1) (big_any (by
    clear η0 η1; generalize (2:ℝ) ^ (1000 : ℤ) = U at *; linarith) (by omega) (by norm_num))
  rw [ln.2, hc, mul_zero, zero_add] at q
  have hq : A / (n - 1) * i ≤ A := by
    rw [div_mul_eq_mul_div]
    exact (div_le_iff₀ (by linarith)).2 (mul_le_mul_of_nonneg_left hi1 A0)
  have hη : (i : ℝ) * 2 ^ (-1075 : ℤ) ≤ 2 ^ 53 * 2 ^ (-1075 : ℤ) := mul_le_mul_of_nonneg_right hi53 η0.le
  have m := ((Appr.exact li.1 (A := (i : ℝ)) (by rw [li.2, abs_of_nonneg hi0]))).mul q (by
    rw [pow_zero, one_mul, add_zero, mul_add, ← mul_assoc, mul_comm (i : ℝ), mul_assoc]
    have c : (i : ℝ) * (A / (n - 1)) ≤ 2 ^ (1000 : ℤ) := by
      rw [mul_comm]; refine hq.trans ?_
      clear η0 η1 hη q hx; generalize (2:ℝ) ^ (1000 : ℤ) = U at *; linarith
    exact big_any c (by omega) (by
      clear c b1000 q hx; generalize (2:ℝ) ^ (-1075 : ℤ) = η at *; linarith))
  simp only [pow_zero, one_mul, zero_mul, add_zero, zero_add] at m
  rw [li.2, mul_comm (i : ℝ) (A / (n - 1))] at m
  have ex : X * ((i : ℝ) / (n - 1)) = (i : ℝ) * (X / (n - 1)) := by ring
  rw [ex]
  refine (m.widen hq).mono le_rfl ?_
  rw [eta63]
  clear m q hx b1000
  generalize (2:ℝ) ^ (-1075 : ℤ) = η at *
  linarith

theorem pi_appr {T : Trig F64} (hP : GoodPi T) : Appr T.pi Real.pi 4 1 0 := by
  have h4 := Real.pi_lt_d2
  have h0 := Real.pi_pos
  refine ⟨hP.1, by rw [abs_of_pos h0]; linarith, le_rfl, hP.2.trans ?_⟩
  rw [two52]; linarith [uu_pos]

theorem add_mono_err {c : F64} {x A e b : ℝ} {k n : ℕ} (h : Appr c x A k e) (hk : k ≤ 1000) (hn : 2 * k ≤ n) (hA : A ≤ b) :
    |toR c - x| ≤ n * uu * b + e := by
  refine (err_of h hk (n := n) ?_).trans ?_
  · have : ((2 * k : ℕ) : ℝ) ≤ n := by exact_mod_cast hn
    push_cast at this
    exact mul_le_mul_of_nonneg_right this uu_pos.le
  · exact add_le_add (mul_le_mul_of_nonneg_left hA (mul_nonneg (Nat.cast_nonneg _) uu_pos.le)) le_rfl

end F64

/-! ### ellipses -/

theorem ellipse_coord {c a b t u v w : F64} {T U V W : ℝ} (hc : F64.Num c) (ha : F64.Num a) (hb : F64.Num b) (ht : Appr t T 1 2 0)
    (hu : Appr u U 1 2 0) (hv : Appr v V 1 2 0) (hw : Appr w W 1 2 0)
    (hs : |toR c| + |toR a| + |toR b| ≤ 2 ^ (900 : ℤ)) :
    Appr (c + a * t * u - b * v * w) (toR c + toR a * T * U - toR b * V * W) (|toR c| + |toR a| + |toR b|) 8 (2 ^ (-1069 : ℤ)) ∧
    Appr (c + a * t * u + b * v * w) (toR c + toR a * T * U + toR b * V * W) (|toR c| + |toR a| + |toR b|) 8 (2 ^ (-1069 : ℤ)) := by
  have n0 := abs_nonneg (toR c); have n1 := abs_nonneg (toR a); have n2 := abs_nonneg (toR b)
  have h990 : |toR c| + |toR a| + |toR b| ≤ 2 ^ (990 : ℤ) := hs.trans (zpow_le_zpow_right₀ one_le_two (by norm_num))
  have b1000 := pow990 h990
  have η0 : (0:ℝ) < 2 ^ (-1075 : ℤ) := by positivity
  have η1 : (2:ℝ) ^ 63 * 2 ^ (-1075 : ℤ) ≤ 1 := by
    rw [← eta63]; exact zpow_le_one_of_nonpos₀ one_le_two (by norm_num)
  have e69 : (2:ℝ) ^ (-1069 : ℤ) = 64 * 2 ^ (-1075 : ℤ) := by
    rw [show (-1069 : ℤ) = 6 + -1075 by norm_num, zpow_add₀ two_ne_zero]; norm_num
  have ea : |toR a| ≤ 2 ^ (990 : ℤ) := le_trans (by linarith) h990
  have eb : |toR b| ≤ 2 ^ (990 : ℤ) := le_trans (by linarith) h990
  clear hs h990
  have a1 := (Appr.exact ha le_rfl).mul_unit ht (by norm_num) (by norm_num) ea
  have b1 := (Appr.exact hb le_rfl).mul_unit hv (by norm_num) (by norm_num) eb
  rw [mul_zero, zero_add, zero_add] at a1 b1
  have e1 : (2:ℝ) ^ (-1075 : ℤ) ≤ 1 := by
    clear b1000 a1 b1 ea eb e69; generalize (2:ℝ) ^ (-1075 : ℤ) = η at *; linarith
  have a2 := (a1.mul_unit hu (by norm_num) e1 ea).mono (l := 6) (f := 5 * 2 ^ (-1075 : ℤ)) (by norm_num) (by linarith)
  have b2 := (b1.mul_unit hw (by norm_num) e1 eb).mono (l := 7) (f := 5 * 2 ^ (-1075 : ℤ)) (by norm_num) (by linarith)
  have s := ((Appr.exact hc le_rfl).mono (l := 6) (by norm_num) le_rfl).add a2 (big_any (by
    clear η0 η1 a1 b1 a2 b2 e1 e69 ea eb; generalize (2:ℝ) ^ (1000 : ℤ) = U at *; linarith) (by norm_num) (by
      clear b1000 a1 b1 a2 b2 e69 ea eb; generalize (2:ℝ) ^ (-1075 : ℤ) = η at *; linarith))
  have h5 : 2 * (0 + 5 * (2:ℝ) ^ (-1075 : ℤ)) + 5 * 2 ^ (-1075 : ℤ) ≤ 100 := by linarith
  have fin : (1 + uu) ^ (6 + 1) * (|toR c| + |toR a| + |toR b|) + (2 * (0 + 5 * (2:ℝ) ^ (-1075 : ℤ)) + 5 * 2 ^ (-1075 : ℤ)) ≤ 2 ^ (1023 : ℤ) :=
    big_any (by
      clear η0 η1 a1 b1 a2 b2 e1 e69 ea eb s h5; generalize (2:ℝ) ^ (1000 : ℤ) = U at *; linarith) (by norm_num) h5
  have he : 2 * (2 * (0 + 5 * (2:ℝ) ^ (-1075 : ℤ)) + 5 * 2 ^ (-1075 : ℤ)) ≤ 2 ^ (-1069 : ℤ) := by rw [e69]; linarith
  exact ⟨(s.sub b2 fin).mono le_rfl he, (s.add b2 fin).mono le_rfl he⟩

/-- C110: `ellipse` of doubles: the points are those of the upper half of the exact ellipse up to rounding. The `i`-th point is near
the point of the exact ellipse at an angle that is near the `i`-th of `n` equal steps from 0 to a half turn. -/
theorem c110_ellipse [T : Trig F64] (hT : GoodTrig T) (hP : GoodPi T) (c : Point2D F64) (n : Nat) (h2 : 2 ≤ n) (hn : n ≤ 2 ^ 53)
    (a b : Positive F64) (hc : c.Num) (ha : F64.Num a.val) (hb : F64.Num b.val)
    (hk : ∀ k, |toR (at2 c k)| + |toR a.val| + |toR b.val| ≤ 2 ^ (900 : ℤ)) :
    ∃ pts, ellipse c n a b = some pts ∧ pts.length = n ∧ ∀ (i : Nat) p, pts[i]? = some p → ∃ t : ℝ,
      |t - Real.pi * (i / (n - 1))| ≤ 2 ^ (-48 : ℤ) ∧ p.Num ∧
      |toR p.x - (toR c.x + toR a.val * Real.cos t)| ≤ 2 ^ (-49 : ℤ) * (|toR c.x| + |toR a.val| + |toR b.val|) + 2 ^ (-1069 : ℤ) ∧
      |toR p.y - (toR c.y + toR b.val * Real.sin t)| ≤ 2 ^ (-49 : ℤ) * (|toR c.y| + |toR a.val| + |toR b.val|) + 2 ^ (-1069 : ℤ) := by
  refine ⟨_, by simp only [ellipse, if_neg (show ¬ n = 0 by omega)]; rfl, by simp, ?_⟩
  intro i p hp
  obtain ⟨hi, rfl⟩ := map_range_at _ _ _ _ hp
  have hs := step_appr (pi_appr hP) (by norm_num) (by
    refine le_trans ?_ (zpow_le_zpow_right₀ one_le_two (show (2:ℤ) ≤ 900 by norm_num)); norm_num) n h2 hn i hi
  obtain ⟨hS, hC⟩ := hT.appr hs.num
  obtain ⟨hS0, hC0⟩ := hT.appr F64.num_zero
  rw [F64.toR_zero] at hS0 hC0
  rw [Real.sin_zero] at hS0
  rw [Real.cos_zero] at hC0
  rw [Fin.forall_fin_two] at hk
  have x := (ellipse_coord hc.1 ha hb hC hC0 hS hS0 hk.1).1
  have y := (ellipse_coord hc.2 ha hb hC hS0 hS hC0 hk.2).2
  have e49 : (2:ℝ) ^ (-49 : ℤ) = (16 : ℕ) * uu := by unfold uu; rw [u_small]; norm_num
  have e48 : (2:ℝ) ^ (-48 : ℤ) = 32 * uu := by unfold uu; rw [u_small]; norm_num
  have x' := add_mono_err x (n := 16) (by norm_num) (by norm_num) le_rfl
  have y' := add_mono_err y (n := 16) (by norm_num) (by norm_num) le_rfl
  rw [← e49, mul_zero, sub_zero, mul_one] at x'
  rw [← e49, mul_zero, add_zero, mul_one] at y'
  refine ⟨_, ?_, ⟨x.num, y.num⟩, x', y'⟩
  refine (add_mono_err hs (n := 6) (by norm_num) (by norm_num) le_rfl).trans ?_
  have : (2:ℝ) ^ (-1012 : ℤ) ≤ uu := by unfold uu; exact zpow_le_zpow_right₀ one_le_two (by norm_num)
  rw [e48]
  push_cast
  linarith [uu_pos]

/-! ### involutes -/

theorem involute_coord {c d x : F64} {X A : ℝ} (hc : F64.Num c) (hd : F64.Num d) (hx : Appr x X A 4 (2 ^ (-1073 : ℤ)))
    (h1 : |toR c| ≤ 2 ^ (900 : ℤ)) (h2 : |toR d| ≤ 2 ^ (400 : ℤ)) (h3 : A ≤ 2 ^ (401 : ℤ)) :
    Appr (c + d / Scalar.lit 2 * x) (toR c + toR d / 2 * X) (|toR c| + |toR d| / 2 * A) 7 (2 ^ (-600 : ℤ)) := by
  have n0 := abs_nonneg (toR c); have n1 := abs_nonneg (toR d)
  have A0 := hx.pos
  have l2 := lit_nat (k := 2) (by norm_num)
  have η0 : (0:ℝ) < 2 ^ (-1075 : ℤ) := by positivity
  have e73 : (2:ℝ) ^ (-1073 : ℤ) = 4 * 2 ^ (-1075 : ℤ) := by
    rw [show (-1073 : ℤ) = 2 + -1075 by norm_num, zpow_add₀ two_ne_zero]; norm_num
  have η1 : (2:ℝ) ^ (-1075 : ℤ) ≤ 1 := zpow_le_one_of_nonpos₀ one_le_two (by norm_num)
  have D1 : 100 * |toR d| ≤ 2 ^ (1000 : ℤ) := pow990 (h2.trans (zpow_le_zpow_right₀ one_le_two (by norm_num)))
  have h := (Appr.exact hd le_rfl).div_exact l2.1 (by rw [l2.2]; norm_num) (big_any (le_trans (by linarith) D1) (by norm_num) (by norm_num))
  simp only [l2.2, mul_zero, zero_add] at h
  push_cast at h
  have p1 := pow_uu_two (k := 1) (by norm_num)
  have p4 := pow_uu_two (k := 4) (by norm_num)
  have q1 := one_le_pow_uu 1
  have q4 := one_le_pow_uu 4
  rw [e73] at hx
  have prod : |toR d| / 2 * A ≤ 2 ^ (900 : ℤ) := by
    have := mul_le_mul h2 h3 A0 (by positivity)
    rw [← zpow_add₀ two_ne_zero] at this
    have h801 : (2:ℝ) ^ (400 + 401 : ℤ) ≤ 2 ^ (900 : ℤ) := zpow_le_zpow_right₀ one_le_two (by norm_num)
    have hp := mul_nonneg n1 A0
    exact le_trans (by linarith) (this.trans h801)
  have g1 : (1 + uu) ^ 1 * (|toR d| / 2) + 2 ^ (-1075 : ℤ) ≤ |toR d| + 1 := by
    have := mul_le_mul_of_nonneg_right p1 (show (0:ℝ) ≤ |toR d| / 2 by positivity)
    linarith
  have g2 : (1 + uu) ^ 4 * A + 4 * 2 ^ (-1075 : ℤ) ≤ 2 * A + 4 := by
    have := mul_le_mul_of_nonneg_right p4 A0
    linarith
  have m := h.mul hx (by
    refine (mul_le_mul g1 g2 (by positivity) (by positivity)).trans ?_
    have k1 : |toR d| + 1 ≤ 2 ^ (401 : ℤ) := by
      have : (1:ℝ) ≤ 2 ^ (400 : ℤ) := one_le_zpow₀ one_le_two (by norm_num)
      rw [show (401:ℤ) = 400 + 1 by norm_num, zpow_add_one₀ two_ne_zero]
      generalize (2:ℝ) ^ (400 : ℤ) = U at *; linarith
    have k2 : 2 * A + 4 ≤ 2 ^ (403 : ℤ) := by
      have : (4:ℝ) ≤ 2 ^ (401 : ℤ) := by
        refine le_trans ?_ (zpow_le_zpow_right₀ one_le_two (show (2:ℤ) ≤ 401 by norm_num)); norm_num
      rw [show (403:ℤ) = 401 + 2 by norm_num, zpow_add₀ two_ne_zero, show (2:ℝ) ^ (2:ℤ) = 4 by norm_num]
      clear k1 h2; generalize (2:ℝ) ^ (401 : ℤ) = U at *; linarith
    refine (mul_le_mul k1 k2 (by positivity) (by positivity)).trans ?_
    rw [← zpow_add₀ two_ne_zero]
    exact zpow_le_zpow_right₀ one_le_two (by norm_num))
  have em : 2 * ((1 + uu) ^ 1 * (|toR d| / 2) * (4 * 2 ^ (-1075 : ℤ)) + 2 ^ (-1075 : ℤ) * ((1 + uu) ^ 4 * A) +
      2 ^ (-1075 : ℤ) * (4 * 2 ^ (-1075 : ℤ))) + 2 ^ (-1075 : ℤ) ≤ (2:ℝ) ^ (-602 : ℤ) := by
    have w1 := mul_le_mul_of_nonneg_right p1 (show (0:ℝ) ≤ |toR d| / 2 by positivity)
    have w2 := mul_le_mul_of_nonneg_right p4 A0
    have w3 : 2 ^ (-1075 : ℤ) * (4 * 2 ^ (-1075 : ℤ)) ≤ (2:ℝ) ^ (-1075 : ℤ) * 4 := mul_le_mul_of_nonneg_left (by linarith) η0.le
    have w4 : 2 * ((1 + uu) ^ 1 * (|toR d| / 2) * (4 * 2 ^ (-1075 : ℤ)) + 2 ^ (-1075 : ℤ) * ((1 + uu) ^ 4 * A) +
      2 ^ (-1075 : ℤ) * (4 * 2 ^ (-1075 : ℤ))) + 2 ^ (-1075 : ℤ) ≤ 2 ^ (-1075 : ℤ) * (8 * |toR d| + 4 * A + 9) := by
      have y1 := mul_le_mul_of_nonneg_right w1 (show (0:ℝ) ≤ 4 * 2 ^ (-1075 : ℤ) by positivity)
      have y2 := mul_le_mul_of_nonneg_left w2 η0.le
      linarith
    refine w4.trans ?_
    have k : 8 * |toR d| + 4 * A + 9 ≤ 2 ^ (405 : ℤ) := by
      have : (16:ℝ) ≤ 2 ^ (400 : ℤ) := by
        refine le_trans ?_ (zpow_le_zpow_right₀ one_le_two (show (4:ℤ) ≤ 400 by norm_num)); norm_num
      rw [show (401:ℤ) = 400 + 1 by norm_num, zpow_add_one₀ two_ne_zero] at h3
      rw [show (405:ℤ) = 400 + 5 by norm_num, zpow_add₀ two_ne_zero, show (2:ℝ) ^ (5:ℤ) = 32 by norm_num]
      clear w4 w3 prod
      generalize (2:ℝ) ^ (400 : ℤ) = U at *; linarith
    refine (mul_le_mul_of_nonneg_left k η0.le).trans ?_
    rw [← zpow_add₀ two_ne_zero]
    exact zpow_le_zpow_right₀ one_le_two (by norm_num)
  have m' := m.mono (l := 6) (by norm_num) em
  have e1 : (2:ℝ) ^ (-602 : ℤ) ≤ 1 := zpow_le_one_of_nonpos₀ one_le_two (by norm_num)
  have C1 : 100 * |toR c| ≤ 2 ^ (1000 : ℤ) := pow990 (h1.trans (zpow_le_zpow_right₀ one_le_two (by norm_num)))
  have P1 : 100 * (|toR d| / 2 * A) ≤ 2 ^ (1000 : ℤ) := pow990 (prod.trans (zpow_le_zpow_right₀ one_le_two (by norm_num)))
  have P0 : 0 ≤ |toR d| / 2 * A := by positivity
  have r := ((Appr.exact hc le_rfl).mono (l := 6) (by norm_num) le_rfl).add m' (big_any (by
    clear e1 m m' em h hx; generalize (2:ℝ) ^ (1000 : ℤ) = U at *; linarith) (by norm_num) (by rw [zero_add]; linarith))
  refine r.mono le_rfl ?_
  rw [show (-600 : ℤ) = -602 + 2 by norm_num, zpow_add₀ two_ne_zero, show (2:ℝ) ^ (2:ℤ) = 4 by norm_num]
  have : (0:ℝ) < 2 ^ (-602 : ℤ) := by positivity
  linarith

/-- C110: `involut_circle` of doubles: the points are those of the exact involute up to rounding. The `i`-th point is near the
point of the exact involute at an angle that is near the `i`-th of `n` equal steps from 0 to the difference of the angles. -/
theorem c110_involute [T : Trig F64] (hT : GoodTrig T) (c : Point2D F64) (n : Nat) (h2 : 2 ≤ n) (hn : n ≤ 2 ^ 53)
    (d : Positive F64) (s e : F64) (hc : c.Num) (hd : F64.Num d.val) (hs : F64.Num s) (he : F64.Num e)
    (hk : ∀ k, |toR (at2 c k)| ≤ 2 ^ (900 : ℤ)) (hd2 : |toR d.val| ≤ 2 ^ (400 : ℤ)) (hb : |toR s| + |toR e| ≤ 2 ^ (398 : ℤ)) :
    ∃ pts, involutCircle c n d s e = some pts ∧ pts.length = n ∧ ∀ (i : Nat) p, pts[i]? = some p → ∃ t : ℝ,
      |t - |toR e - toR s| * (i / (n - 1))| ≤ 2 ^ (-49 : ℤ) * (|toR s| + |toR e|) + 2 ^ (-1012 : ℤ) ∧ p.Num ∧
      |toR p.x - (toR c.x + toR d.val / 2 * (Real.cos t + t * Real.sin t))| ≤
        2 ^ (-49 : ℤ) * (|toR c.x| + |toR d.val| / 2 * (1 + |t|)) + 2 ^ (-600 : ℤ) ∧
      |toR p.y - (toR c.y + toR d.val / 2 * (Real.sin t - t * Real.cos t))| ≤
        2 ^ (-49 : ℤ) * (|toR c.y| + |toR d.val| / 2 * (1 + |t|)) + 2 ^ (-600 : ℤ) := by
  refine ⟨_, by simp only [involutCircle, if_neg (show ¬ n = 0 by omega)]; rfl, by simp, ?_⟩
  intro i p hp
  obtain ⟨hi, rfl⟩ := map_range_at _ _ _ _ hp
  have hb9 : |toR e| + |toR s| ≤ 2 ^ (900 : ℤ) := by
    rw [add_comm]; exact hb.trans (zpow_le_zpow_right₀ one_le_two (by norm_num))
  have b1000 := pow990 (hb9.trans (zpow_le_zpow_right₀ one_le_two (by norm_num) : (2:ℝ) ^ (900 : ℤ) ≤ 2 ^ (990 : ℤ)))
  have n1 := abs_nonneg (toR s); have n2 := abs_nonneg (toR e)
  have dd := ((Appr.exact he le_rfl).sub (Appr.exact hs le_rfl) (big_any (le_trans (by linarith) b1000) (by norm_num) (by norm_num))).abs'
  simp only [add_zero, mul_zero] at dd
  have hst := step_appr dd (by norm_num) hb9 n h2 hn i hi
  have hle := hst.toR_le
  set t := (Scalar.lit (i : Nat) : F64) * (Scalar.abs (e - s) / Scalar.lit (n - 1 : Nat)) with htd
  have ht4 : |toR t| ≤ 2 ^ (400 : ℤ) := by
    refine hle.trans ?_
    have q3 := pow_uu_two (k := 0 + 1 + 2) (by norm_num)
    have := mul_le_mul_of_nonneg_right q3 (show 0 ≤ |toR e| + |toR s| by linarith)
    have h12 : (2:ℝ) ^ (-1012 : ℤ) ≤ 1 := zpow_le_one_of_nonpos₀ one_le_two (by norm_num)
    have h398 : (1:ℝ) ≤ 2 ^ (398 : ℤ) := one_le_zpow₀ one_le_two (by norm_num)
    rw [show (400:ℤ) = 398 + 2 by norm_num, zpow_add₀ two_ne_zero, show (2:ℝ) ^ (2:ℤ) = 4 by norm_num]
    clear q3
    generalize (2:ℝ) ^ (398 : ℤ) = U at h398 hb ⊢
    generalize (2:ℝ) ^ (-1012 : ℤ) = V at h12 ⊢
    generalize (1 + uu) ^ (0 + 1 + 2) * (|toR e| + |toR s|) = W at this ⊢
    linarith only [this, h12, h398, hb]
  obtain ⟨hS, hC⟩ := hT.appr hst.num
  have t990 : |toR t| ≤ 2 ^ (990 : ℤ) := ht4.trans (zpow_le_zpow_right₀ one_le_two (by norm_num))
  have tS := (Appr.exact hst.num le_rfl).mul_unit hS (by norm_num) (by norm_num) t990
  have tC := (Appr.exact hst.num le_rfl).mul_unit hC (by norm_num) (by norm_num) t990
  rw [mul_zero, zero_add, zero_add] at tS tC
  have η1 : (2:ℝ) ^ (-1075 : ℤ) ≤ 1 := zpow_le_one_of_nonpos₀ one_le_two (by norm_num)
  have η0 : (0:ℝ) < 2 ^ (-1075 : ℤ) := by positivity
  have e73 : 2 * (0 + (2:ℝ) ^ (-1075 : ℤ)) ≤ 2 ^ (-1073 : ℤ) := by
    rw [show (-1073 : ℤ) = 2 + -1075 by norm_num, zpow_add₀ two_ne_zero, show (2:ℝ) ^ (2:ℤ) = 4 by norm_num]; linarith
  have T1 := pow990 t990
  have T0 := abs_nonneg (toR t)
  have one1000 : (200:ℝ) ≤ 2 ^ (1000 : ℤ) := by
    refine le_trans ?_ (zpow_le_zpow_right₀ one_le_two (show (8:ℤ) ≤ 1000 by norm_num)); norm_num
  have bg : (1 + uu) ^ 3 * (1 + |toR t|) + (0 + (2:ℝ) ^ (-1075 : ℤ)) ≤ 2 ^ (1023 : ℤ) := big_any (by
    generalize (2:ℝ) ^ (1000 : ℤ) = U at T1 one1000 ⊢
    linarith only [T1, T0, one1000]) (by norm_num) (by linarith)
  have xs := ((hC.mono (l := 3) (by norm_num) le_rfl).add tS bg).mono le_rfl e73
  have ys := ((hS.mono (l := 3) (by norm_num) le_rfl).sub tC bg).mono le_rfl e73
  have A4 : 1 + |toR t| ≤ 2 ^ (401 : ℤ) := by
    have : (1:ℝ) ≤ 2 ^ (400 : ℤ) := one_le_zpow₀ one_le_two (by norm_num)
    rw [show (401:ℤ) = 400 + 1 by norm_num, zpow_add_one₀ two_ne_zero]
    generalize (2:ℝ) ^ (400 : ℤ) = U at this ht4 ⊢
    linarith only [this, ht4]
  rw [Fin.forall_fin_two] at hk
  have x := involute_coord hc.1 hd xs hk.1 hd2 A4
  have y := involute_coord hc.2 hd ys hk.2 hd2 A4
  have e49 : (2:ℝ) ^ (-49 : ℤ) = (16 : ℕ) * uu := by unfold uu; rw [u_small]; norm_num
  rw [e49]
  refine ⟨toR t, ?_, ⟨x.num, y.num⟩, add_mono_err x (by norm_num) (by norm_num) le_rfl, add_mono_err y (by norm_num) (by norm_num) le_rfl⟩
  exact add_mono_err hst (by norm_num) (by norm_num) (le_of_eq (add_comm _ _))

/-! ### rectangles -/

theorem corner_coord {c w : F64} (hc : F64.Num c) (hw : F64.Num w) (h : |toR c| + |toR w| ≤ 2 ^ (990 : ℤ)) :
    (F64.Num (c - w / Scalar.lit 2) ∧
      |toR (c - w / Scalar.lit 2) - (toR c - toR w / 2)| ≤ 2 ^ (-51 : ℤ) * (|toR c| + |toR w| / 2) + 2 ^ (-1074 : ℤ)) ∧
    F64.Num (c + w / Scalar.lit 2) ∧
      |toR (c + w / Scalar.lit 2) - (toR c + toR w / 2)| ≤ 2 ^ (-51 : ℤ) * (|toR c| + |toR w| / 2) + 2 ^ (-1074 : ℤ) := by
  have n0 := abs_nonneg (toR c); have n1 := abs_nonneg (toR w)
  have l2 := lit_nat (k := 2) (by norm_num)
  have b := pow990 h
  have d := (Appr.exact hw le_rfl).div_exact l2.1 (by rw [l2.2]; norm_num) (big_any (le_trans (by linarith) b) (by norm_num) (by norm_num))
  simp only [l2.2, mul_zero, zero_add] at d
  push_cast at d
  have c1 := (Appr.exact hc le_rfl).mono (l := 1) (by norm_num) le_rfl
  have η1 : (2:ℝ) ^ (-1075 : ℤ) ≤ 1 := zpow_le_one_of_nonpos₀ one_le_two (by norm_num)
  have bg : (1 + uu) ^ 1 * (|toR c| + |toR w| / 2) + (0 + (2:ℝ) ^ (-1075 : ℤ)) ≤ 2 ^ (1023 : ℤ) :=
    big_any (le_trans (by linarith) b) (by norm_num) (by linarith)
  have e : 2 * (0 + (2:ℝ) ^ (-1075 : ℤ)) ≤ 2 ^ (-1074 : ℤ) := by rw [eta74]; linarith
  have x := (c1.sub d bg).mono le_rfl e
  have y := (c1.add d bg).mono le_rfl e
  have e51 : (2:ℝ) ^ (-51 : ℤ) = (4 : ℕ) * uu := by unfold uu; rw [u_small]; norm_num
  rw [e51]
  exact ⟨⟨x.num, add_mono_err x (by norm_num) (by norm_num) le_rfl⟩, y.num, add_mono_err y (by norm_num) (by norm_num) le_rfl⟩

/-- C110: `rectangle` of doubles: exactly axis aligned (neighbouring corners share the very same coordinate), its corners counter
clockwise from the lower left one, half the width and half the height around the center up to rounding -/
theorem c110_rectangle (c : Point2D F64) (w h : Positive F64) (hc : c.Num) (hw : F64.Num w.val) (hh : F64.Num h.val)
    (h1 : |toR c.x| + |toR w.val| ≤ 2 ^ (990 : ℤ)) (h2 : |toR c.y| + |toR h.val| ≤ 2 ^ (990 : ℤ)) :
    ∃ x0 x1 y0 y1, rectangle c w h = [⟨x0, y0⟩, ⟨x1, y0⟩, ⟨x1, y1⟩, ⟨x0, y1⟩] ∧ F64.Num x0 ∧ F64.Num x1 ∧ F64.Num y0 ∧ F64.Num y1 ∧
      |toR x0 - (toR c.x - toR w.val / 2)| ≤ 2 ^ (-51 : ℤ) * (|toR c.x| + |toR w.val| / 2) + 2 ^ (-1074 : ℤ) ∧
      |toR x1 - (toR c.x + toR w.val / 2)| ≤ 2 ^ (-51 : ℤ) * (|toR c.x| + |toR w.val| / 2) + 2 ^ (-1074 : ℤ) ∧
      |toR y0 - (toR c.y - toR h.val / 2)| ≤ 2 ^ (-51 : ℤ) * (|toR c.y| + |toR h.val| / 2) + 2 ^ (-1074 : ℤ) ∧
      |toR y1 - (toR c.y + toR h.val / 2)| ≤ 2 ^ (-51 : ℤ) * (|toR c.y| + |toR h.val| / 2) + 2 ^ (-1074 : ℤ) := by
  obtain ⟨⟨a1, a2⟩, a3, a4⟩ := corner_coord hc.1 hw h1
  obtain ⟨⟨b1, b2⟩, b3, b4⟩ := corner_coord hc.2 hh h2
  exact ⟨_, _, _, _, rfl, a1, a3, b1, b3, a2, a4, b2, b4⟩

/-- C110 violated: a rectangle of doubles can have no width: one of the width 1 around a far away point -/
theorem c110_violated_rounding : ∃ p q r s, rectangle (⟨f 18014398509481984, f 0⟩ : Point2D F64) ⟨f 1⟩ ⟨f 1⟩ = [p, q, r, s] ∧
    p.x = q.x ∧ p ≠ r := by
  refine ⟨_, _, _, _, rfl, ?_, ?_⟩ <;> decide +kernel

/-- the hypotheses of the theorems above are met, e.g. by seven points around (1, 2) -/
example : ∃ (T : Trig F64) (c : Point2D F64) (a b : Positive F64) (s e : F64), GoodTrig T ∧ GoodPi T ∧ c.Num ∧ F64.Num a.val ∧ F64.Num b.val ∧
    F64.Num s ∧ F64.Num e ∧ (∀ k, |toR (at2 c k)| + |toR a.val| + |toR b.val| ≤ 2 ^ (900 : ℤ)) ∧
    (∀ k, |toR (at2 c k)| ≤ 2 ^ (900 : ℤ)) ∧ |toR a.val| ≤ 2 ^ (400 : ℤ) ∧ |toR s| + |toR e| ≤ 2 ^ (398 : ℤ) ∧
    |toR c.x| + |toR a.val| ≤ 2 ^ (990 : ℤ) ∧ |toR c.y| + |toR b.val| ≤ 2 ^ (990 : ℤ) ∧
    ∃ pts, ellipse c 7 a b = some pts ∧ pts.length = 7 := by
  obtain ⟨n1, e1⟩ := ex_num 1 false 1 (by decide +kernel)
  obtain ⟨n2, e2⟩ := ex_num 2 false 2 (by decide +kernel)
  obtain ⟨n3, e3⟩ := ex_num 3 false 3 (by decide +kernel)
  have v1 : |toR (f 1)| = 1 := by rw [e1]; norm_num [val]
  have v2 : |toR (f 2)| = 2 := by rw [e2]; norm_num [val]
  have v3 : |toR (f 3)| = 3 := by rw [e3]; norm_num [val]
  have up : ∀ (k : ℤ), 3 ≤ k → (8:ℝ) ≤ 2 ^ k := fun k hk => by
    refine le_trans ?_ (zpow_le_zpow_right₀ one_le_two hk); norm_num
  let _ := F64.trigPi
  have hk : ∀ k, |toR (at2 (⟨f 1, f 2⟩ : Point2D F64) k)| + |toR (f 3)| + |toR (f 2)| ≤ 2 ^ (900 : ℤ) := by
    rw [Fin.forall_fin_two]; simp only [at2_zero, at2_one, v1, v2, v3]
    exact ⟨le_trans (by norm_num) (up 900 (by norm_num)), le_trans (by norm_num) (up 900 (by norm_num))⟩
  refine ⟨F64.trigPi, ⟨f 1, f 2⟩, ⟨f 3⟩, ⟨f 2⟩, f 1, f 3, F64.trigPi_good.1, F64.trigPi_good.2, ⟨n1, n2⟩, n3, n2, n1, n3, hk, ?_, ?_, ?_, ?_, ?_, ?_⟩
  · rw [Fin.forall_fin_two]; simp only [at2_zero, at2_one, v1, v2]
    exact ⟨le_trans (by norm_num) (up 900 (by norm_num)), le_trans (by norm_num) (up 900 (by norm_num))⟩
  · simp only [v3]; exact le_trans (by norm_num) (up 400 (by norm_num))
  · simp only [v1, v3]; exact le_trans (by norm_num) (up 398 (by norm_num))
  · simp only [v1, v3]; exact le_trans (by norm_num) (up 990 (by norm_num))
  · simp only [v2]; exact le_trans (by norm_num) (up 990 (by norm_num))
  · obtain ⟨pts, h1, h2, -⟩ := c110_ellipse F64.trigPi_good.1 F64.trigPi_good.2 ⟨f 1, f 2⟩ 7 (by norm_num) (by norm_num) ⟨f 3⟩ ⟨f 2⟩ ⟨n1, n2⟩ n3 n2 hk
    exact ⟨pts, h1, h2⟩

end R3D

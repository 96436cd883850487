import Verif.Props.RotFloat
/-!
# C104: arcs of doubles
-/
namespace R3D
open Scalar LawfulScalar Spec F64

namespace F64
theorem Appr.abs' {a : F64} {x A e : ℝ} {k : ℕ} (h : Appr a x A k e) : Appr (Scalar.abs a) |x| A k e := by
  refine ⟨h.num.abs, by rw [_root_.abs_abs]; exact h.le, h.nonneg, ?_⟩
  rw [toR_abs h.num]
  exact (_root_.abs_abs_sub_abs_le_abs_sub _ _).trans h.err

/-- dividing by a number of at least one -/
theorem Appr.div_exact {a b : F64} {x A e : ℝ} {k : ℕ} (ha : Appr a x A k e) (hb : Num b) (h1 : 1 ≤ toR b)
    (h : (1 + uu) ^ k * A + e ≤ 2 ^ (1023 : ℤ)) : Appr (a / b) (x / toR b) (A / toR b) (k + 1) (2 * e + 2 ^ (-1075 : ℤ)) := by
  have hp : 0 < toR b := by linarith
  have e0 := ha.nonneg
  have A0 := ha.pos
  have hle : |toR a / toR b| ≤ 2 ^ (1023 : ℤ) := by
    rw [_root_.abs_div, abs_of_pos hp]
    exact (div_le_self (abs_nonneg _) h1).trans (ha.toR_le.trans h)
  obtain ⟨n, q⟩ := toR_div ha.num hb hp.ne' hle
  have hab : |x / toR b| ≤ A / toR b := by
    rw [_root_.abs_div, abs_of_pos hp]; exact div_le_div_of_nonneg_right ha.le hp.le
  have hr : |toR a / toR b - x / toR b| ≤ ((1 + uu) ^ k - 1) * (A / toR b) + e := by
    rw [← sub_div, _root_.abs_div, abs_of_pos hp]
    have := div_le_div_of_nonneg_right ha.err hp.le
    rw [add_div, mul_div_assoc] at this
    linarith [div_le_self e0 h1]
  refine (Appr.round (y' := 2 ^ (-1075 : ℤ)) hr hab e0 n q (zpow_pos two_pos _).le).mono le_rfl ?_
  nlinarith [uu_le]

theorem eta63 : (2:ℝ) ^ (-1012 : ℤ) = 2 ^ 63 * 2 ^ (-1075 : ℤ) := by
  rw [show (-1012 : ℤ) = 63 + -1075 by norm_num, zpow_add₀ two_ne_zero]; norm_num

end F64

/-- the angle of the `i`-th point of an arc as computed -/
def arcAngle (n : Nat) (start end_ : F64) (i : Nat) : F64 :=
  start + Scalar.lit (i : Nat) * (Scalar.abs (end_ - start) / Scalar.lit (n - 1 : Nat))

theorem arcAngle_appr (n : Nat) (h2 : 2 ≤ n) (hn : n ≤ 2 ^ 53) (s e : F64) (hs : F64.Num s) (he : F64.Num e)
    (hb : |toR s| + |toR e| ≤ 2 ^ (900 : ℤ)) (i : Nat) (hi : i < n) :
    F64.Num (arcAngle n s e i) ∧ |toR (arcAngle n s e i) - (toR s + |toR e - toR s| * (i / (n - 1)))| ≤
      2 ^ (-49 : ℤ) * (|toR s| + |toR e|) + 2 ^ (-1012 : ℤ) := by
  have b1000 : 8 * (|toR s| + |toR e|) ≤ 2 ^ (1000 : ℤ) := by
    have : (2:ℝ) ^ (900 : ℤ) ≤ 2 ^ (990 : ℤ) := zpow_le_zpow_right₀ one_le_two (by norm_num)
    have := pow990 (hb.trans this)
    have := abs_nonneg (toR s); have := abs_nonneg (toR e)
    clear hb; generalize (2:ℝ) ^ (1000 : ℤ) = U at *; linarith
  clear hb
  have n1 := abs_nonneg (toR s); have n2 := abs_nonneg (toR e)
  have ln := lit_nat (k := n - 1) (by omega)
  have li := lit_nat (k := i) (by omega)
  have hc : ((n - 1 : ℕ) : ℝ) = n - 1 := by rw [Nat.cast_sub (by omega)]; simp
  have hn1 : (1:ℝ) ≤ (n : ℝ) - 1 := by
    have : (2:ℝ) ≤ n := by exact_mod_cast h2
    linarith
  have hi1 : (i : ℝ) ≤ n - 1 := by
    have : ((i + 1 : ℕ) : ℝ) ≤ n := by exact_mod_cast hi
    push_cast at this; linarith
  have hi0 : (0:ℝ) ≤ i := Nat.cast_nonneg i
  have hi53 : (i : ℝ) ≤ 2 ^ 53 := by exact_mod_cast (hi.le.trans hn)
  have η0 : (0:ℝ) < 2 ^ (-1075 : ℤ) := by positivity
  have η1 : (2:ℝ) ^ 63 * 2 ^ (-1075 : ℤ) ≤ 1 := by
    rw [← eta63]; exact zpow_le_one_of_nonpos₀ one_le_two (by norm_num)
  have d := ((Appr.exact he le_rfl).sub (Appr.exact hs le_rfl) (big_any (by
    clear η0 η1; generalize (2:ℝ) ^ (1000 : ℤ) = U at *; linarith) (by norm_num) (by norm_num))).abs'
  simp only [add_zero, mul_zero] at d
  have q := d.div_exact ln.1 (by rw [ln.2, hc]; exact hn1) (big_any (by
    clear η0 η1; generalize (2:ℝ) ^ (1000 : ℤ) = U at *; linarith) (by norm_num) (by norm_num))
  rw [ln.2, hc, mul_zero, zero_add] at q
  have hq : (|toR e| + |toR s|) / (n - 1) * i ≤ |toR e| + |toR s| := by
    rw [div_mul_eq_mul_div]
    exact (div_le_iff₀ (by linarith)).2 (mul_le_mul_of_nonneg_left hi1 (by linarith))
  have hq0 : 0 ≤ (|toR e| + |toR s|) / (n - 1) * i := mul_nonneg (div_nonneg (by linarith) (by linarith)) hi0
  have hη : (i : ℝ) * 2 ^ (-1075 : ℤ) ≤ 2 ^ 53 * 2 ^ (-1075 : ℤ) := mul_le_mul_of_nonneg_right hi53 η0.le
  have m := ((Appr.exact li.1 (A := (i : ℝ)) (by rw [li.2, abs_of_nonneg hi0]))).mul q (by
    rw [pow_zero, one_mul, add_zero, mul_add, ← mul_assoc, mul_comm (i : ℝ), mul_assoc]
    have c : (i : ℝ) * ((|toR e| + |toR s|) / (n - 1)) ≤ 2 ^ (1000 : ℤ) := by
      rw [mul_comm]; refine hq.trans ?_
      clear η0 η1 hη q d; generalize (2:ℝ) ^ (1000 : ℤ) = U at *; linarith
    exact big_any c (by norm_num) (by
      clear c b1000 q d; generalize (2:ℝ) ^ (-1075 : ℤ) = η at *; linarith))
  have l4 := (Appr.exact hs le_rfl).mono (l := 0 + (0 + 1 + 1) + 1) (by norm_num) le_rfl
  simp only [pow_zero, one_mul, zero_mul, add_zero] at m
  rw [li.2, mul_comm (i : ℝ) ((|toR e| + |toR s|) / (n - 1))] at m
  have r := l4.add m (big_any (by
    clear η0 η1 hη q d m l4; generalize (2:ℝ) ^ (1000 : ℤ) = U at *; linarith) (by norm_num) (by
      clear b1000 q d m l4; generalize (2:ℝ) ^ (-1075 : ℤ) = η at *; linarith))
  have er := err_of r (n := 8) (by norm_num) (by push_cast; linarith [uu_pos])
  have ex : toR s + |toR e - toR s| * ((i : ℝ) / (n - 1)) = toR s + (i : ℝ) * (|toR e - toR s| / (n - 1)) := by ring
  have e49 : (2:ℝ) ^ (-49 : ℤ) = 16 * uu := by unfold uu; rw [u_small]; norm_num
  refine ⟨r.num, ?_⟩
  rw [ex, e49, eta63]
  refine le_trans er ?_
  clear er r m l4 q d b1000 η1 e49 ex
  have u1 := mul_le_mul_of_nonneg_left hq uu_pos.le
  have u2 := mul_nonneg uu_pos.le n1
  have u3 := mul_nonneg uu_pos.le n2
  generalize (2:ℝ) ^ (-1075 : ℤ) = η at *
  push_cast
  simp only [zero_add]
  generalize (|toR e| + |toR s|) / (n - 1) * (i:ℝ) = Q at *
  generalize (i : ℝ) * η = W at *
  linarith

/-- a point of an arc as computed -/
theorem arc_coord {c d t : F64} {X : ℝ} (hc : F64.Num c) (hd : F64.Num d) (ht : Appr t X 1 2 0)
    (hb : |toR c| + |toR d| ≤ 2 ^ (900 : ℤ)) :
    F64.Num (c + d / Scalar.lit 2 * t) ∧ |toR (c + d / Scalar.lit 2 * t) - (toR c + toR d / 2 * X)| ≤
      2 ^ (-49 : ℤ) * (|toR c| + |toR d|) + 2 ^ (-1070 : ℤ) := by
  have n1 := abs_nonneg (toR c); have n2 := abs_nonneg (toR d)
  have b1000 : 8 * (|toR c| + |toR d|) ≤ 2 ^ (1000 : ℤ) := by
    have : (2:ℝ) ^ (900 : ℤ) ≤ 2 ^ (990 : ℤ) := zpow_le_zpow_right₀ one_le_two (by norm_num)
    have := pow990 (hb.trans this)
    clear hb; generalize (2:ℝ) ^ (1000 : ℤ) = U at *; linarith
  have η0 : (0:ℝ) < 2 ^ (-1075 : ℤ) := by positivity
  have η1 : (2:ℝ) ^ 63 * 2 ^ (-1075 : ℤ) ≤ 1 := by
    rw [← eta63]; exact zpow_le_one_of_nonpos₀ one_le_two (by norm_num)
  have l2 := lit_nat (k := 2) (by norm_num)
  have h := (Appr.exact hd le_rfl).div_exact l2.1 (by rw [l2.2]; norm_num) (big_any (by
    clear η0 η1; generalize (2:ℝ) ^ (1000 : ℤ) = U at *; linarith) (by norm_num) (by norm_num))
  rw [l2.2, mul_zero, zero_add] at h
  have p1 := pow_uu_two (k := 1) (by norm_num)
  have p2 := pow_uu_two (k := 2) (by norm_num)
  have p3 := one_le_pow_uu 1
  have p4 := one_le_pow_uu 2
  have m := h.mul ht (by
    simp only [mul_one, add_zero, zero_add]
    have g : (1 + uu) ^ 1 * (|toR d| / ((2:ℕ):ℝ)) + 2 ^ (-1075 : ℤ) ≤ |toR d| + 1 := by
      have := mul_le_mul_of_nonneg_right p1 (show (0:ℝ) ≤ |toR d| / ((2:ℕ):ℝ) by positivity)
      push_cast at this ⊢
      clear b1000 h l2 hb; generalize (2:ℝ) ^ (-1075 : ℤ) = η at *; linarith
    have g2 := mul_le_mul g p2 (by positivity) (by linarith)
    refine g2.trans ?_
    have := big_any (S := 8 * (|toR c| + |toR d|)) b1000 (k := 0) (e := 2) (by norm_num) (by norm_num)
    rw [pow_zero, one_mul] at this
    refine le_trans ?_ this
    linarith)
  simp only [mul_zero, mul_one, zero_add, add_zero] at m
  have m' := m.mono (l := 4) (f := 5 * 2 ^ (-1075 : ℤ)) (by norm_num) (by
    have := mul_le_mul_of_nonneg_left p2 η0.le
    clear b1000 h l2 hb m; generalize (2:ℝ) ^ (-1075 : ℤ) = η at *; linarith)
  have r := ((Appr.exact hc le_rfl).mono (l := 4) (by norm_num) le_rfl).add m' (big_any (by
    clear η0 η1 m m' h; push_cast; generalize (2:ℝ) ^ (1000 : ℤ) = U at *; linarith) (by norm_num) (by
      clear b1000 h l2 hb m m'; generalize (2:ℝ) ^ (-1075 : ℤ) = η at *; linarith))
  refine ⟨r.num, ?_⟩
  have er := err_of r (n := 10) (by norm_num) (by push_cast; linarith [uu_pos])
  push_cast at er
  refine er.trans ?_
  have e49 : (2:ℝ) ^ (-49 : ℤ) = 16 * uu := by unfold uu; rw [u_small]; norm_num
  have e70 : (2:ℝ) ^ (-1070 : ℤ) = 32 * 2 ^ (-1075 : ℤ) := by
    rw [show (-1070 : ℤ) = 5 + -1075 by norm_num, zpow_add₀ two_ne_zero]; norm_num
  rw [e49, e70]
  have u1 := mul_nonneg uu_pos.le n1
  have u2 := mul_nonneg uu_pos.le n2
  clear er r m m' h l2 b1000 hb η1 e49 e70
  generalize (2:ℝ) ^ (-1075 : ℤ) = η at *
  linarith

/-- C104: `arc` of doubles: the points are those of the exact arc up to rounding. The `i`-th point is near the point of the
exact circle at an angle that is near the exact angle of the `i`-th of `n` equal steps. -/
theorem c104_arc [T : Trig F64] (hT : GoodTrig T) (c : Point2D F64) (n : Nat) (h2 : 2 ≤ n) (hn : n ≤ 2 ^ 53) (d : Positive F64) (s e : F64)
    (hc : c.Num) (hd : F64.Num d.val) (hs : F64.Num s) (he : F64.Num e) (hb : |toR s| + |toR e| ≤ 2 ^ (900 : ℤ))
    (hk : ∀ k, |toR (at2 c k)| + |toR d.val| ≤ 2 ^ (900 : ℤ)) :
    ∃ pts, arc c n d s e = some pts ∧ pts.length = n ∧ ∀ (i : Nat) p, pts[i]? = some p → ∃ t : ℝ,
      |t - (toR s + |toR e - toR s| * (i / (n - 1)))| ≤ 2 ^ (-49 : ℤ) * (|toR s| + |toR e|) + 2 ^ (-1012 : ℤ) ∧ p.Num ∧
      |toR p.x - (toR c.x + toR d.val / 2 * Real.cos t)| ≤ 2 ^ (-49 : ℤ) * (|toR c.x| + |toR d.val|) + 2 ^ (-1070 : ℤ) ∧
      |toR p.y - (toR c.y + toR d.val / 2 * Real.sin t)| ≤ 2 ^ (-49 : ℤ) * (|toR c.y| + |toR d.val|) + 2 ^ (-1070 : ℤ) := by
  refine ⟨_, by simp only [arc, if_neg (show ¬ n = 0 by omega)]; rfl, by simp, ?_⟩
  intro i p hp
  obtain ⟨hi, rfl⟩ := map_range_at _ _ _ _ hp
  obtain ⟨ha, hr⟩ := arcAngle_appr n h2 hn s e hs he hb i hi
  obtain ⟨hS, hC⟩ := hT.appr ha
  rw [Fin.forall_fin_two] at hk
  have x := arc_coord hc.1 hd hC hk.1
  have y := arc_coord hc.2 hd hS hk.2
  exact ⟨_, hr, ⟨x.1, y.1⟩, x.2, y.2⟩

/-- C104: the computed distance of a point of the arc to the center is half the diameter up to rounding -/
theorem c104_arc_distance [T : Trig F64] (hT : GoodTrig T) (c : Point2D F64) (n : Nat) (h2 : 2 ≤ n) (hn : n ≤ 2 ^ 53) (d : Positive F64) (s e : F64)
    (hc : c.Num) (hd : F64.Num d.val) (hd0 : 0 ≤ toR d.val) (hs : F64.Num s) (he : F64.Num e) (hb : |toR s| + |toR e| ≤ 2 ^ (900 : ℤ))
    (hk : |toR c.x| + |toR c.y| + toR d.val ≤ 2 ^ (500 : ℤ)) :
    ∃ pts, arc c n d s e = some pts ∧ ∀ p ∈ pts, ∃ D, c.dist p = .fin false D ∧
      |(D : ℝ) - toR d.val / 2| ≤ 2 ^ (-47 : ℤ) * (|toR c.x| + |toR c.y| + toR d.val) + 2 ^ (-535 : ℤ) := by
  have n1 := abs_nonneg (toR c.x); have n2 := abs_nonneg (toR c.y)
  have h900 : (2:ℝ) ^ (500 : ℤ) ≤ 2 ^ (900 : ℤ) := zpow_le_zpow_right₀ one_le_two (by norm_num)
  obtain ⟨pts, hp, -, h⟩ := c104_arc hT c n h2 hn d s e hc hd hs he hb (by
    rw [Fin.forall_fin_two, abs_of_nonneg hd0]; simp only [at2_zero, at2_one]
    constructor <;> refine le_trans ?_ (hk.trans h900) <;> linarith)
  refine ⟨pts, hp, ?_⟩
  intro p hpm
  obtain ⟨i, hi⟩ := List.mem_iff_getElem?.1 hpm
  obtain ⟨t, -, hpn, hx, hy⟩ := h i p hi
  rw [abs_of_nonneg hd0] at hx hy
  have ed : √(Spec.sqrDist (at2 c.real) ![toR c.x + toR d.val / 2 * Real.cos t, toR c.y + toR d.val / 2 * Real.sin t]) = toR d.val / 2 := by
    have : Spec.sqrDist (at2 c.real) ![toR c.x + toR d.val / 2 * Real.cos t, toR c.y + toR d.val / 2 * Real.sin t] = (toR d.val / 2) ^ 2 := by
      simp only [Spec.sqrDist, Fin.sum_univ_two, Matrix.cons_val_zero, Matrix.cons_val_one]
      show (toR c.x - _) ^ 2 + (toR c.y - _) ^ 2 = _
      linear_combination (toR d.val / 2) ^ 2 * (Real.cos_sq_add_sin_sq t)
    rw [this]
    exact Real.sqrt_sq (by linarith)
  have k49 : (2:ℝ) ^ (-49 : ℤ) = 1 / 2 ^ 49 := by norm_num
  have k47 : (2:ℝ) ^ (-47 : ℤ) = 1 / 2 ^ 47 := by norm_num
  have k50 : (2:ℝ) ^ (-50 : ℤ) = 1 / 2 ^ 50 := by norm_num
  have t70 : (2:ℝ) ^ (-1070 : ℤ) ≤ 2 ^ (-1058 : ℤ) := zpow_le_zpow_right₀ one_le_two (by norm_num)
  have t58 := tiny_536
  have t1 : (2:ℝ) ^ (-536 : ℤ) ≤ 1 := zpow_le_one_of_nonpos₀ one_le_two (by norm_num)
  have p70 : (0:ℝ) < 2 ^ (-1070 : ℤ) := by positivity
  have up := up_511 hk (t := 4 * (2:ℝ) ^ (-1070 : ℤ)) (by linarith)
  obtain ⟨D, hD, hE⟩ := dist_near_2d (P := at2 c.real) (ε := 0) (δ := 2 ^ (-49 : ℤ) * (|toR c.x| + |toR c.y| + toR d.val) + 2 ^ (-1070 : ℤ))
    (S := toR d.val / 2) hc hpn (by
      rw [Fin.forall_fin_two]; constructor
      · show |toR c.x - toR c.x| ≤ 0; simp
      · show |toR c.y - toR c.y| ≤ 0; simp)
    (by
      rw [Fin.forall_fin_two]; rw [k49] at *; constructor
      · refine hx.trans ?_; clear up; linarith
      · refine hy.trans ?_; clear up; linarith) (le_of_eq ed) (by
      refine le_trans ?_ up
      rw [k49]; clear up hx hy; generalize (2:ℝ) ^ (-1070 : ℤ) = η at *; linarith)
  refine ⟨D, hD, ?_⟩
  rw [ed] at hE
  refine hE.trans ?_
  rw [k49, k47, k50, two535]
  clear up hx hy hE hk hb h900
  generalize (2:ℝ) ^ (-1070 : ℤ) = η at *
  generalize (2:ℝ) ^ (-1058 : ℤ) = η' at *
  generalize (2:ℝ) ^ (-536 : ℤ) = θ at *
  linarith


theorem F64.zero_mul_div_zero (a : F64) : (Scalar.lit 0 : F64) * (a / Scalar.lit 0) = .nan := by
  have e : (Scalar.lit 0 : F64) = .fin false 0 := by decide +kernel
  rw [e]
  match a with
  | .nan => rfl
  | .inf s => cases s <;> rfl
  | .fin s m =>
    show F64.mul _ (F64.div _ _) = _
    by_cases h : m = 0
    · simp [F64.div, F64.mul, h]
    · simp [F64.div, F64.mul, h]

/-- C104: an arc, an ellipse or an involute of one point has the angle `start + 0 * (|end - start| / 0)`, which is never a number:
the only point has no coordinates (sine and cosine of NaN being NaN) -/
theorem c104_violated_single [T : Trig F64] (hs : T.sin .nan = .nan) (hc : T.cos .nan = .nan) (c : Point2D F64) (d a b : Positive F64) (s e : F64) :
    arc c 1 d s e = some [⟨.nan, .nan⟩] ∧ ellipse c 1 a b = some [⟨.nan, .nan⟩] ∧ involutCircle c 1 d s e = some [⟨.nan, .nan⟩] := by
  have l : (Scalar.lit ((0 : Nat) : ℚ) : F64) = Scalar.lit 0 := by norm_num
  have n : ∀ a : F64, a + .nan = .nan := fun a => by cases a <;> rfl
  have n' : ∀ a : F64, .nan + a = .nan := fun a => by cases a <;> rfl
  have k : ∀ a : F64, .nan - a = .nan := fun a => by cases a <;> rfl
  have m : ∀ a : F64, a * .nan = .nan := fun a => by cases a <;> rfl
  have m' : ∀ a : F64, .nan * a = .nan := fun a => by cases a <;> rfl
  refine ⟨?_, ?_, ?_⟩
  · unfold arc
    rw [if_neg (by norm_num)]
    simp only [List.range_one, List.map_cons, List.map_nil, Nat.sub_self]
    rw [l, F64.zero_mul_div_zero, n, hs, hc, m, n, n]
  · unfold ellipse
    rw [if_neg (by norm_num)]
    simp only [List.range_one, List.map_cons, List.map_nil, Nat.sub_self]
    rw [l, F64.zero_mul_div_zero, hs, hc, m, m, m', m', n, k, n]
  · unfold involutCircle
    rw [if_neg (by norm_num)]
    simp only [List.range_one, List.map_cons, List.map_nil, Nat.sub_self]
    rw [l, F64.zero_mul_div_zero, hs, hc, m', n, k, m, n, n]

/-- the hypotheses of `c104_arc` and `c104_arc_distance` are met, e.g. by five points of a half circle -/
example : ∃ T : Trig F64, GoodTrig T ∧ T.sin .nan = .nan ∧ T.cos .nan = .nan := ⟨F64.trig, F64.trig_good, if_pos rfl, if_pos rfl⟩

example : ∃ (T : Trig F64) (c : Point2D F64) (d : Positive F64) (s e : F64), GoodTrig T ∧ c.Num ∧ F64.Num d.val ∧ 0 ≤ toR d.val ∧ F64.Num s ∧
    F64.Num e ∧ |toR s| + |toR e| ≤ 2 ^ (900 : ℤ) ∧ |toR c.x| + |toR c.y| + toR d.val ≤ 2 ^ (500 : ℤ) ∧
    ∃ pts, arc c 5 d s e = some pts ∧ ∀ p ∈ pts, ∃ D, c.dist p = .fin false D ∧ |(D : ℝ) - 3 / 2| ≤ 2 ^ (-44 : ℤ) := by
  obtain ⟨n1, e1⟩ := ex_num 1 false 1 (by decide +kernel)
  obtain ⟨n2, e2⟩ := ex_num 2 false 2 (by decide +kernel)
  obtain ⟨n3, e3⟩ := ex_num 3 false 3 (by decide +kernel)
  have v1 : toR (f 1) = 1 := by rw [e1]; norm_num [val]
  have v2 : toR (f 2) = 2 := by rw [e2]; norm_num [val]
  have v3 : toR (f 3) = 3 := by rw [e3]; norm_num [val]
  have b1 : |toR (f 1)| + |toR (f 3)| ≤ 2 ^ (900 : ℤ) := by
    rw [v1, v3]; refine le_trans ?_ (zpow_le_zpow_right₀ one_le_two (show (3:ℤ) ≤ 900 by norm_num)); norm_num
  have b2 : |toR (f 1)| + |toR (f 2)| + toR (f 3) ≤ 2 ^ (500 : ℤ) := by
    rw [v1, v2, v3]; refine le_trans ?_ (zpow_le_zpow_right₀ one_le_two (show (3:ℤ) ≤ 500 by norm_num)); norm_num
  let _ := F64.trig
  refine ⟨F64.trig, ⟨f 1, f 2⟩, ⟨f 3⟩, f 1, f 3, F64.trig_good, ⟨n1, n2⟩, n3, by show 0 ≤ toR (f 3); rw [v3]; norm_num, n1, n3, b1, b2, ?_⟩
  obtain ⟨pts, h, g⟩ := c104_arc_distance F64.trig_good ⟨f 1, f 2⟩ 5 (by norm_num) (by norm_num) ⟨f 3⟩ (f 1) (f 3) ⟨n1, n2⟩ n3
    (by show 0 ≤ toR (f 3); rw [v3]; norm_num) n1 n3 b1 b2
  refine ⟨pts, h, fun p hp => ?_⟩
  obtain ⟨D, hD, k⟩ := g p hp
  refine ⟨D, hD, ?_⟩
  simp only [v1, v2, v3] at k
  refine k.trans ?_
  have t : (2:ℝ) ^ (-535 : ℤ) ≤ 2 ^ (-47 : ℤ) := zpow_le_zpow_right₀ one_le_two (by norm_num)
  refine (add_le_add le_rfl t).trans ?_
  norm_num

end R3D

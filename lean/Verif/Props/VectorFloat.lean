import Verif.Props.MatrixFloat
import Verif.Props.SumFloat
import Verif.Model.Intersect
/-!
# C100: vectors of doubles: products, cross products and normalisation
-/
namespace R3D
open Scalar LawfulScalar Spec F64

namespace F64

theorem dotn2 {a b c d : F64} (ha : Num a) (hb : Num b) (hc : Num c) (hd : Num d)
    (h : |toR a| * |toR b| + |toR c| * |toR d| ≤ 2 ^ (1000 : ℤ)) :
    Within50 (a * b + c * d) (toR a * toR b + toR c * toR d) (|toR a| * |toR b| + |toR c| * |toR d|) := by
  have n0 := mul_nonneg (abs_nonneg (toR a)) (abs_nonneg (toR b))
  have n1 := mul_nonneg (abs_nonneg (toR c)) (abs_nonneg (toR d))
  have e0 := eta_pos
  have e1 := eta_le_one
  have a0 := Appr.mul_num ha hb (by linarith)
  have a1 := Appr.mul_num hc hd (by linarith)
  have b := a0.add a1 (big_1000 (by linarith) 1 (by norm_num) (by linarith))
  exact b.within (by norm_num) (by linarith)

theorem det2 {a b c d : F64} (ha : Num a) (hb : Num b) (hc : Num c) (hd : Num d)
    (h : |toR a| * |toR b| + |toR c| * |toR d| ≤ 2 ^ (1000 : ℤ)) :
    Within50 (a * b - c * d) (toR a * toR b - toR c * toR d) (|toR a| * |toR b| + |toR c| * |toR d|) := by
  have n0 := mul_nonneg (abs_nonneg (toR a)) (abs_nonneg (toR b))
  have n1 := mul_nonneg (abs_nonneg (toR c)) (abs_nonneg (toR d))
  have e0 := eta_pos
  have e1 := eta_le_one
  have a0 := Appr.mul_num ha hb (by linarith)
  have a1 := Appr.mul_num hc hd (by linarith)
  have b := a0.sub a1 (big_1000 (by linarith) 1 (by norm_num) (by linarith))
  exact b.within (by norm_num) (by linarith)

end F64

/-- C100: scalar products and the cross product in 2D -/
theorem c100_dot (p q : Point2D F64) (v w : Point3D F64) (hp : p.Num) (hq : q.Num) (hv : v.Num) (hw : w.Num)
    (h2 : |toR p.x| * |toR q.x| + |toR p.y| * |toR q.y| ≤ 2 ^ (1000 : ℤ))
    (h2' : |toR p.x| * |toR q.y| + |toR p.y| * |toR q.x| ≤ 2 ^ (1000 : ℤ))
    (h3 : |toR v.x| * |toR w.x| + |toR v.y| * |toR w.y| + |toR v.z| * |toR w.z| ≤ 2 ^ (1000 : ℤ)) :
    Within50 (p.dot q) (toR p.x * toR q.x + toR p.y * toR q.y) (|toR p.x| * |toR q.x| + |toR p.y| * |toR q.y|) ∧
    Within50 (p.cross q) (toR p.x * toR q.y - toR p.y * toR q.x) (|toR p.x| * |toR q.y| + |toR p.y| * |toR q.x|) ∧
    Within50 (v.dot w) (toR v.x * toR w.x + toR v.y * toR w.y + toR v.z * toR w.z)
      (|toR v.x| * |toR w.x| + |toR v.y| * |toR w.y| + |toR v.z| * |toR w.z|) :=
  ⟨dotn2 hp.1 hq.1 hp.2 hq.2 h2, det2 hp.1 hq.2 hp.2 hq.1 h2', dotm3 hv.1 hv.2.1 hv.2.2 hw.1 hw.2.1 hw.2.2 h3⟩

/-- C100: the cross product in 3D, every coordinate -/
theorem c100_cross (v w : Point3D F64) (hv : v.Num) (hw : w.Num)
    (h : ∀ d : Fin 3, |toR (at3 v (d + 1))| * |toR (at3 w (d + 2))| + |toR (at3 v (d + 2))| * |toR (at3 w (d + 1))| ≤ 2 ^ (1000 : ℤ))
    (d : Fin 3) :
    Within50 (at3 (v.cross w) d) (toR (at3 v (d + 1)) * toR (at3 w (d + 2)) - toR (at3 v (d + 2)) * toR (at3 w (d + 1)))
      (|toR (at3 v (d + 1))| * |toR (at3 w (d + 2))| + |toR (at3 v (d + 2))| * |toR (at3 w (d + 1))|) := by
  revert d
  rw [forall_fin3] at h ⊢
  exact ⟨det2 hv.2.1 hw.2.2 hv.2.2 hw.2.1 h.1, det2 hv.2.2 hw.1 hv.1 hw.2.2 h.2.1, det2 hv.1 hw.2.1 hv.2.1 hw.1 h.2.2⟩

/-! normalisation -/
namespace F64

theorem quot_err {x l L : ℝ} (hx : |x| ≤ L) (hL : 0 < L) (h : |l - L| ≤ 16 * uu * L) :
    0 < l ∧ L / 2 ≤ l ∧ |x / l| ≤ 1 + 17 * uu ∧ |x / l - x / L| ≤ 16 * uu * (1 + 17 * uu) := by
  have hu := uu_pos
  have hu2 : uu ≤ 1 / 2 ^ 53 := by unfold uu; rw [u_small]; norm_num
  have hu3 : uu ≤ 1 / 1000 := hu2.trans (by norm_num)
  have h1 := (abs_le.1 h).1
  have hl2 : (1 - 16 * uu) * L ≤ l := by linarith
  have hl : 0 < l := lt_of_lt_of_le (mul_pos (by linarith) hL) hl2
  have hLl : L ≤ (1 + 17 * uu) * l := by
    have : 1 ≤ (1 + 17 * uu) * (1 - 16 * uu) := by nlinarith
    have h2 := mul_le_mul_of_nonneg_left hl2 (show (0:ℝ) ≤ 1 + 17 * uu by linarith)
    nlinarith
  refine ⟨hl, by nlinarith, ?_, ?_⟩
  · rw [abs_div, abs_of_pos hl, div_le_iff₀ hl]; exact hx.trans hLl
  · have e : x / l - x / L = x / L * ((L - l) / l) := by field_simp
    rw [e, abs_mul, abs_div, abs_div, abs_of_pos hL, abs_of_pos hl]
    have g1 : |x| / L ≤ 1 := (div_le_one hL).2 hx
    have g2 : |L - l| / l ≤ 16 * uu * (1 + 17 * uu) := by
      rw [div_le_iff₀ hl, abs_sub_comm]
      refine h.trans ?_
      have := mul_le_mul_of_nonneg_left hLl (show (0:ℝ) ≤ 16 * uu by linarith)
      linarith
    calc |x| / L * (|L - l| / l) ≤ 1 * (16 * uu * (1 + 17 * uu)) :=
          mul_le_mul g1 g2 (by positivity) zero_le_one
      _ = _ := one_mul _

theorem two49 : (2:ℝ) ^ (-49 : ℤ) = 16 * uu := by unfold uu; rw [u_small]; norm_num
theorem two48 : (2:ℝ) ^ (-48 : ℤ) = 32 * uu := by unfold uu; rw [u_small]; norm_num
theorem uu_tiny : uu ≤ 1 / 1000 := by unfold uu; rw [u_small]; norm_num
theorem eta_uu : (2:ℝ) ^ (-1075 : ℤ) ≤ uu := by unfold uu; exact zpow_le_zpow_right₀ one_le_two (by norm_num)
theorem one_le_1023 : (4:ℝ) ≤ 2 ^ (1023 : ℤ) :=
  le_trans (by norm_num) (zpow_le_zpow_right₀ one_le_two (show (2:ℤ) ≤ 1023 by norm_num))

/-- dividing by a length -/
theorem div_len {x l : F64} {L : ℝ} (hx : Num x) (hl : Num l) (h1 : |toR x| ≤ L) (h2 : 0 < L)
    (h : |toR l - L| ≤ 2 ^ (-49 : ℤ) * L) : Num (x / l) ∧ |toR (x / l) - toR x / L| ≤ 2 ^ (-48 : ℤ) := by
  rw [two49] at h
  obtain ⟨l0, -, q1, q2⟩ := quot_err h1 h2 h
  have hu := uu_pos
  have ht := uu_tiny
  have hb := one_le_1023
  obtain ⟨n, e⟩ := toR_div hx hl l0.ne' (q1.trans (le_trans (by linarith only [ht]) hb))
  refine ⟨n, ?_⟩
  rw [two48]
  have e' : |toR (x / l) - toR x / toR l| ≤ uu * (1 + 17 * uu) + uu := by
    refine e.trans (add_le_add ?_ eta_uu)
    exact mul_le_mul_of_nonneg_left q1 hu.le
  have := abs_sub_le (toR (x / l)) (toR x / toR l) (toR x / L)
  nlinarith

/-- multiplying by the inverse of a length -/
theorem inv_len {x l : F64} {L : ℝ} (hx : Num x) (hl : Num l) (h1 : |toR x| ≤ L) (h2 : 2 ^ (-480 : ℤ) ≤ L) (h3 : L ≤ 2 ^ (502 : ℤ))
    (h : |toR l - L| ≤ 2 ^ (-49 : ℤ) * L) :
    Num ((Scalar.lit 1 : F64) / l * x) ∧ |toR ((Scalar.lit 1 : F64) / l * x) - toR x / L| ≤ 2 ^ (-48 : ℤ) := by
  rw [two49] at h
  have hL : 0 < L := lt_of_lt_of_le (zpow_pos two_pos _) h2
  obtain ⟨l0, l1, q1, q2⟩ := quot_err h1 hL h
  have hu := uu_pos
  have ht := uu_tiny
  have hb := one_le_1023
  obtain ⟨on, oe⟩ : Num (Scalar.lit 1 : F64) ∧ toR (Scalar.lit 1 : F64) = 1 := by
    have := lit_nat (k := 1) (by norm_num)
    simpa using this
  have r1 : |1 / toR l| ≤ 2 ^ (481 : ℤ) := by
    rw [abs_of_pos (by positivity), div_le_iff₀ l0]
    have e : (2:ℝ) ^ (481 : ℤ) * 2 ^ (-480 : ℤ) = 2 := by rw [← zpow_add₀ two_ne_zero]; norm_num
    have g : (2:ℝ) ^ (-480 : ℤ) / 2 ≤ toR l := by linarith
    have := mul_le_mul_of_nonneg_left g (show (0:ℝ) ≤ 2 ^ (481 : ℤ) by positivity)
    rw [mul_div_assoc'] at this
    rw [e] at this
    linarith only [this]
  obtain ⟨n, e⟩ := toR_div on hl l0.ne' (by rw [oe]; exact r1.trans (zpow_le_zpow_right₀ one_le_two (by norm_num)))
  rw [oe] at e
  generalize (Scalar.lit 1 : F64) / l = f at *
  have hη : (2:ℝ) ^ (-1075 : ℤ) * L ≤ uu := by
    refine (mul_le_mul_of_nonneg_left h3 (by positivity)).trans ?_
    rw [← zpow_add₀ two_ne_zero]; unfold uu
    exact zpow_le_zpow_right₀ one_le_two (by norm_num)
  have e1 : |toR f * toR x - toR x / toR l| ≤ uu * (1 + 17 * uu) + uu := by
    have : toR f * toR x - toR x / toR l = (toR f - 1 / toR l) * toR x := by ring
    rw [this, abs_mul]
    have g1 := mul_le_mul_of_nonneg_right e (abs_nonneg (toR x))
    have g2 : (2 ^ (-53 : ℤ) * |1 / toR l| + 2 ^ (-1075 : ℤ)) * |toR x| = uu * |toR x / toR l| + 2 ^ (-1075 : ℤ) * |toR x| := by
      rw [abs_div, abs_div, abs_one]; unfold uu; ring
    rw [g2] at g1
    refine g1.trans (add_le_add (mul_le_mul_of_nonneg_left q1 hu.le) ?_)
    exact (mul_le_mul_of_nonneg_left h1 (by positivity)).trans hη
  have e2 : |toR f * toR x| ≤ 2 := by
    have := abs_add_le (toR f * toR x - toR x / toR l) (toR x / toR l)
    rw [sub_add_cancel] at this
    nlinarith
  obtain ⟨n', e'⟩ := toR_mul n hx (e2.trans (le_trans (by norm_num) hb))
  refine ⟨n', ?_⟩
  rw [two48]
  have e3 : |toR (f * x) - toR f * toR x| ≤ uu * 2 + uu :=
    e'.trans (add_le_add (mul_le_mul_of_nonneg_left e2 hu.le) eta_uu)
  have g1 := abs_sub_le (toR (f * x)) (toR f * toR x) (toR x / L)
  have g2 := abs_sub_le (toR f * toR x) (toR x / toR l) (toR x / L)
  nlinarith

/-- the length of a vector as computed -/
theorem len_num {D : ℚ} {L : ℝ} (h : Accurate D L) (hr : Rep (.fin false D)) (h2 : 2 ^ (-480 : ℤ) ≤ L) :
    Num (.fin false D) ∧ |toR (.fin false D) - L| ≤ 2 ^ (-49 : ℤ) * L := by
  refine ⟨Num.mk' hr, ?_⟩
  rw [real_fin]
  refine h.trans ?_
  have e1 : (2:ℝ) ^ (-536 : ℤ) ≤ 2 ^ (-50 : ℤ) * 2 ^ (-480 : ℤ) := by
    rw [← zpow_add₀ two_ne_zero]; exact zpow_le_zpow_right₀ one_le_two (by norm_num)
  have e2 : (2:ℝ) ^ (-50 : ℤ) * 2 ^ (-480 : ℤ) ≤ 2 ^ (-50 : ℤ) * L := mul_le_mul_of_nonneg_left h2 (by positivity)
  have e3 : (2:ℝ) ^ (-49 : ℤ) = 2 * 2 ^ (-50 : ℤ) := by norm_num
  rw [e3]
  linarith only [e1, e2]

theorem len_pos {D : ℚ} {L : ℝ} (hr : Rep (.fin false D)) (h2 : 2 ^ (-480 : ℤ) ≤ L)
    (h : |toR (.fin false D) - L| ≤ 2 ^ (-49 : ℤ) * L) : Scalar.eq (.fin false D : F64) Scalar.zero = false := by
  have h0 : (0:ℝ) < L := lt_of_lt_of_le (zpow_pos two_pos _) h2
  by_contra hc
  rw [Bool.not_eq_false, num_eq (Num.mk' hr) num_zero, toR_zero] at hc
  rw [hc, zero_sub, abs_neg, abs_of_pos h0] at h
  have : (2:ℝ) ^ (-49 : ℤ) ≤ 1 / 2 := by norm_num
  generalize (2:ℝ) ^ (-49 : ℤ) = δ at *
  nlinarith only [this, h, h0]
end F64

/-- the length of a vector -/
noncomputable def Spec.len2 (p : Point2D F64) : ℝ := √(Spec.sqrDist (at2 p.real) 0)

theorem coord_le_2d (p : Point2D F64) (d : Fin 2) : |toR (at2 p d)| ≤ len2 p := by
  refine Real.abs_le_sqrt ?_
  have : ∀ i ∈ Finset.univ, 0 ≤ (at2 p.real i - (0 : Fin 2 → ℝ) i) ^ 2 := fun i _ => sq_nonneg _
  have h := Finset.single_le_sum this (Finset.mem_univ d)
  refine le_trans (le_of_eq ?_) h
  rw [Pi.zero_apply, sub_zero]
  revert d
  rw [Fin.forall_fin_two]
  simp [at2, Point2D.real]

theorem abs_len_2d (p : Point2D F64) (hp : p.Num) (h1 : 2 ^ (-480 : ℤ) ≤ len2 p) (h2 : len2 p ≤ 2 ^ (500 : ℤ)) :
    ∃ D, p.abs = some ⟨.fin false D⟩ ∧ F64.Num (.fin false D) ∧ |toR (.fin false D) - len2 p| ≤ 2 ^ (-49 : ℤ) * len2 p ∧
      Scalar.eq (.fin false D : F64) Scalar.zero = false := by
  have hb : ∀ d, |toR (at2 p d)| ≤ 2 ^ (511 : ℤ) := fun d =>
    (coord_le_2d p d).trans (h2.trans (zpow_le_zpow_right₀ one_le_two (by norm_num)))
  rw [Fin.forall_fin_two] at hb
  obtain ⟨m, hm, m0, m1⟩ := sumsq2_fin (near_num hp.1) (near_num hp.2) hb.1 hb.2
  have hm1 : m < 2 ^ (1024 : ℤ) := by
    refine m1.trans_lt ?_
    exact zpow_lt_zpow_right₀ one_lt_two (by norm_num)
  obtain ⟨D, hD⟩ := sqrt_fin m0 hm1
  obtain ⟨d, e, ha⟩ := c92_abs_2d p hp
  have hd : d = .fin false D := by
    have : p.abs = some ⟨Scalar.sqrt (p.x * p.x + p.y * p.y)⟩ := by
      unfold Point2D.abs NonNegative.new at e ⊢
      split_ifs at e ⊢
      rfl
    rw [this] at e
    rw [← hD, ← hm]
    exact (congrArg NonNegative.val (Option.some.inj e)).symm
  have hr : Rep (.fin false D) := by rw [← hD]; exact F64.sqrt_rep _
  have := len_num (ha false D hd) hr h1
  exact ⟨D, by rw [e, hd], this.1, this.2, len_pos hr h1 this.2⟩

/-- C100: normalising a finite vector of length between `2^-480` and `2^500` succeeds, and every coordinate is the
exact one up to `2^-48` -/
theorem c100_normalized_2d (p : Point2D F64) (hp : p.Num) (h1 : 2 ^ (-480 : ℤ) ≤ len2 p) (h2 : len2 p ≤ 2 ^ (500 : ℤ)) :
    ∃ n, p.normalized = some (.ok n) ∧ ∀ d, F64.Num (at2 n d) ∧ |toR (at2 n d) - toR (at2 p d) / len2 p| ≤ 2 ^ (-48 : ℤ) := by
  obtain ⟨D, e, hn, hd, h0⟩ := abs_len_2d p hp h1 h2
  have hL : 0 < len2 p := lt_of_lt_of_le (zpow_pos two_pos _) h1
  refine ⟨⟨p.x / .fin false D, p.y / .fin false D⟩, ?_, ?_⟩
  · unfold Point2D.normalized
    simp only [e, Option.bind_eq_bind, Option.bind_some, h0, Bool.false_eq_true, if_false]
    rfl
  · rw [Fin.forall_fin_two]
    exact ⟨div_len hp.1 hn (coord_le_2d p 0) hL hd, div_len hp.2 hn (coord_le_2d p 1) hL hd⟩

/-- the length of a vector -/
noncomputable def Spec.len3 (p : Point3D F64) : ℝ := √(Spec.sqrDist (at3 p.real) 0)

theorem coord_le_3d (p : Point3D F64) (d : Fin 3) : |toR (at3 p d)| ≤ len3 p := by
  refine Real.abs_le_sqrt ?_
  have : ∀ i ∈ Finset.univ, 0 ≤ (at3 p.real i - (0 : Fin 3 → ℝ) i) ^ 2 := fun i _ => sq_nonneg _
  have h := Finset.single_le_sum this (Finset.mem_univ d)
  refine le_trans (le_of_eq ?_) h
  rw [Pi.zero_apply, sub_zero]
  revert d
  rw [forall_fin3]
  simp [at3, Point3D.real]

theorem abs_len_3d (p : Point3D F64) (hp : p.Num) (h1 : 2 ^ (-480 : ℤ) ≤ len3 p) (h2 : len3 p ≤ 2 ^ (500 : ℤ)) :
    ∃ D, p.abs = some ⟨.fin false D⟩ ∧ F64.Num (.fin false D) ∧ |toR (.fin false D) - len3 p| ≤ 2 ^ (-49 : ℤ) * len3 p ∧
      Scalar.eq (.fin false D : F64) Scalar.zero = false := by
  have hb : ∀ d, |toR (at3 p d)| ≤ 2 ^ (511 : ℤ) := fun d =>
    (coord_le_3d p d).trans (h2.trans (zpow_le_zpow_right₀ one_le_two (by norm_num)))
  rw [forall_fin3] at hb
  obtain ⟨m, hm, m0, m1⟩ := sumsq3_fin (near_num hp.1) (near_num hp.2.1) (near_num hp.2.2) hb.1 hb.2.1 hb.2.2
  have hm1 : m < 2 ^ (1024 : ℤ) := by
    refine m1.trans_lt ?_
    have e2 : (2:ℚ) ^ (1024 : ℤ) = 4 * 2 ^ (1022 : ℤ) := by
      rw [show (1024:ℤ) = 1022 + 2 by norm_num, zpow_add₀ two_ne_zero, mul_comm]; norm_num
    rw [e2]
    exact mul_lt_mul_of_pos_right (by norm_num) (two_zpow_pos _)
  obtain ⟨D, hD⟩ := sqrt_fin m0 hm1
  obtain ⟨d, e, ha⟩ := c92_abs_3d p hp
  have hd : d = .fin false D := by
    have : p.abs = some ⟨Scalar.sqrt (p.x * p.x + p.y * p.y + p.z * p.z)⟩ := by
      unfold Point3D.abs NonNegative.new at e ⊢
      split_ifs at e ⊢
      rfl
    rw [this] at e
    rw [← hD, ← hm]
    exact (congrArg NonNegative.val (Option.some.inj e)).symm
  have hr : Rep (.fin false D) := by rw [← hD]; exact F64.sqrt_rep _
  have := len_num (ha false D hd) hr h1
  exact ⟨D, by rw [e, hd], this.1, this.2, len_pos hr h1 this.2⟩

theorem c100_normalized_3d (p : Point3D F64) (hp : p.Num) (h1 : 2 ^ (-480 : ℤ) ≤ len3 p) (h2 : len3 p ≤ 2 ^ (500 : ℤ)) :
    ∃ n, p.normalized = some (.ok n) ∧ ∀ d, F64.Num (at3 n d) ∧ |toR (at3 n d) - toR (at3 p d) / len3 p| ≤ 2 ^ (-48 : ℤ) := by
  obtain ⟨D, e, hn, hd, h0⟩ := abs_len_3d p hp h1 h2
  have hL : 0 < len3 p := lt_of_lt_of_le (zpow_pos two_pos _) h1
  refine ⟨⟨p.x / .fin false D, p.y / .fin false D, p.z / .fin false D⟩, ?_, ?_⟩
  · unfold Point3D.normalized
    simp only [e, Option.bind_eq_bind, Option.bind_some, h0, Bool.false_eq_true, if_false]
    rfl
  · rw [forall_fin3]
    exact ⟨div_len hp.1 hn (coord_le_3d p 0) hL hd, div_len hp.2.1 hn (coord_le_3d p 1) hL hd, div_len hp.2.2 hn (coord_le_3d p 2) hL hd⟩

/-- C100: the same for `Norm3D::new` and `Norm2D::new` -/
theorem c100_norm_3d (p : Point3D F64) (hp : p.Num) (h1 : 2 ^ (-480 : ℤ) ≤ len3 p) (h2 : len3 p ≤ 2 ^ (500 : ℤ)) :
    ∃ n, Norm3D.new p = some (.ok n) ∧ ∀ d, F64.Num (at3 n d) ∧ |toR (at3 n d) - toR (at3 p d) / len3 p| ≤ 2 ^ (-48 : ℤ) := by
  obtain ⟨D, e, hn, hd, h0⟩ := abs_len_3d p hp h1 h2
  have h3 : len3 p ≤ 2 ^ (502 : ℤ) := h2.trans (zpow_le_zpow_right₀ one_le_two (by norm_num))
  refine ⟨⟨lit 1 / .fin false D * p.x, lit 1 / .fin false D * p.y, lit 1 / .fin false D * p.z⟩, ?_, ?_⟩
  · unfold Norm3D.new
    simp only [e, Option.bind_eq_bind, Option.bind_some, h0, Bool.false_eq_true, if_false]
    rfl
  · rw [forall_fin3]
    exact ⟨inv_len hp.1 hn (coord_le_3d p 0) h1 h3 hd, inv_len hp.2.1 hn (coord_le_3d p 1) h1 h3 hd, inv_len hp.2.2 hn (coord_le_3d p 2) h1 h3 hd⟩

theorem c100_norm_2d (p : Point2D F64) (hp : p.Num) (h1 : 2 ^ (-480 : ℤ) ≤ len2 p) (h2 : len2 p ≤ 2 ^ (500 : ℤ)) :
    ∃ n, Norm2D.new p = some (.ok n) ∧ ∀ d, F64.Num (at2 n d) ∧ |toR (at2 n d) - toR (at2 p d) / len2 p| ≤ 2 ^ (-48 : ℤ) := by
  obtain ⟨D, e, hn, hd, h0⟩ := abs_len_2d p hp h1 h2
  have h3 : len2 p ≤ 2 ^ (502 : ℤ) := h2.trans (zpow_le_zpow_right₀ one_le_two (by norm_num))
  refine ⟨⟨lit 1 / .fin false D * p.x, lit 1 / .fin false D * p.y⟩, ?_, ?_⟩
  · unfold Norm2D.new
    simp only [e, Option.bind_eq_bind, Option.bind_some, h0, Bool.false_eq_true, if_false]
    rfl
  · rw [Fin.forall_fin_two]
    exact ⟨inv_len hp.1 hn (coord_le_2d p 0) h1 h3 hd, inv_len hp.2 hn (coord_le_2d p 1) h1 h3 hd⟩

/-- C100: what is off a unit vector by `2^-48` in every coordinate has length one up to `2^-45` -/
theorem c100_unit (p n : Point3D F64) (h0 : 0 < len3 p) (h : ∀ d, |toR (at3 n d) - toR (at3 p d) / len3 p| ≤ 2 ^ (-48 : ℤ)) :
    |len3 n - 1| ≤ 2 ^ (-45 : ℤ) := by
  have hs : ∀ q : Point3D F64, Spec.sqrDist (at3 q.real) 0 = toR q.x ^ 2 + toR q.y ^ 2 + toR q.z ^ 2 := fun q => by
    simp [Spec.sqrDist, Fin.sum_univ_three, Point3D.real]
  have hp : len3 p ^ 2 = toR p.x ^ 2 + toR p.y ^ 2 + toR p.z ^ 2 := by
    rw [← hs]; exact Real.sq_sqrt (by rw [hs]; positivity)
  have hn : len3 n ^ 2 = toR n.x ^ 2 + toR n.y ^ 2 + toR n.z ^ 2 := by
    rw [← hs]; exact Real.sq_sqrt (by rw [hs]; positivity)
  have hn0 : 0 ≤ len3 n := Real.sqrt_nonneg _
  have e45 : (2:ℝ) ^ (-45 : ℤ) = 8 * 2 ^ (-48 : ℤ) := by norm_num
  have hε : (0:ℝ) < 2 ^ (-48 : ℤ) := by positivity
  have hε1 : (2:ℝ) ^ (-48 : ℤ) ≤ 1 / 3 := by norm_num
  have c := fun d => coord_le_3d p d
  have one : toR p.x / len3 p * (toR p.x / len3 p) + toR p.y / len3 p * (toR p.y / len3 p) + toR p.z / len3 p * (toR p.z / len3 p) = 1 := by
    field_simp
    linarith only [hp]
  have q : ∀ d, |toR (at3 p d) / len3 p| ≤ 1 := fun d => by
    rw [abs_div, abs_of_pos h0]; exact (div_le_one h0).2 (c d)
  rw [forall_fin3] at h q
  simp only [at3_zero, at3_one, at3_two] at h q
  rw [e45]
  generalize (2:ℝ) ^ (-48 : ℤ) = ε at *
  generalize toR p.x / len3 p = a at *
  generalize toR p.y / len3 p = b at *
  generalize toR p.z / len3 p = g at *
  generalize toR n.x = x at *
  generalize toR n.y = y at *
  generalize toR n.z = z at *
  generalize len3 n = l at *
  have key : ∀ t s : ℝ, |t - s| ≤ ε → |s| ≤ 1 → |t ^ 2 - s * s| ≤ 2 * ε + ε ^ 2 := by
    intro t s h1 h2
    have e : t ^ 2 - s * s = (t - s) * (t - s) + 2 * ((t - s) * s) := by ring
    rw [e]
    have g1 : |(t - s) * (t - s)| ≤ ε * ε := by rw [abs_mul]; exact mul_le_mul h1 h1 (abs_nonneg _) hε.le
    have g2 : |(t - s) * s| ≤ ε * 1 := by rw [abs_mul]; exact mul_le_mul h1 h2 (abs_nonneg _) hε.le
    have g3 := abs_add_le ((t - s) * (t - s)) (2 * ((t - s) * s))
    rw [abs_mul 2, abs_two] at g3
    nlinarith only [g1, g2, g3]
  have kx := abs_le.1 (key x a h.1 q.1)
  have ky := abs_le.1 (key y b h.2.1 q.2.1)
  have kz := abs_le.1 (key z g h.2.2 q.2.2)
  have hl : |l ^ 2 - 1| ≤ 7 * ε := by
    have h2 : ε ^ 2 ≤ 1 / 3 * ε := by rw [pow_two]; exact mul_le_mul_of_nonneg_right hε1 hε.le
    rw [abs_le]
    constructor <;> linarith only [kx, ky, kz, hn, one, h2]
  have hl2 : |l - 1| ≤ |l ^ 2 - 1| := by
    rw [show l ^ 2 - 1 = (l - 1) * (l + 1) by ring, abs_mul, abs_of_pos (show (0:ℝ) < l + 1 by linarith only [hn0])]
    exact le_mul_of_one_le_right (abs_nonneg _) (by linarith only [hn0])
  linarith only [hl, hl2, hε]

/-- C100: the constructors of the axes do not panic and give the axes -/
theorem c100_axes :
    ((Norm3D.ofAxis (⟨f 1, f 0, f 0⟩ : Point3D F64)) = some ⟨f 1, f 0, f 0⟩ ∧ Norm3D.ofAxis (⟨f 0, f 1, f 0⟩ : Point3D F64) = some ⟨f 0, f 1, f 0⟩ ∧
      Norm3D.ofAxis (⟨f 0, f 0, f 1⟩ : Point3D F64) = some ⟨f 0, f 0, f 1⟩) ∧
    (Norm3D.ofAxis (⟨f (-1), f 0, f 0⟩ : Point3D F64) = some ⟨f (-1), f 0, f 0⟩ ∧ Norm3D.ofAxis (⟨f 0, f (-1), f 0⟩ : Point3D F64) = some ⟨f 0, f (-1), f 0⟩ ∧
      Norm3D.ofAxis (⟨f 0, f 0, f (-1)⟩ : Point3D F64) = some ⟨f 0, f 0, f (-1)⟩) ∧
    Norm2D.ofAxis (⟨f 1, f 0⟩ : Point2D F64) = some ⟨f 1, f 0⟩ ∧ Norm2D.ofAxis (⟨f 0, f 1⟩ : Point2D F64) = some ⟨f 0, f 1⟩ ∧
    Norm2D.ofAxis (⟨f (-1), f 0⟩ : Point2D F64) = some ⟨f (-1), f 0⟩ ∧ Norm2D.ofAxis (⟨f 0, f (-1)⟩ : Point2D F64) = some ⟨f 0, f (-1)⟩ := by
  refine ⟨⟨?_, ?_, ?_⟩, ⟨?_, ?_, ?_⟩, ?_, ?_, ?_, ?_⟩ <;> decide +kernel

/-- C100 violated: a vector of length `2^600` is normalised to the zero vector, one of length `2^-600` is said to
have no length -/
theorem c100_violated : Norm3D.new (⟨F64.ofRat (2 ^ 600), F64.ofRat 0, F64.ofRat 0⟩ : Point3D F64) =
      some (.ok ⟨F64.ofRat 0, F64.ofRat 0, F64.ofRat 0⟩) ∧
    (⟨F64.ofRat (2 ^ 600), F64.ofRat 0, F64.ofRat 0⟩ : Point3D F64).normalized =
      some (.ok ⟨F64.ofRat 0, F64.ofRat 0, F64.ofRat 0⟩) ∧
    Norm3D.new (⟨F64.ofRat (1 / 2 ^ 600), F64.ofRat 0, F64.ofRat 0⟩ : Point3D F64) = some (.error .NormalizeVecWithoutLength) := by
  refine ⟨?_, ?_, ?_⟩ <;> decide +kernel

/-- the hypotheses are met by the vector (3, 0, 4) of length 5 -/
example : (⟨f 3, f 0, f 4⟩ : Point3D F64).Num ∧ 2 ^ (-480 : ℤ) ≤ len3 ⟨f 3, f 0, f 4⟩ ∧ len3 ⟨f 3, f 0, f 4⟩ ≤ 2 ^ (500 : ℤ) := by
  have a1 := ex_num 3 false 3 (by decide +kernel)
  have a2 := ex_num 0 false 0 (by decide +kernel)
  have a3 := ex_num 4 false 4 (by decide +kernel)
  have e : len3 ⟨f 3, f 0, f 4⟩ = 5 := by
    have : Spec.sqrDist (at3 (⟨f 3, f 0, f 4⟩ : Point3D F64).real) 0 = 5 ^ 2 := by
      simp only [Spec.sqrDist, Fin.sum_univ_three, Point3D.real, at3_zero, at3_one, at3_two, Pi.zero_apply, sub_zero]
      rw [a1.2, a2.2, a3.2]; norm_num [F64.val]
    unfold len3
    rw [this, Real.sqrt_sq (by norm_num)]
  rw [e]
  exact ⟨⟨a1.1, a2.1, a3.1⟩, (zpow_le_one_of_nonpos₀ one_le_two (by norm_num)).trans (by norm_num),
    le_trans (by norm_num) (zpow_le_zpow_right₀ one_le_two (show (3:ℤ) ≤ 500 by norm_num))⟩

/-- the hypotheses of `c100_dot` and `c100_cross`, and of the theorems in two dimensions, are met -/
example : let p : Point2D F64 := ⟨f 3, f 4⟩; let v : Point3D F64 := ⟨f 3, f 0, f 4⟩
    p.Num ∧ v.Num ∧ |toR p.x| * |toR p.x| + |toR p.y| * |toR p.y| ≤ 2 ^ (1000 : ℤ) ∧
    |toR p.x| * |toR p.y| + |toR p.y| * |toR p.x| ≤ 2 ^ (1000 : ℤ) ∧
    |toR v.x| * |toR v.x| + |toR v.y| * |toR v.y| + |toR v.z| * |toR v.z| ≤ 2 ^ (1000 : ℤ) ∧
    (∀ d : Fin 3, |toR (at3 v (d + 1))| * |toR (at3 v (d + 2))| + |toR (at3 v (d + 2))| * |toR (at3 v (d + 1))| ≤ 2 ^ (1000 : ℤ)) ∧
    2 ^ (-480 : ℤ) ≤ len2 p ∧ len2 p ≤ 2 ^ (500 : ℤ) := by
  have a1 := ex_num 3 false 3 (by decide +kernel)
  have a2 := ex_num 0 false 0 (by decide +kernel)
  have a3 := ex_num 4 false 4 (by decide +kernel)
  have b1 : toR (f 3) = 3 := by rw [a1.2]; norm_num [val]
  have b2 : toR (f 0) = 0 := by rw [a2.2]; norm_num [val]
  have b3 : toR (f 4) = 4 := by rw [a3.2]; norm_num [val]
  have big : (32:ℝ) ≤ 2 ^ (1000 : ℤ) :=
    le_trans (by norm_num) (zpow_le_zpow_right₀ one_le_two (show (5:ℤ) ≤ 1000 by norm_num))
  have e : len2 ⟨f 3, f 4⟩ = 5 := by
    have : Spec.sqrDist (at2 (⟨f 3, f 4⟩ : Point2D F64).real) 0 = 5 ^ 2 := by
      simp only [Spec.sqrDist, Fin.sum_univ_two, Point2D.real, at2_zero, at2_one, Pi.zero_apply, sub_zero, b1, b3]
      norm_num
    unfold len2
    rw [this, Real.sqrt_sq (by norm_num)]
  refine ⟨⟨a1.1, a3.1⟩, ⟨a1.1, a2.1, a3.1⟩, le_trans ?_ big, le_trans ?_ big, le_trans ?_ big, fun d => le_trans ?_ big, ?_, ?_⟩
  · simp only [b1, b3]; norm_num
  · simp only [b1, b3]; norm_num
  · simp only [b1, b2, b3]; norm_num
  · fin_cases d <;> (simp [b1, b2, b3, at3]; try norm_num)
  · rw [e]; exact (zpow_le_one_of_nonpos₀ one_le_two (by norm_num)).trans (by norm_num)
  · rw [e]; exact le_trans (by norm_num) (zpow_le_zpow_right₀ one_le_two (show (3:ℤ) ≤ 500 by norm_num))

end R3D

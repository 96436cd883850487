import Verif.Props.VectorFloat
import Verif.Props.Sat
/-!
C49 with doubles: the separating axis test with every rounding.
-/
namespace R3D
open Scalar LawfulScalar Spec F64

namespace F64

/-- squares: finite, not negative, and close -/
theorem sq_num {a : F64} (ha : Num a) (h : |toR a| ≤ 2 ^ (500 : ℤ)) :
    Num (a * a) ∧ 0 ≤ toR (a * a) ∧ |toR (a * a) - toR a ^ 2| ≤ uu * toR a ^ 2 + 2 ^ (-1074 : ℤ) / 2 ∧ toR (a * a) ≤ 2 ^ (1001 : ℤ) := by
  have h1 : |toR a * toR a| ≤ 2 ^ (1000 : ℤ) := by
    rw [abs_mul]
    refine (mul_le_mul h h (abs_nonneg _) (by positivity)).trans (le_of_eq ?_)
    rw [← zpow_add₀ two_ne_zero]; norm_num
  obtain ⟨n, e⟩ := toR_mul ha ha (h1.trans (zpow_le_zpow_right₀ one_le_two (by norm_num)))
  have e0 := eta_half
  have e1 := eta_pos
  have e2 := eta_le_one
  have hb := one_le_zpow₀ (show (1:ℝ) ≤ 2 by norm_num) (show (0:ℤ) ≤ 1000 by norm_num)
  have b1 : (2:ℝ) ^ (1001 : ℤ) = 2 * 2 ^ (1000 : ℤ) := by
    rw [show (1001 : ℤ) = 1 + 1000 by norm_num, zpow_add₀ two_ne_zero, zpow_one]
  rw [abs_of_nonneg (mul_self_nonneg (toR a)), ← pow_two] at e h1
  rw [show (2:ℝ) ^ (-53 : ℤ) = uu from rfl, e0] at e
  have hu := uu_pos
  have hu4 := uu_le
  have hs : 0 ≤ toR a ^ 2 := sq_nonneg _
  have hus : uu * toR a ^ 2 ≤ 1 / 4 * toR a ^ 2 := mul_le_mul_of_nonneg_right hu4 hs
  have e' := abs_le.1 e
  refine ⟨n, ?_, e, ?_⟩
  · refine MultR.le_of_lt ⟨0, by simp⟩ n.multR ?_
    linarith
  · rw [b1]
    clear b1 h
    generalize (2:ℝ) ^ (1000 : ℤ) = b at *
    generalize (2:ℝ) ^ (-1074 : ℤ) = w at *
    linarith

theorem add_nonneg_num {a b : F64} (ha : Num a) (hb : Num b) (h0 : 0 ≤ toR a) (h1 : 0 ≤ toR b) (h : toR a + toR b ≤ 2 ^ (1003 : ℤ)) :
    Num (a + b) ∧ toR a ≤ toR (a + b) ∧ toR b ≤ toR (a + b) ∧ toR (a + b) ≤ (1 + uu) * (toR a + toR b) := by
  have hs : 0 ≤ toR a + toR b := add_nonneg h0 h1
  obtain ⟨n, e⟩ := toR_add ha hb (by rw [abs_of_nonneg hs]; exact h.trans (zpow_le_zpow_right₀ one_le_two (by norm_num)))
  have k1 := le_key_add ha hb ha (by linarith)
  have k2 := le_key_add ha hb hb (by linarith)
  rw [n.key, ha.key, EReal.coe_le_coe_iff] at k1
  rw [n.key, hb.key, EReal.coe_le_coe_iff] at k2
  refine ⟨n, k1, k2, ?_⟩
  rw [abs_of_nonneg hs, show (2:ℝ) ^ (-53 : ℤ) = uu from rfl] at e
  linarith [(abs_le.1 e).2]

/-- the computed square of the length against the largest coordinate -/
theorem sumsq_num {x y z : F64} (hx : Num x) (hy : Num y) (hz : Num z) {m : ℝ} (hm : m ≤ 2 ^ (500 : ℤ)) (h1 : |toR x| ≤ m) (h2 : |toR y| ≤ m)
    (h3 : |toR z| ≤ m) (hat : |toR x| = m ∨ |toR y| = m ∨ |toR z| = m) :
    Num (x * x + y * y + z * z) ∧ 0 ≤ toR (x * x + y * y + z * z) ∧
      (toR (x * x + y * y + z * z) ≠ 0 → 3 / 5 * m ^ 2 ≤ toR (x * x + y * y + z * z) ∧ toR (x * x + y * y + z * z) ≤ 7 * m ^ 2 ∧ 0 < m) := by
  obtain ⟨nx, x0, ex, bx⟩ := sq_num hx (h1.trans hm)
  obtain ⟨ny, y0, ey, b_y⟩ := sq_num hy (h2.trans hm)
  obtain ⟨nz, z0, ez, bz⟩ := sq_num hz (h3.trans hm)
  have b1 : (2:ℝ) ^ (1003 : ℤ) = 4 * 2 ^ (1001 : ℤ) := by
    rw [show (1003 : ℤ) = 2 + 1001 by norm_num, zpow_add₀ two_ne_zero]; norm_num
  have bp : (0:ℝ) < 2 ^ (1001 : ℤ) := zpow_pos two_pos _
  obtain ⟨B, hB⟩ : ∃ B : ℝ, B = 2 ^ (1001 : ℤ) := ⟨_, rfl⟩
  rw [← hB] at b1 bp bx b_y bz
  clear hB
  have hu := uu_pos
  have hu4 := uu_tiny
  obtain ⟨n1, s1, s2, s3⟩ := add_nonneg_num nx ny x0 y0 (by rw [b1]; linarith only [bx, b_y, bp])
  have s3' : toR (x * x + y * y) ≤ 3 * B := by
    have : (1 + uu) * (toR (x * x) + toR (y * y)) ≤ (1 + 1 / 1000) * (2 * B) :=
      mul_le_mul (by linarith only [hu4]) (by linarith only [bx, b_y]) (by linarith only [x0, y0]) (by norm_num)
    linarith only [this, s3, bp]
  obtain ⟨n2, t1, t2, t3⟩ := add_nonneg_num n1 nz (x0.trans s1) z0 (by rw [b1]; linarith only [bz, s3', bp])
  refine ⟨n2, (z0.trans t2), fun hne => ?_⟩
  have hpos : 0 < toR (x * x + y * y + z * z) := lt_of_le_of_ne (z0.trans t2) (Ne.symm hne)
  have hη : 2 ^ (-1074 : ℤ) ≤ toR (x * x + y * y + z * z) := n2.multR.le_of_pos hpos
  have e0 := eta_pos
  have m0 : 0 ≤ m := (abs_nonneg _).trans h1
  have q1 : toR x ^ 2 ≤ m ^ 2 := sq_le_sq' (by linarith [(abs_le.1 h1).1]) (abs_le.1 h1).2
  have q2 : toR y ^ 2 ≤ m ^ 2 := sq_le_sq' (by linarith [(abs_le.1 h2).1]) (abs_le.1 h2).2
  have q3 : toR z ^ 2 ≤ m ^ 2 := sq_le_sq' (by linarith [(abs_le.1 h3).1]) (abs_le.1 h3).2
  have mx := nx.multR
  have my := ny.multR
  have mz := nz.multR
  have low : (1 - uu) * m ^ 2 - 2 ^ (-1074 : ℤ) / 2 ≤ toR (x * x + y * y + z * z) := by
    rcases hat with h | h | h
    · have : toR x ^ 2 = m ^ 2 := by rw [← h, sq_abs]
      rw [this] at ex
      linarith [(abs_le.1 ex).1]
    · have : toR y ^ 2 = m ^ 2 := by rw [← h, sq_abs]
      rw [this] at ey
      linarith [(abs_le.1 ey).1]
    · have : toR z ^ 2 = m ^ 2 := by rw [← h, sq_abs]
      rw [this] at ez
      linarith [(abs_le.1 ez).1]
  have hm2 : 0 ≤ m ^ 2 := sq_nonneg _
  have some_pos : 2 ^ (-1074 : ℤ) / 2 ≤ (1 + uu) * m ^ 2 := by
    have hor : 2 ^ (-1074 : ℤ) ≤ toR (x * x) ∨ 2 ^ (-1074 : ℤ) ≤ toR (y * y) ∨ 2 ^ (-1074 : ℤ) ≤ toR (z * z) := by
      by_contra hc
      push Not at hc
      obtain ⟨c1, c2, c3⟩ := hc
      have g : ∀ {r : ℝ}, MultR r → 0 ≤ r → r < 2 ^ (-1074 : ℤ) → r = 0 := fun hr h0 hl =>
        le_antisymm (hr.le_of_lt ⟨0, by simp⟩ (by linarith)) h0
      rw [g mx x0 c1, g my y0 c2] at s3
      rw [g mz z0 c3] at t3
      nlinarith
    have hu2 : uu * toR x ^ 2 ≤ uu * m ^ 2 := mul_le_mul_of_nonneg_left q1 hu.le
    have hu3 : uu * toR y ^ 2 ≤ uu * m ^ 2 := mul_le_mul_of_nonneg_left q2 hu.le
    have hu5 : uu * toR z ^ 2 ≤ uu * m ^ 2 := mul_le_mul_of_nonneg_left q3 hu.le
    rcases hor with h | h | h
    · linarith [(abs_le.1 ex).2]
    · linarith [(abs_le.1 ey).2]
    · linarith [(abs_le.1 ez).2]
  have um : uu * m ^ 2 ≤ 1 / 1000 * m ^ 2 := mul_le_mul_of_nonneg_right hu4 hm2
  have up : toR (x * x + y * y + z * z) ≤ 7 * m ^ 2 := by
    have hu2 : uu * toR x ^ 2 ≤ uu * m ^ 2 := mul_le_mul_of_nonneg_left q1 hu.le
    have hu3 : uu * toR y ^ 2 ≤ uu * m ^ 2 := mul_le_mul_of_nonneg_left q2 hu.le
    have hu5 : uu * toR z ^ 2 ≤ uu * m ^ 2 := mul_le_mul_of_nonneg_left q3 hu.le
    have a1 : toR (x * x) ≤ 2 * (1 + uu) * m ^ 2 := by linarith [(abs_le.1 ex).2]
    have a2 : toR (y * y) ≤ 2 * (1 + uu) * m ^ 2 := by linarith [(abs_le.1 ey).2]
    have a3 : toR (z * z) ≤ 2 * (1 + uu) * m ^ 2 := by linarith [(abs_le.1 ez).2]
    have c1 : toR (x * x) ≤ 2002 / 1000 * m ^ 2 := by linarith
    have c2 : toR (y * y) ≤ 2002 / 1000 * m ^ 2 := by linarith
    have c3 : toR (z * z) ≤ 2002 / 1000 * m ^ 2 := by linarith
    have d1 : toR (x * x + y * y) ≤ (1 + 1 / 1000) * (4004 / 1000 * m ^ 2) := by
      refine s3.trans (mul_le_mul (by linarith) (by linarith) (by linarith) (by norm_num))
    have d2 : toR (x * x + y * y + z * z) ≤ (1 + 1 / 1000) * (6020 / 1000 * m ^ 2) := by
      refine t3.trans (mul_le_mul (by linarith) (by linarith) (by linarith) (by norm_num))
    linarith
  refine ⟨by linarith, up, ?_⟩
  rcases m0.lt_or_eq with h | h
  · exact h
  · rw [← h] at up; exfalso; linarith

theorem max3_attained (a b c : ℝ) : ∃ m, a ≤ m ∧ b ≤ m ∧ c ≤ m ∧ (a = m ∨ b = m ∨ c = m) := by
  refine ⟨max (max a b) c, by simp, by simp, by simp, ?_⟩
  rcases le_total a b with h | h <;> rcases le_total (max a b) c with h' | h' <;> simp_all

/-- one coordinate of a normalised vector -/
theorem norm_coord {x l : F64} {m D : ℝ} (hx : Num x) (hl : Num l) (hD : toR l = D) (m0 : 0 < m) (hm : m ≤ 2 ^ (500 : ℤ)) (hxm : |toR x| ≤ m)
    (d1 : 3 / 4 * m ≤ D) (hη : 2 ^ (-1074 : ℤ) ≤ D ^ 2 * 2) :
    Num ((Scalar.lit 1 : F64) / l * x) ∧ |toR ((Scalar.lit 1 : F64) / l * x) - toR x / D| ≤ 1 / 100 := by
  have D0 : 0 < D := by linarith
  obtain ⟨on, oe⟩ : Num (Scalar.lit 1 : F64) ∧ toR (Scalar.lit 1 : F64) = 1 := by
    have := lit_nat (k := 1) (by norm_num)
    simpa using this
  have hu := uu_pos
  have ht := uu_tiny
  have hb := one_le_1023
  have r1 : 1 / D ≤ 2 ^ (540 : ℤ) := by
    by_contra hc
    push Not at hc
    have e : (2:ℝ) ^ (540 : ℤ) * 2 ^ (540 : ℤ) * 2 ^ (-1074 : ℤ) = 64 := by
      rw [← zpow_add₀ two_ne_zero, ← zpow_add₀ two_ne_zero]; norm_num
    have p0 : (0:ℝ) < 2 ^ (540 : ℤ) := zpow_pos two_pos _
    have h1 := mul_lt_mul'' hc hc p0.le p0.le
    have h2 := mul_lt_mul_of_pos_right h1 eta_pos
    rw [e] at h2
    have h3 : 1 / D * (1 / D) * 2 ^ (-1074 : ℤ) ≤ 1 / D * (1 / D) * (D ^ 2 * 2) := mul_le_mul_of_nonneg_left hη (by positivity)
    have h4 : 1 / D * (1 / D) * (D ^ 2 * 2) = 2 := by field_simp
    linarith only [h2, h3, h4]
  have qd : |toR x / D| ≤ 4 / 3 := by
    rw [abs_div, abs_of_pos D0, div_le_iff₀ D0]; linarith
  obtain ⟨n, e⟩ := toR_div on hl (by rw [hD]; exact D0.ne') (by
    rw [oe, hD, abs_of_pos (by positivity)]; exact r1.trans (zpow_le_zpow_right₀ one_le_two (by norm_num)))
  rw [oe, hD] at e
  generalize (Scalar.lit 1 : F64) / l = f at *
  have hηm : (2:ℝ) ^ (-1075 : ℤ) * |toR x| ≤ uu := by
    refine (mul_le_mul_of_nonneg_left (hxm.trans hm) (by positivity)).trans ?_
    rw [← zpow_add₀ two_ne_zero]; unfold uu
    exact zpow_le_zpow_right₀ one_le_two (by norm_num)
  have e1 : |toR f * toR x - toR x / D| ≤ uu * (4 / 3) + uu := by
    have : toR f * toR x - toR x / D = (toR f - 1 / D) * toR x := by ring
    rw [this, abs_mul]
    have g1 := mul_le_mul_of_nonneg_right e (abs_nonneg (toR x))
    have g2 : (2 ^ (-53 : ℤ) * |1 / D| + 2 ^ (-1075 : ℤ)) * |toR x| = uu * |toR x / D| + 2 ^ (-1075 : ℤ) * |toR x| := by
      rw [abs_div, abs_div, abs_one]; unfold uu; ring
    rw [g2] at g1
    exact g1.trans (add_le_add (mul_le_mul_of_nonneg_left qd hu.le) hηm)
  have e2 : |toR f * toR x| ≤ 2 := by
    have := abs_add_le (toR f * toR x - toR x / D) (toR x / D)
    rw [sub_add_cancel] at this
    linarith only [this, e1, qd, ht]
  obtain ⟨n', e'⟩ := toR_mul n hx (e2.trans (le_trans (by norm_num) hb))
  refine ⟨n', ?_⟩
  have e3 : |toR (f * x) - toR f * toR x| ≤ uu * 2 + uu :=
    e'.trans (add_le_add (mul_le_mul_of_nonneg_left e2 hu.le) eta_uu)
  have g1 := abs_sub_le (toR (f * x)) (toR f * toR x) (toR x / D)
  linarith only [g1, e1, e3, ht]

end F64

/-- finite, at most 2, and not tiny: what any successful normalisation returns -/
def Spec.AxisLike (n : Point3D F64) : Prop :=
  n.Num ∧ (∀ d, |toR (at3 n d)| ≤ 2) ∧ ∃ d, 1 / 4 ≤ |toR (at3 n d)|

theorem abs_num_3d (p : Point3D F64) (hp : p.Num) (hb : ∀ d, |toR (at3 p d)| ≤ 2 ^ (500 : ℤ)) :
    ∃ D : ℚ, p.abs = some ⟨.fin false D⟩ ∧ F64.Num (.fin false D) ∧ 0 ≤ D ∧
      |(D:ℝ) * D - toR (p.x * p.x + p.y * p.y + p.z * p.z)| ≤ uu * 4 * toR (p.x * p.x + p.y * p.y + p.z * p.z) := by
  rw [forall_fin3] at hb
  have w : (2:ℝ) ^ (500 : ℤ) ≤ 2 ^ (511 : ℤ) := zpow_le_zpow_right₀ one_le_two (by norm_num)
  obtain ⟨m, hm, m0, m1⟩ := sumsq3_fin (near_num hp.1) (near_num hp.2.1) (near_num hp.2.2) (hb.1.trans w) (hb.2.1.trans w) (hb.2.2.trans w)
  have hm1 : m < 2 ^ (1024 : ℤ) := by
    refine m1.trans_lt ?_
    have e2 : (2:ℚ) ^ (1024 : ℤ) = 4 * 2 ^ (1022 : ℤ) := by
      rw [show (1024:ℤ) = 1022 + 2 by norm_num, zpow_add₀ two_ne_zero, mul_comm]; norm_num
    rw [e2]
    exact mul_lt_mul_of_pos_right (by norm_num) (two_zpow_pos _)
  obtain ⟨D, hD⟩ := sqrt_fin m0 hm1
  obtain ⟨d, e, -⟩ := c92_abs_3d p hp
  have hd : d = .fin false D := by
    have : p.abs = some ⟨Scalar.sqrt (p.x * p.x + p.y * p.y + p.z * p.z)⟩ := by
      unfold Point3D.abs NonNegative.new at e ⊢
      split_ifs at e ⊢
      rfl
    rw [this] at e
    rw [← hD, ← hm]
    exact (congrArg NonNegative.val (Option.some.inj e)).symm
  have hr : Rep (.fin false D) := by rw [← hD]; exact F64.sqrt_rep _
  have hS : F64.NonNeg (.fin false m) := by
    have : Rep (.fin false m) := by rw [← hm]; exact add_rep _ _
    exact .inr ⟨m, rfl, this⟩
  obtain ⟨m', hm', -, D0, hE⟩ := sqrt_err hS hD
  obtain rfl : m = m' := (F64.fin.inj hm').2
  refine ⟨D, by rw [e, hd], Num.mk' hr, D0, ?_⟩
  rw [hm, real_fin]
  simp only [val, Bool.false_eq_true, if_false]
  have h1 : ((|D * D - m| : ℚ) : ℝ) ≤ ((10 * 2 ^ (-55 : ℤ) * m : ℚ) : ℝ) := by exact_mod_cast hE
  push_cast at h1
  refine h1.trans (mul_le_mul_of_nonneg_right ?_ (by exact_mod_cast m0))
  unfold uu
  norm_num

/-- whatever finite vector is normalised: an error, or something of about unit length -/
theorem new_axisLike (p : Point3D F64) (hp : p.Num) (hb : ∀ d, |toR (at3 p d)| ≤ 2 ^ (500 : ℤ)) :
    ∃ r, Norm3D.new p = some r ∧ ∀ n, r = .ok n → AxisLike n := by
  obtain ⟨D, e, hn, D0, hE⟩ := abs_num_3d p hp hb
  have hl : toR (.fin false D) = (D:ℝ) := by rw [real_fin]; simp [val]
  rw [forall_fin3] at hb
  simp only [at3_zero, at3_one, at3_two] at hb
  obtain ⟨m, h1, h2, h3, hat⟩ := max3_attained |toR p.x| |toR p.y| |toR p.z|
  have hm : m ≤ 2 ^ (500 : ℤ) := by rcases hat with h | h | h <;> rw [← h] <;> tauto
  obtain ⟨ns, s0, hs⟩ := sumsq_num hp.1 hp.2.1 hp.2.2 hm h1 h2 h3 hat
  generalize p.x * p.x + p.y * p.y + p.z * p.z = S at *
  unfold Norm3D.new
  simp only [e, Option.bind_eq_bind, Option.bind_some]
  refine ⟨_, rfl, ?_⟩
  intro n hr
  by_cases h0 : Scalar.eq (.fin false D : F64) Scalar.zero = true
  · rw [if_pos h0] at hr
    cases hr
  · rw [if_neg h0] at hr
    have hD0 : (D:ℝ) ≠ 0 := by
      intro h
      rw [num_eq hn num_zero, toR_zero, hl] at h0
      exact h0 h
    have hu := uu_pos
    have ht := uu_tiny
    have hS0 : toR S ≠ 0 := by
      intro h
      rw [h] at hE
      simp at hE
      exact hD0 (mul_self_eq_zero.1 (le_antisymm (by exact_mod_cast hE) (mul_self_nonneg _)))
    obtain ⟨l1, l2, m0⟩ := hs hS0
    have D0' : (0:ℝ) ≤ D := by exact_mod_cast D0
    have hE' := abs_le.1 hE
    have hus : uu * 4 * toR S ≤ 4 / 1000 * toR S := mul_le_mul_of_nonneg_right (by linarith) s0
    have d1 : 3 / 4 * m ≤ D := by
      refine abs_le_of_sq_le_sq' ?_ D0' |>.2
      nlinarith
    have d2 : (D:ℝ) ≤ 27 / 10 * m := by
      refine abs_le_of_sq_le_sq' ?_ (by linarith) |>.2
      nlinarith
    have dη : 2 ^ (-1074 : ℤ) ≤ (D:ℝ) ^ 2 * 2 := by
      have := ns.multR.le_of_pos (lt_of_le_of_ne s0 (Ne.symm hS0))
      nlinarith
    obtain ⟨a1, b1⟩ := norm_coord hp.1 hn hl m0 hm h1 d1 dη
    obtain ⟨a2, b2⟩ := norm_coord hp.2.1 hn hl m0 hm h2 d1 dη
    obtain ⟨a3, b3⟩ := norm_coord hp.2.2 hn hl m0 hm h3 d1 dη
    have hne : n = ⟨lit 1 / .fin false D * p.x, lit 1 / .fin false D * p.y, lit 1 / .fin false D * p.z⟩ := by
      injection hr with h; exact h.symm
    subst hne
    have Dp : (0:ℝ) < D := by linarith
    have up : ∀ t : ℝ, |t| ≤ m → |t / D| ≤ 4 / 3 := fun t h => by
      rw [abs_div, abs_of_pos Dp, div_le_iff₀ Dp]; linarith
    have dn : ∀ t : ℝ, |t| = m → 10 / 27 ≤ |t / D| := fun t h => by
      rw [abs_div, abs_of_pos Dp, h, le_div_iff₀ Dp]; linarith
    have tri : ∀ r t : ℝ, |r - t| ≤ 1 / 100 → |r| ≤ |t| + 1 / 100 ∧ |t| - 1 / 100 ≤ |r| := fun r t h => by
      have h1 := abs_sub_abs_le_abs_sub r t
      have h2 := abs_sub_abs_le_abs_sub t r
      rw [abs_sub_comm t r] at h2
      constructor <;> linarith
    refine ⟨⟨a1, a2, a3⟩, ?_, ?_⟩
    · rw [forall_fin3]
      refine ⟨?_, ?_, ?_⟩
      · have := (tri _ _ b1).1; have := up _ h1; simp only [at3_zero]; linarith
      · have := (tri _ _ b2).1; have := up _ h2; simp only [at3_one]; linarith
      · have := (tri _ _ b3).1; have := up _ h3; simp only [at3_two]; linarith
    · rcases hat with h | h | h
      · exact ⟨0, by have := (tri _ _ b1).2; have := dn _ h; simp only [at3_zero]; linarith⟩
      · exact ⟨1, by have := (tri _ _ b2).2; have := dn _ h; simp only [at3_one]; linarith⟩
      · exact ⟨2, by have := (tri _ _ b3).2; have := dn _ h; simp only [at3_two]; linarith⟩

theorem normZ_axisLike : AxisLike (Norm3D.normX : Point3D F64) ∧ AxisLike (Norm3D.normY : Point3D F64) ∧ AxisLike (Norm3D.normZ : Point3D F64) := by
  have h0 : F64.Num (lit 0 : F64) ∧ toR (lit 0 : F64) = 0 := by simpa using lit_nat (k := 0) (by norm_num)
  have h1 : F64.Num (lit 1 : F64) ∧ toR (lit 1 : F64) = 1 := by simpa using lit_nat (k := 1) (by norm_num)
  refine ⟨⟨⟨h1.1, h0.1, h0.1⟩, ?_, 0, ?_⟩, ⟨⟨h0.1, h1.1, h0.1⟩, ?_, 1, ?_⟩, ⟨⟨h0.1, h0.1, h1.1⟩, ?_, 2, ?_⟩⟩ <;>
    simp [forall_fin3, Norm3D.normX, Norm3D.normY, Norm3D.normZ, h0.2, h1.2] <;> norm_num

theorem newOrZ_axisLike (p : Point3D F64) (hp : p.Num) (hb : ∀ d, |toR (at3 p d)| ≤ 2 ^ (500 : ℤ)) :
    ∃ n, Norm3D.newOrZ p = some n ∧ AxisLike n := by
  obtain ⟨r, hr, h⟩ := new_axisLike p hp hb
  unfold Norm3D.newOrZ
  rw [hr]
  cases r with
  | error e => exact ⟨_, rfl, normZ_axisLike.2.2⟩
  | ok n => exact ⟨n, rfl, h n rfl⟩


/-! the test, coordinates within `M` -/

/-- finite coordinates of absolute value at most `B` -/
def Spec.Bounded3 (B : ℝ) (p : Point3D F64) : Prop := p.Num ∧ ∀ d, |toR (at3 p d)| ≤ B

/-- every translation by at most `δ` per axis leaves a common point -/
def Spec.DeepOverlap (A B : List (Point3D ℝ)) (δ : ℝ) : Prop :=
  ∀ v : Fin 3 → ℝ, (∀ d, |v d| ≤ δ) → ∃ x ∈ solid A, x + v ∈ solid B

theorem Sat.dot_err {M : ℝ} (hM : 2 ^ (-1000 : ℤ) ≤ M) (hM' : M ≤ 2 ^ (900 : ℤ)) {p ax : Point3D F64} (hp : Bounded3 M p) (ha : AxisLike ax) :
    F64.Num (p.dot ax) ∧ |toR (p.dot ax) - dot3 p.real ax.real| ≤ 2 ^ (-47 : ℤ) * M := by
  obtain ⟨np, bp⟩ := hp
  obtain ⟨na, ba, -⟩ := ha
  rw [forall_fin3] at bp ba
  simp only [at3_zero, at3_one, at3_two] at bp ba
  have M0 : 0 < M := lt_of_lt_of_le (zpow_pos two_pos _) hM
  have m1 := mul_le_mul bp.1 ba.1 (abs_nonneg _) M0.le
  have m2 := mul_le_mul bp.2.1 ba.2.1 (abs_nonneg _) M0.le
  have m3 := mul_le_mul bp.2.2 ba.2.2 (abs_nonneg _) M0.le
  have w : 6 * M ≤ 2 ^ (1000 : ℤ) := by
    have e : (2:ℝ) ^ (1000 : ℤ) = 2 ^ (100 : ℤ) * 2 ^ (900 : ℤ) := by rw [← zpow_add₀ two_ne_zero]; norm_num
    rw [e]
    refine mul_le_mul (by norm_num) hM' M0.le (by positivity)
  have hs : |toR p.x| * |toR ax.x| + |toR p.y| * |toR ax.y| + |toR p.z| * |toR ax.z| ≤ 6 * M := by linarith only [m1, m2, m3]
  obtain ⟨n, e⟩ := F64.dotm3 np.1 np.2.1 np.2.2 na.1 na.2.1 na.2.2 (hs.trans w)
  refine ⟨n, ?_⟩
  have e2 : dot3 p.real ax.real = toR p.x * toR ax.x + toR p.y * toR ax.y + toR p.z * toR ax.z := by
    simp [Spec.dot3, Fin.sum_univ_three, Point3D.real]
  rw [e2]
  refine e.trans ?_
  have h1 : (2:ℝ) ^ (-1069 : ℤ) ≤ 2 ^ (-50 : ℤ) * (2 * M) := by
    refine le_trans ?_ (mul_le_mul_of_nonneg_left (show (2:ℝ) ^ (-1000 : ℤ) ≤ 2 * M by linarith only [hM, M0]) (by positivity))
    rw [← zpow_add₀ two_ne_zero]
    exact zpow_le_zpow_right₀ one_le_two (by norm_num)
  have h2 := mul_le_mul_of_nonneg_left hs (show (0:ℝ) ≤ 2 ^ (-50 : ℤ) by positivity)
  have h3 : (2:ℝ) ^ (-47 : ℤ) = 8 * 2 ^ (-50 : ℤ) := by norm_num
  rw [h3]
  linarith only [h1, h2]

theorem Sat.dot_err' {M u : ℝ} (hM : 2 ^ (-1000 : ℤ) ≤ M) (hM' : M ≤ 2 ^ (900 : ℤ)) {p ax : Point3D F64} (hp : Bounded3 M p) (ha : AxisLike ax)
    (hu : u = 2 ^ (-47 : ℤ)) : |toR (p.dot ax) - dot3 p.real ax.real| ≤ u * M := by
  rw [hu]
  exact (Sat.dot_err hM hM' hp ha).2

theorem Sat.range_num {M : ℝ} (hM : 2 ^ (-1000 : ℤ) ≤ M) (hM' : M ≤ 2 ^ (900 : ℤ)) {ax : Point3D F64} (ha : AxisLike ax)
    (pts : List (Point3D F64)) (hp : ∀ p ∈ pts, Bounded3 M p) (h : pts ≠ []) :
    ∃ m N, Sat.range ax pts = (some m, some N) ∧ F64.Num m ∧ F64.Num N ∧ (∃ p ∈ pts, m = p.dot ax) ∧ (∃ p ∈ pts, N = p.dot ax) ∧
      ∀ p ∈ pts, toR m ≤ toR (p.dot ax) ∧ toR (p.dot ax) ≤ toR N := by
  induction pts using List.reverseRecOn with
  | nil => exact absurd rfl h
  | append_singleton l x ih =>
    obtain ⟨nx, -⟩ := Sat.dot_err hM hM' (hp x (by simp)) ha
    unfold Sat.range at ih ⊢
    rw [List.foldl_append]
    simp only [List.foldl_cons, List.foldl_nil]
    by_cases hl : l = []
    · subst hl
      exact ⟨x.dot ax, x.dot ax, by simp [Sat.step], nx, nx, by simp, by simp, by simp⟩
    · obtain ⟨m, N, e, hm', hN', ⟨p, hp, hm⟩, ⟨q, hq, hN⟩, hall⟩ := ih (fun p h => hp p (by simp [h])) hl
      rw [e]
      have i1 : Scalar.lt (x.dot ax) m = true ↔ _ := num_lt nx hm'
      have i2 : Scalar.lt N (x.dot ax) = true ↔ _ := num_lt hN' nx
      refine ⟨if toR (x.dot ax) < toR m then x.dot ax else m, if toR N < toR (x.dot ax) then x.dot ax else N, ?_, ?_, ?_, ?_, ?_, ?_⟩
      · simp only [Sat.step, i1, i2]
        split_ifs <;> rfl
      · split_ifs <;> assumption
      · split_ifs <;> assumption
      · split_ifs
        · exact ⟨x, by simp, rfl⟩
        · exact ⟨p, by simp [hp], hm⟩
      · split_ifs
        · exact ⟨x, by simp, rfl⟩
        · exact ⟨q, by simp [hq], hN⟩
      · intro r hr
        rcases List.mem_append.1 hr with hr | hr
        · have := hall r hr
          split_ifs <;> constructor <;> linarith
        · rw [List.mem_singleton] at hr
          subst hr
          split_ifs <;> constructor <;> linarith

/-- computed and strict: all of `A` before all of `B` -/
def Sat.BeforeF (A B : List (Point3D F64)) (ax : Point3D F64) : Prop := ∀ p ∈ A, ∀ q ∈ B, toR (p.dot ax) < toR (q.dot ax)

theorem Sat.onAxis_num {M : ℝ} (hM : 2 ^ (-1000 : ℤ) ≤ M) (hM' : M ≤ 2 ^ (900 : ℤ)) {ax : Point3D F64} (ha : AxisLike ax)
    (A B : List (Point3D F64)) (pA : ∀ p ∈ A, Bounded3 M p) (pB : ∀ p ∈ B, Bounded3 M p) (hA : A ≠ []) (hB : B ≠ []) (o : Bool) :
    Sat.onAxis A B o ax = true ↔ o = true ∧ ¬Sat.BeforeF A B ax ∧ ¬Sat.BeforeF B A ax := by
  obtain ⟨m, N, e, nm, nN, ⟨p, hp, hm⟩, ⟨q, hq, hN⟩, hall⟩ := Sat.range_num hM hM' ha A pA hA
  obtain ⟨m', N', e', nm', nN', ⟨p', hp', hm'⟩, ⟨q', hq', hN'⟩, hall'⟩ := Sat.range_num hM hM' ha B pB hB
  have h1 : Sat.BeforeF A B ax ↔ toR N < toR m' := by
    constructor
    · intro h; rw [hN, hm']; exact h q hq p' hp'
    · intro h r hr s hs
      exact ((hall r hr).2.trans_lt h).trans_le (hall' s hs).1
  have h2 : Sat.BeforeF B A ax ↔ toR N' < toR m := by
    constructor
    · intro h; rw [hN', hm]; exact h q' hq' p hp
    · intro h r hr s hs
      exact ((hall' r hr).2.trans_lt h).trans_le (hall s hs).1
  rw [h1, h2, ← num_lt nN nm', ← num_lt nN' nm]
  unfold Sat.onAxis
  rw [e, e']
  cases o
  · simp
  · simp only [if_true, true_and, Bool.or_eq_true]
    split_ifs with hc
    · simp only [false_iff]
      tauto
    · simp only [true_iff]
      tauto

theorem Sat.collide_num {M : ℝ} (hM : 2 ^ (-1000 : ℤ) ≤ M) (hM' : M ≤ 2 ^ (900 : ℤ)) (A xA B xB : List (Point3D F64))
    (pA : ∀ p ∈ A, Bounded3 M p) (pB : ∀ p ∈ B, Bounded3 M p) (hA : A ≠ []) (hB : B ≠ []) (hx : ∀ ax ∈ xA ++ xB, AxisLike ax) :
    Sat.collide A xA B xB = true ↔ ∀ ax ∈ xA ++ xB, ¬Sat.BeforeF A B ax ∧ ¬Sat.BeforeF B A ax := by
  have hf : ∀ (l : List (Point3D F64)) (o : Bool), (∀ ax ∈ l, AxisLike ax) →
      (l.foldl (Sat.onAxis A B) o = true ↔ o = true ∧ ∀ ax ∈ l, ¬Sat.BeforeF A B ax ∧ ¬Sat.BeforeF B A ax) := by
    intro l
    induction l with
    | nil => simp
    | cons x l ih =>
      intro o h
      rw [List.foldl_cons, ih _ (fun ax h' => h ax (by simp [h'])), Sat.onAxis_num hM hM' (h x (by simp)) A B pA pB hA hB]
      simp only [List.mem_cons, forall_eq_or_imp]
      tauto
  unfold Sat.collide
  rw [hf xB _ (fun ax h => hx ax (by simp [h])), hf xA _ (fun ax h => hx ax (by simp [h]))]
  simp only [true_and, List.mem_append]
  constructor
  · rintro ⟨h1, h2⟩ ax (h | h)
    · exact h1 ax h
    · exact h2 ax h
  · intro h
    exact ⟨fun ax hx => h ax (.inl hx), fun ax hx => h ax (.inr hx)⟩

theorem solid_flip (pts : List (Point3D ℝ)) (ax : Point3D ℝ) (c : ℝ) (h : ∀ p ∈ pts, c ≤ dot3 p ax) (x : Fin 3 → ℝ)
    (hx : x ∈ solid pts) : c ≤ ∑ d, x d * at3 ax d := by
  have := solid_le pts ⟨-ax.x, -ax.y, -ax.z⟩ (-c) (fun p hp => by
    have := h p hp
    simp only [Spec.dot3, Fin.sum_univ_three, at3_zero, at3_one, at3_two] at this ⊢
    linarith) x hx
  simp only [Fin.sum_univ_three, at3_zero, at3_one, at3_two] at this ⊢
  linarith

theorem Sat.deep_not_before {M : ℝ} (hM : 2 ^ (-1000 : ℤ) ≤ M) (hM' : M ≤ 2 ^ (900 : ℤ)) (A B : List (Point3D F64))
    (pA : ∀ p ∈ A, Bounded3 M p) (pB : ∀ p ∈ B, Bounded3 M p) (hA : A ≠ []) (hB : B ≠ []) {ax : Point3D F64} (ha : AxisLike ax)
    (h : DeepOverlap (A.map Point3D.real) (B.map Point3D.real) (2 ^ (-44 : ℤ) * M)) : ¬Sat.BeforeF A B ax := by
  intro hb
  have M0 : 0 < M := lt_of_lt_of_le (zpow_pos two_pos _) hM
  obtain ⟨m, N, -, -, -, -, ⟨q, hq, hN⟩, hall⟩ := Sat.range_num hM hM' ha A pA hA
  obtain ⟨m', N', -, -, -, ⟨p', hp', hm'⟩, -, hall'⟩ := Sat.range_num hM hM' ha B pB hB
  have hlt := hb q hq p' hp'
  rw [← hN, ← hm'] at hlt
  have q0 : (0:ℝ) < 2 ^ (-47 : ℤ) := by positivity
  have e8 : (2:ℝ) ^ (-44 : ℤ) = 8 * 2 ^ (-47 : ℤ) := by norm_num
  rw [e8] at h
  generalize hu : (2:ℝ) ^ (-47 : ℤ) = u at q0 h
  replace hu := hu.symm
  obtain ⟨v, hv, hva⟩ : ∃ v : Fin 3 → ℝ, (∀ d, |v d| ≤ 8 * u * M) ∧ ∀ d, v d * toR (at3 ax d) = -(8 * u * M * |toR (at3 ax d)|) := by
    have p8 : 0 ≤ 8 * u * M := by positivity
    have hex : ∀ t : ℝ, ∃ w : ℝ, |w| ≤ 8 * u * M ∧ w * t = -(8 * u * M * |t|) := fun t => by
      rcases le_total 0 t with h0 | h0
      · exact ⟨-(8 * u * M), by rw [abs_neg, abs_of_nonneg p8], by rw [abs_of_nonneg h0]; ring⟩
      · exact ⟨8 * u * M, by rw [abs_of_nonneg p8], by rw [abs_of_nonpos h0]; ring⟩
    choose w hw using fun d => hex (toR (at3 ax d))
    exact ⟨w, fun d => (hw d).1, fun d => (hw d).2⟩
  obtain ⟨x, hxA, hxB⟩ := h v hv
  have u1 := solid_le (A.map Point3D.real) ax.real (toR N + u * M) (fun p hp => by
    obtain ⟨r, hr, rfl⟩ := List.mem_map.1 hp
    have h1 := abs_le.1 (Sat.dot_err' hM hM' (pA r hr) ha hu)
    have h2 := (hall r hr).2
    linarith only [h1.1, h2]) x hxA
  have u2 := solid_flip (B.map Point3D.real) ax.real (toR m' - u * M) (fun p hp => by
    obtain ⟨r, hr, rfl⟩ := List.mem_map.1 hp
    have h1 := abs_le.1 (Sat.dot_err' hM hM' (pB r hr) ha hu)
    have h2 := (hall' r hr).1
    linarith only [h1.2, h2]) _ hxB
  have u3 : ∑ d, (x + v) d * at3 ax.real d =
      ∑ d, x d * at3 ax.real d - 8 * u * M * (|toR ax.x| + |toR ax.y| + |toR ax.z|) := by
    rw [forall_fin3] at hva
    simp only [Fin.sum_univ_three, Pi.add_apply, at3_zero, at3_one, at3_two, Point3D.real] at hva ⊢
    linarith only [hva.1, hva.2.1, hva.2.2]
  have u4 : 1 / 4 ≤ |toR ax.x| + |toR ax.y| + |toR ax.z| := by
    obtain ⟨-, -, d, hd⟩ := ha
    have a1 := abs_nonneg (toR ax.x)
    have a2 := abs_nonneg (toR ax.y)
    have a3 := abs_nonneg (toR ax.z)
    revert d
    rw [forall_fin3]
    simp only [at3_zero, at3_one, at3_two]
    refine ⟨fun h => ?_, fun h => ?_, fun h => ?_⟩ <;> linarith only [h, a1, a2, a3]
  rw [u3] at u2
  have u5 := mul_le_mul_of_nonneg_left u4 (show 0 ≤ 8 * u * M by positivity)
  linarith only [u1, u2, u5, hlt]

/-- along the axis, all of `A` comes before all of `B` with a gap of more than `g` -/
def Spec.Gap (A B : List (Point3D ℝ)) (ax : Point3D ℝ) (g : ℝ) : Prop := ∀ p ∈ A, ∀ q ∈ B, dot3 p ax + g < dot3 q ax

theorem Sat.gap_before {M : ℝ} (hM : 2 ^ (-1000 : ℤ) ≤ M) (hM' : M ≤ 2 ^ (900 : ℤ)) (A B : List (Point3D F64))
    (pA : ∀ p ∈ A, Bounded3 M p) (pB : ∀ p ∈ B, Bounded3 M p) {ax : Point3D F64} (ha : AxisLike ax)
    (h : Gap (A.map Point3D.real) (B.map Point3D.real) ax.real (2 ^ (-46 : ℤ) * M)) : Sat.BeforeF A B ax := by
  intro p hp q hq
  have h1 := abs_le.1 (Sat.dot_err hM hM' (pA p hp) ha).2
  have h2 := abs_le.1 (Sat.dot_err hM hM' (pB q hq) ha).2
  have h3 := h _ (List.mem_map_of_mem hp) _ (List.mem_map_of_mem hq)
  have e : (2:ℝ) ^ (-46 : ℤ) = 2 * 2 ^ (-47 : ℤ) := by norm_num
  rw [e] at h3
  linarith only [h1.2, h2.1, h3]

/-- C49 for doubles with rounding. Points of magnitude at most `M`, axes as every normalisation returns them:
if the solids still share a point after every translation by up to `2^-44 M` per coordinate, a collision is
reported; if some axis separates the points by more than `2^-46 M`, none is reported. -/
theorem c49_sat_f64 (M : ℝ) (hM : 2 ^ (-1000 : ℤ) ≤ M) (hM' : M ≤ 2 ^ (900 : ℤ)) (A xA B xB : List (Point3D F64))
    (pA : ∀ p ∈ A, Bounded3 M p) (pB : ∀ p ∈ B, Bounded3 M p) (hA : A ≠ []) (hB : B ≠ []) (hx : ∀ ax ∈ xA ++ xB, AxisLike ax) :
    (DeepOverlap (A.map Point3D.real) (B.map Point3D.real) (2 ^ (-44 : ℤ) * M) → Sat.collide A xA B xB = true) ∧
    ((∃ ax ∈ xA ++ xB, Gap (A.map Point3D.real) (B.map Point3D.real) ax.real (2 ^ (-46 : ℤ) * M) ∨
      Gap (B.map Point3D.real) (A.map Point3D.real) ax.real (2 ^ (-46 : ℤ) * M)) → Sat.collide A xA B xB = false) := by
  have hc := Sat.collide_num hM hM' A xA B xB pA pB hA hB hx
  constructor
  · intro h
    rw [hc]
    have h' : DeepOverlap (B.map Point3D.real) (A.map Point3D.real) (2 ^ (-44 : ℤ) * M) := by
      intro v hv
      obtain ⟨x, h1, h2⟩ := h (-v) (fun d => by rw [Pi.neg_apply, abs_neg]; exact hv d)
      exact ⟨x + -v, h2, by rwa [neg_add_cancel_right]⟩
    exact fun ax h1 => ⟨Sat.deep_not_before hM hM' A B pA pB hA hB (hx ax h1) h,
      Sat.deep_not_before hM hM' B A pB pA hB hA (hx ax h1) h'⟩
  · rintro ⟨ax, h1, h2⟩
    rw [← Bool.not_eq_true, hc]
    intro h3
    rcases h2 with h2 | h2
    · exact (h3 ax h1).1 (Sat.gap_before hM hM' A B pA pB (hx ax h1) h2)
    · exact (h3 ax h1).2 (Sat.gap_before hM hM' B A pB pA (hx ax h1) h2)

/-! symmetry, for every scalar type -/

theorem Sat.onAxis_swap {α : Type} [Scalar α] (A B : List (Point3D α)) : Sat.onAxis A B = Sat.onAxis B A := by
  funext o ax
  unfold Sat.onAxis
  rcases Sat.range ax A with ⟨_ | _, _ | _⟩ <;> rcases Sat.range ax B with ⟨_ | _, _ | _⟩ <;> try rfl
  simp only [Bool.or_comm]

theorem Sat.onAxis_and {α : Type} [Scalar α] (A B : List (Point3D α)) (o : Bool) (ax : Point3D α) :
    Sat.onAxis A B o ax = (o && Sat.onAxis A B true ax) := by
  cases o <;> simp [Sat.onAxis]

theorem Sat.foldl_and {α : Type} [Scalar α] (A B xs : List (Point3D α)) (o : Bool) :
    xs.foldl (Sat.onAxis A B) o = (o && xs.all (Sat.onAxis A B true)) := by
  induction xs generalizing o with
  | nil => simp
  | cons x l ih => rw [List.foldl_cons, ih, Sat.onAxis_and, List.all_cons, Bool.and_assoc]

theorem Sat.collide_swap {α : Type} [Scalar α] (A xA B xB : List (Point3D α)) :
    Sat.collide A xA B xB = Sat.collide B xB A xA := by
  unfold Sat.collide
  rw [Sat.foldl_and, Sat.foldl_and, Sat.foldl_and, Sat.foldl_and, Sat.onAxis_swap B A]
  simp [Bool.and_comm]

theorem Collider3D.sat_swap {α : Type} [Scalar α] (a b : Collider3D α) : Collider3D.sat a b = Collider3D.sat b a := by
  unfold Collider3D.sat
  rcases a.satObject with _ | ⟨pa, xa⟩ <;> rcases b.satObject with _ | ⟨pb, xb⟩ <;> try rfl
  simp [Sat.collide_swap pa]

/-- C49, for every scalar type and whatever the numbers (also nan): the collision test of two colliders does
not depend on their order, unless both are axis aligned boxes -/
theorem c49_symmetric {α : Type} [Scalar α] (a b : Collider3D α) (h : ¬((∃ x, a = .aabb x) ∧ ∃ y, b = .aabb y)) :
    a.collidesWith b = b.collidesWith a := by
  cases a <;> cases b <;> first | rfl | exact Collider3D.sat_swap _ _ | exact absurd ⟨⟨_, rfl⟩, _, rfl⟩ h

/-! the colliders -/
namespace Spec.Bounded3

theorem mono {A B : ℝ} {p : Point3D F64} (h : Bounded3 A p) (hb : A ≤ B) : Bounded3 B p :=
  ⟨h.1, fun d => (h.2 d).trans hb⟩

theorem add1 {x y : F64} {A B : ℝ} (hx : F64.Num x) (hy : F64.Num y) (h1 : |toR x| ≤ A) (h2 : |toR y| ≤ B) (h : A + B ≤ 2 ^ (900 : ℤ)) :
    (F64.Num (x + y) ∧ |toR (x + y)| ≤ 1001 / 1000 * (A + B)) ∧ F64.Num (x - y) ∧ |toR (x - y)| ≤ 1001 / 1000 * (A + B) := by
  have w : (2:ℝ) ^ (900 : ℤ) ≤ 2 ^ (1023 : ℤ) := zpow_le_zpow_right₀ one_le_two (by norm_num)
  have b1 : |toR x + toR y| ≤ A + B := (abs_add_le _ _).trans (add_le_add h1 h2)
  have b2 : |toR x - toR y| ≤ A + B := (abs_sub _ _).trans (add_le_add h1 h2)
  obtain ⟨n1, e1⟩ := F64.toR_add hx hy (b1.trans (h.trans w))
  obtain ⟨n2, e2⟩ := F64.toR_sub hx hy (b2.trans (h.trans w))
  have ht : (2:ℝ) ^ (-53 : ℤ) ≤ 1 / 1000 := uu_tiny
  have g1 := mul_le_mul ht b1 (abs_nonneg _) (by norm_num)
  have g2 := mul_le_mul ht b2 (abs_nonneg _) (by norm_num)
  have t1 := abs_sub_abs_le_abs_sub (toR (x + y)) (toR x + toR y)
  have t2 := abs_sub_abs_le_abs_sub (toR (x - y)) (toR x - toR y)
  refine ⟨⟨n1, ?_⟩, n2, ?_⟩
  · linarith only [t1.trans (e1.trans g1), b1]
  · linarith only [t2.trans (e2.trans g2), b2]

theorem add {A B : ℝ} {p q : Point3D F64} (hp : Bounded3 A p) (hq : Bounded3 B q) (h : A + B ≤ 2 ^ (900 : ℤ)) :
    Bounded3 (1001 / 1000 * (A + B)) (p.add q) := by
  obtain ⟨n, b⟩ := hp
  obtain ⟨n', b'⟩ := hq
  unfold Bounded3
  rw [forall_fin3] at b b' ⊢
  have h1 := (add1 n.1 n'.1 b.1 b'.1 h).1
  have h2 := (add1 n.2.1 n'.2.1 b.2.1 b'.2.1 h).1
  have h3 := (add1 n.2.2 n'.2.2 b.2.2 b'.2.2 h).1
  exact ⟨⟨h1.1, h2.1, h3.1⟩, h1.2, h2.2, h3.2⟩

theorem sub {A B : ℝ} {p q : Point3D F64} (hp : Bounded3 A p) (hq : Bounded3 B q) (h : A + B ≤ 2 ^ (900 : ℤ)) :
    Bounded3 (1001 / 1000 * (A + B)) (p.sub q) := by
  obtain ⟨n, b⟩ := hp
  obtain ⟨n', b'⟩ := hq
  unfold Bounded3
  rw [forall_fin3] at b b' ⊢
  have h1 := (add1 n.1 n'.1 b.1 b'.1 h).2
  have h2 := (add1 n.2.1 n'.2.1 b.2.1 b'.2.1 h).2
  have h3 := (add1 n.2.2 n'.2.2 b.2.2 b'.2.2 h).2
  exact ⟨⟨h1.1, h2.1, h3.1⟩, h1.2, h2.2, h3.2⟩

theorem smul {M : ℝ} (hM : 2 ^ (-1000 : ℤ) ≤ M) (hM' : M ≤ 2 ^ (200 : ℤ)) {ax : Point3D F64} {f : F64} (ha : AxisLike ax) (hf : F64.Num f)
    (hfb : |toR f| ≤ M) : Bounded3 (21 / 10 * M) (ax.smul f) := by
  have M0 : 0 < M := lt_of_lt_of_le (zpow_pos two_pos _) hM
  obtain ⟨n, b, -⟩ := ha
  have w : M * 2 ≤ 2 ^ (1023 : ℤ) := by
    refine (mul_le_mul_of_nonneg_right hM' (by norm_num)).trans ?_
    rw [← zpow_add_one₀ two_ne_zero]
    exact zpow_le_zpow_right₀ one_le_two (by norm_num)
  have one : ∀ x : F64, F64.Num x → |toR x| ≤ 2 → F64.Num (f * x) ∧ |toR (f * x)| ≤ 21 / 10 * M := by
    intro x hx hb
    have b1 : |toR f * toR x| ≤ M * 2 := by
      rw [abs_mul]; exact mul_le_mul hfb hb (abs_nonneg _) M0.le
    obtain ⟨n1, e1⟩ := F64.toR_mul hf hx (b1.trans w)
    refine ⟨n1, ?_⟩
    have ht : (2:ℝ) ^ (-53 : ℤ) ≤ 1 / 1000 := uu_tiny
    have g1 := mul_le_mul ht b1 (abs_nonneg _) (by norm_num)
    have t1 := abs_sub_abs_le_abs_sub (toR (f * x)) (toR f * toR x)
    have h9 : (2:ℝ) ^ (-1075 : ℤ) ≤ 1 / 1000 * M := by
      refine le_trans ?_ (mul_le_mul_of_nonneg_left hM (by norm_num))
      rw [show (-1075:ℤ) = -75 + -1000 by norm_num, zpow_add₀ two_ne_zero]
      exact mul_le_mul_of_nonneg_right (by norm_num) (by positivity)
    linarith only [t1.trans (e1.trans (add_le_add g1 h9)), b1, M0]
  unfold Bounded3
  rw [forall_fin3] at b ⊢
  have h1 := one _ n.1 b.1
  have h2 := one _ n.2.1 b.2.1
  have h3 := one _ n.2.2 b.2.2
  exact ⟨⟨h1.1, h2.1, h3.1⟩, h1.2, h2.2, h3.2⟩

theorem cross {A B : ℝ} {p q : Point3D F64} (hp : Bounded3 A p) (hq : Bounded3 B q) (h : 2 * (A * B) ≤ 2 ^ (490 : ℤ)) :
    Bounded3 (2 ^ (500 : ℤ)) (p.cross q) := by
  have A0 : 0 ≤ A := (abs_nonneg _).trans (hp.2 0)
  have B0 : 0 ≤ B := (abs_nonneg _).trans (hq.2 0)
  have hs : ∀ i j k l : Fin 3, |toR (at3 p i)| * |toR (at3 q j)| + |toR (at3 p k)| * |toR (at3 q l)| ≤ 2 * (A * B) := by
    intro i j k l
    have m1 := mul_le_mul (hp.2 i) (hq.2 j) (abs_nonneg _) A0
    have m2 := mul_le_mul (hp.2 k) (hq.2 l) (abs_nonneg _) A0
    linarith only [m1, m2]
  have w : (2:ℝ) ^ (490 : ℤ) ≤ 2 ^ (1000 : ℤ) := zpow_le_zpow_right₀ one_le_two (by norm_num)
  have hc := c100_cross p q hp.1 hq.1 (fun d => (hs _ _ _ _).trans (h.trans w))
  refine ⟨⟨(hc 0).1, (hc 1).1, (hc 2).1⟩, fun d => ?_⟩
  have e := (hc d).2
  have hsd := hs (d + 1) (d + 2) (d + 2) (d + 1)
  have t1 := abs_sub_abs_le_abs_sub (toR (at3 (p.cross q) d))
    (toR (at3 p (d + 1)) * toR (at3 q (d + 2)) - toR (at3 p (d + 2)) * toR (at3 q (d + 1)))
  have t2 := abs_sub (toR (at3 p (d + 1)) * toR (at3 q (d + 2))) (toR (at3 p (d + 2)) * toR (at3 q (d + 1)))
  rw [abs_mul, abs_mul] at t2
  have k1 : (2:ℝ) ^ (-50 : ℤ) ≤ 1 := by norm_num
  have k2 : (2:ℝ) ^ (-1069 : ℤ) ≤ 2 ^ (490 : ℤ) := zpow_le_zpow_right₀ one_le_two (by norm_num)
  have g := mul_le_mul k1 hsd (by positivity) (by norm_num)
  have fin : (2:ℝ) ^ (500 : ℤ) = 1024 * 2 ^ (490 : ℤ) := by
    rw [show (500:ℤ) = 10 + 490 by norm_num, zpow_add₀ two_ne_zero]; norm_num
  rw [fin]
  have p490 : (0:ℝ) ≤ 2 ^ (490 : ℤ) := by positivity
  have q := t1.trans (e.trans (add_le_add g k2))
  clear t1 e g k2 k1 hc w fin
  generalize (2:ℝ) ^ (490 : ℤ) = z at *
  linarith only [q, t2, hsd, h, p490]

end Spec.Bounded3

/-- finite data of magnitude at most `M`; the directions of an unaligned box are normalised -/
def Spec.ColliderWithin (M : ℝ) : Collider3D F64 → Prop
  | .aabb b => Bounded3 M b.min ∧ Bounded3 M b.max
  | .face f => Bounded3 M f.a ∧ Bounded3 M f.b ∧ Bounded3 M f.c
  | .box3 b => Bounded3 M b.center ∧ AxisLike b.yDir ∧ AxisLike b.zDir ∧
      ∀ s ∈ [b.sizeX.val, b.sizeY.val, b.sizeZ.val], F64.Num s ∧ |toR s| ≤ M

theorem AxisLike.bounded {n : Point3D F64} (h : AxisLike n) : Bounded3 2 n := ⟨h.1, h.2.1⟩

theorem newOrZ_cross {A B : ℝ} {p q : Point3D F64} (hp : Bounded3 A p) (hq : Bounded3 B q) (h : 2 * (A * B) ≤ 2 ^ (490 : ℤ)) :
    ∃ n, Norm3D.newOrZ (p.cross q) = some n ∧ AxisLike n := by
  have := hp.cross hq h
  exact newOrZ_axisLike _ this.1 this.2

/-- no panic for finite data: points at most eight times as large, axes of about unit length -/
theorem satObject_f64 (M : ℝ) (hM : 2 ^ (-1000 : ℤ) ≤ M) (hM' : M ≤ 2 ^ (200 : ℤ)) (c : Collider3D F64) (hc : ColliderWithin M c) :
    ∃ pts axes, c.satObject = some (pts, axes) ∧ pts ≠ [] ∧ (∀ p ∈ pts, Bounded3 (8 * M) p) ∧ ∀ ax ∈ axes, AxisLike ax := by
  have M0 : 0 < M := lt_of_lt_of_le (zpow_pos two_pos _) hM
  have w : ∀ k, k ≤ 1000 → k * M ≤ 2 ^ (300 : ℤ) := fun k hk => by
    have : (2:ℝ) ^ (300 : ℤ) = 2 ^ (100 : ℤ) * 2 ^ (200 : ℤ) := by rw [← zpow_add₀ two_ne_zero]; norm_num
    rw [this]
    exact mul_le_mul (hk.trans (by norm_num)) hM' M0.le (by positivity)
  have w9 : (2:ℝ) ^ (300 : ℤ) ≤ 2 ^ (900 : ℤ) := zpow_le_zpow_right₀ one_le_two (by norm_num)
  have wy : ∀ y, y ≤ 10 * M → y ≤ 2 ^ (900 : ℤ) := fun y h => h.trans ((w 10 (by norm_num)).trans w9)
  cases c with
  | aabb b =>
    obtain ⟨⟨n1, b1⟩, n2, b2⟩ := hc
    rw [forall_fin3] at b1 b2
    refine ⟨_, _, rfl, by simp [BoundingBox3D.satPoints], ?_, ?_⟩
    · intro p hp
      refine Bounded3.mono (A := M) ?_ (by linarith only [M0])
      unfold Bounded3
      rw [forall_fin3]
      simp only [BoundingBox3D.satPoints, List.mem_cons, List.not_mem_nil, or_false] at hp
      rcases hp with rfl | rfl | rfl | rfl | rfl | rfl | rfl | rfl
      · exact ⟨⟨n1.1, n1.2.1, n1.2.2⟩, b1.1, b1.2.1, b1.2.2⟩
      · exact ⟨⟨n1.1, n1.2.1, n2.2.2⟩, b1.1, b1.2.1, b2.2.2⟩
      · exact ⟨⟨n1.1, n2.2.1, n1.2.2⟩, b1.1, b2.2.1, b1.2.2⟩
      · exact ⟨⟨n1.1, n2.2.1, n2.2.2⟩, b1.1, b2.2.1, b2.2.2⟩
      · exact ⟨⟨n2.1, n1.2.1, n1.2.2⟩, b2.1, b1.2.1, b1.2.2⟩
      · exact ⟨⟨n2.1, n1.2.1, n2.2.2⟩, b2.1, b1.2.1, b2.2.2⟩
      · exact ⟨⟨n2.1, n2.2.1, n1.2.2⟩, b2.1, b2.2.1, b1.2.2⟩
      · exact ⟨⟨n2.1, n2.2.1, n2.2.2⟩, b2.1, b2.2.1, b2.2.2⟩
    · intro ax h
      obtain ⟨x, y, z⟩ := normZ_axisLike
      simp only [BoundingBox3D.satAxes, List.mem_cons, List.not_mem_nil, or_false] at h
      rcases h with rfl | rfl | rfl <;> assumption
  | face f =>
    obtain ⟨ha, hb, hc⟩ := hc
    have conn_b : ∀ p q : Point3D F64, Bounded3 M p → Bounded3 M q → Bounded3 (3 * M) (conn p q) := fun p q hp hq =>
      (hq.sub hp (wy _ (by linarith only [M0]))).mono (by linarith only [M0])
    have hw : 2 * (3 * M * (3 * M)) ≤ 2 ^ (490 : ℤ) := by
      have e : (2:ℝ) ^ (490 : ℤ) = 2 ^ (90 : ℤ) * (2 ^ (200 : ℤ) * 2 ^ (200 : ℤ)) := by
        rw [← zpow_add₀ two_ne_zero, ← zpow_add₀ two_ne_zero]; norm_num
      have h1 := mul_le_mul hM' hM' M0.le (by positivity)
      have h2 := mul_le_mul (show (18:ℝ) ≤ 2 ^ (90 : ℤ) by norm_num) h1 (by positivity) (by positivity)
      rw [e]
      linarith only [h2]
    have hw2 : 2 * (2 * (3 * M)) ≤ 2 ^ (490 : ℤ) := by
      have : (2:ℝ) ^ (300 : ℤ) ≤ 2 ^ (490 : ℤ) := zpow_le_zpow_right₀ one_le_two (by norm_num)
      exact (show 2 * (2 * (3 * M)) ≤ 12 * M by linarith only [M0]).trans ((w 12 (by norm_num)).trans this)
    have hab := conn_b _ _ ha hb
    have hbc := conn_b _ _ hb hc
    have hca := conn_b _ _ hc ha
    obtain ⟨n, hn, an⟩ := newOrZ_cross hab hbc hw
    obtain ⟨e1, h1, a1⟩ := newOrZ_cross (AxisLike.bounded an) hab hw2
    obtain ⟨e2, h2, a2⟩ := newOrZ_cross (AxisLike.bounded an) hbc hw2
    obtain ⟨e3, h3, a3⟩ := newOrZ_cross (AxisLike.bounded an) hca hw2
    refine ⟨[f.a, f.b, f.c], [n, e1, e2, e3], ?_, by simp, ?_, ?_⟩
    · simp [Collider3D.satObject, TriFace3D.satAxes, TriFace3D.satPoints, hn, h1, h2, h3]
    · intro p hp
      refine Bounded3.mono (A := M) ?_ (by linarith only [M0])
      simp only [List.mem_cons, List.not_mem_nil, or_false] at hp
      rcases hp with rfl | rfl | rfl <;> assumption
    · intro ax h
      simp only [List.mem_cons, List.not_mem_nil, or_false] at h
      rcases h with rfl | rfl | rfl | rfl <;> assumption
  | box3 b =>
    obtain ⟨hc, hy, hz, hs⟩ := hc
    obtain ⟨n, hn, an⟩ := newOrZ_cross (AxisLike.bounded hz) (AxisLike.bounded hy)
      (le_trans (by norm_num) (show (2:ℝ) ^ (4 : ℤ) ≤ 2 ^ (490 : ℤ) from zpow_le_zpow_right₀ one_le_two (by norm_num)))
    have s1 := hs b.sizeX.val (by simp)
    have s2 := hs b.sizeY.val (by simp)
    have s3 := hs b.sizeZ.val (by simp)
    have d1 := Bounded3.smul hM hM' an s1.1 s1.2
    have d2 := Bounded3.smul hM hM' hy s2.1 s2.2
    have d3 := Bounded3.smul hM hM' hz s3.1 s3.2
    have c1 := hc.sub d1 (wy _ (by linarith only [M0]))
    have c2 := hc.add d1 (wy _ (by linarith only [M0]))
    have f1 := d2.sub d3 (wy _ (by linarith only [M0]))
    have f2 := d2.add d3 (wy _ (by linarith only [M0]))
    refine ⟨_, [n, b.yDir, b.zDir], by
      simp only [Collider3D.satObject, BoxUnaligned3D.satPoints, BoxUnaligned3D.satAxes, BoxUnaligned3D.dX, BoxUnaligned3D.xDir, hn,
        Option.bind_eq_bind, Option.bind_some, Option.pure_def]; rfl, by simp, ?_, ?_⟩
    · intro p hp
      simp only [List.mem_cons, List.not_mem_nil, or_false] at hp
      rcases hp with rfl | rfl | rfl | rfl | rfl | rfl | rfl | rfl
      · exact (c1.sub f1 (wy _ (by linarith only [M0]))).mono (by linarith only [M0])
      · exact (c1.sub f2 (wy _ (by linarith only [M0]))).mono (by linarith only [M0])
      · exact (c1.add f1 (wy _ (by linarith only [M0]))).mono (by linarith only [M0])
      · exact (c1.add f2 (wy _ (by linarith only [M0]))).mono (by linarith only [M0])
      · exact (c2.sub f1 (wy _ (by linarith only [M0]))).mono (by linarith only [M0])
      · exact (c2.sub f2 (wy _ (by linarith only [M0]))).mono (by linarith only [M0])
      · exact (c2.add f1 (wy _ (by linarith only [M0]))).mono (by linarith only [M0])
      · exact (c2.add f2 (wy _ (by linarith only [M0]))).mono (by linarith only [M0])
    · intro ax h
      simp only [List.mem_cons, List.not_mem_nil, or_false] at h
      rcases h with rfl | rfl | rfl <;> assumption

/-- C49 for doubles with rounding. Two colliders with finite data of magnitude at most `M`, not both axis
aligned boxes: the test never panics and is symmetric. If the solids spanned by the points the colliders
enumerate share a point after every translation by up to `2^-41 M` per coordinate, it reports a collision. If
one of the axes the colliders enumerate separates the points by more than `2^-43 M`, it reports none. -/
theorem c49_colliders_f64 (M : ℝ) (hM : 2 ^ (-1000 : ℤ) ≤ M) (hM' : M ≤ 2 ^ (200 : ℤ)) (a b : Collider3D F64)
    (ha : ColliderWithin M a) (hb : ColliderWithin M b) (h : ¬((∃ x, a = .aabb x) ∧ ∃ y, b = .aabb y)) :
    ∃ pa xa pb xb r, a.satObject = some (pa, xa) ∧ b.satObject = some (pb, xb) ∧
      a.collidesWith b = some r ∧ b.collidesWith a = some r ∧
      (DeepOverlap (pa.map Point3D.real) (pb.map Point3D.real) (2 ^ (-41 : ℤ) * M) → r = true) ∧
      ((∃ ax ∈ xa ++ xb, Gap (pa.map Point3D.real) (pb.map Point3D.real) ax.real (2 ^ (-43 : ℤ) * M) ∨
        Gap (pb.map Point3D.real) (pa.map Point3D.real) ax.real (2 ^ (-43 : ℤ) * M)) → r = false) := by
  obtain ⟨pa, xa, ea, na, wa, la⟩ := satObject_f64 M hM hM' a ha
  obtain ⟨pb, xb, eb, nb, wb, lb⟩ := satObject_f64 M hM hM' b hb
  have M0 : 0 < M := lt_of_lt_of_le (zpow_pos two_pos _) hM
  have hs : Collider3D.sat a b = some (Sat.collide pa xa pb xb) := by simp [Collider3D.sat, ea, eb]
  have e : a.collidesWith b = some (Sat.collide pa xa pb xb) := by
    rw [← hs]
    cases a <;> cases b <;> first | rfl | exact Collider3D.sat_swap _ _ | exact absurd ⟨⟨_, rfl⟩, _, rfl⟩ h
  have w8 : 8 * M ≤ 2 ^ (900 : ℤ) := by
    have : (2:ℝ) ^ (900 : ℤ) = 2 ^ (700 : ℤ) * 2 ^ (200 : ℤ) := by rw [← zpow_add₀ two_ne_zero]; norm_num
    rw [this]
    exact mul_le_mul (le_trans (by norm_num) (show (2:ℝ) ^ (3 : ℤ) ≤ 2 ^ (700 : ℤ) from zpow_le_zpow_right₀ one_le_two (by norm_num))) hM' M0.le (by positivity)
  have key := c49_sat_f64 (8 * M) (by linarith only [hM, M0]) w8 pa xa pb xb wa wb na nb (fun ax hx => by
    rcases List.mem_append.1 hx with hx | hx
    · exact la ax hx
    · exact lb ax hx)
  have k1 : (2:ℝ) ^ (-44 : ℤ) * (8 * M) = 2 ^ (-41 : ℤ) * M := by rw [← mul_assoc]; norm_num
  have k2 : (2:ℝ) ^ (-46 : ℤ) * (8 * M) = 2 ^ (-43 : ℤ) * M := by rw [← mul_assoc]; norm_num
  rw [k1, k2] at key
  exact ⟨pa, xa, pb, xb, _, ea, eb, e, by rw [← c49_symmetric a b h, e], key.1, key.2⟩


/-! examples -/

theorem seg_mem {S : Set (Fin 3 → ℝ)} (hS : Convex ℝ S) {lo hi t : ℝ} (h1 : lo ≤ t) (h2 : t ≤ hi) (u v w : Fin 3 → ℝ)
    (hu : u ∈ S) (hv : v ∈ S) (d : Fin 3) (hud : u d = lo) (hvd : v d = hi) (hwd : w d = t)
    (ho : ∀ k, k ≠ d → u k = w k ∧ v k = w k) : w ∈ S := by
  rcases eq_or_lt_of_le (h1.trans h2) with h | h
  · have : w = u := by
      funext k
      by_cases hk : k = d
      · subst hk; rw [hwd, hud]; linarith
      · exact (ho k hk).1.symm
    rw [this]; exact hu
  · have h0 : 0 < hi - lo := by linarith
    have hc := hS hu hv (show 0 ≤ (hi - t) / (hi - lo) from div_nonneg (by linarith) h0.le)
      (show 0 ≤ (t - lo) / (hi - lo) from div_nonneg (by linarith) h0.le) (by field_simp; ring)
    convert hc using 1
    funext k
    simp only [Pi.add_apply, Pi.smul_apply, smul_eq_mul]
    by_cases hk : k = d
    · subst hk; rw [hwd, hud, hvd]; field_simp; ring
    · rw [(ho k hk).1, (ho k hk).2]; field_simp; ring

/-- the points of an axis aligned box span the whole box -/
theorem solid_box (b : BoundingBox3D ℝ) (x : Fin 3 → ℝ) (h : ∀ d, at3 b.min d ≤ x d ∧ x d ≤ at3 b.max d) : x ∈ solid b.satPoints := by
  have hS : Convex ℝ (solid b.satPoints) := convex_convexHull ℝ _
  have corner : ∀ p ∈ b.satPoints, at3 p ∈ solid b.satPoints := fun p hp => subset_convexHull ℝ _ ⟨p, hp, rfl⟩
  rw [forall_fin3] at h
  simp only [at3_zero, at3_one, at3_two] at h
  obtain ⟨hx, hy, hz⟩ := h
  have e : x = at3 ⟨x 0, x 1, x 2⟩ := by
    funext d; revert d; rw [forall_fin3]; simp
  have z : ∀ p q : ℝ, (⟨p, q, b.min.z⟩ : Point3D ℝ) ∈ b.satPoints → (⟨p, q, b.max.z⟩ : Point3D ℝ) ∈ b.satPoints →
      at3 (⟨p, q, x 2⟩ : Point3D ℝ) ∈ solid b.satPoints := fun p q h1 h2 =>
    seg_mem hS hz.1 hz.2 _ _ _ (corner _ h1) (corner _ h2) 2 rfl rfl rfl (by
      rw [forall_fin3]; simp)
  have y : ∀ p : ℝ, at3 (⟨p, b.min.y, x 2⟩ : Point3D ℝ) ∈ solid b.satPoints → at3 (⟨p, b.max.y, x 2⟩ : Point3D ℝ) ∈ solid b.satPoints →
      at3 (⟨p, x 1, x 2⟩ : Point3D ℝ) ∈ solid b.satPoints := fun p h1 h2 =>
    seg_mem hS hy.1 hy.2 _ _ _ h1 h2 1 rfl rfl rfl (by
      rw [forall_fin3]; simp)
  rw [e]
  refine seg_mem hS hx.1 hx.2 (at3 ⟨b.min.x, x 1, x 2⟩) (at3 ⟨b.max.x, x 1, x 2⟩) _ ?_ ?_ 0 rfl rfl rfl (by rw [forall_fin3]; simp)
  · exact y _ (z _ _ (by simp [BoundingBox3D.satPoints]) (by simp [BoundingBox3D.satPoints]))
      (z _ _ (by simp [BoundingBox3D.satPoints]) (by simp [BoundingBox3D.satPoints]))
  · exact y _ (z _ _ (by simp [BoundingBox3D.satPoints]) (by simp [BoundingBox3D.satPoints]))
      (z _ _ (by simp [BoundingBox3D.satPoints]) (by simp [BoundingBox3D.satPoints]))

/-- the hypotheses of the theorem are met by a box and a triangle with one vertex in its centre: `M = 8` -/
example : ∃ (b : BoundingBox3D F64) (t : TriFace3D F64), b = ⟨⟨f 0, f 0, f 0⟩, ⟨f 2, f 2, f 2⟩⟩ ∧
    t = ⟨⟨f 1, f 1, f 1⟩, ⟨f 3, f 4, f 5⟩, ⟨f 7, f 3, f 8⟩⟩ ∧ ColliderWithin 8 (.aabb b) ∧ ColliderWithin 8 (.face t) ∧
    DeepOverlap (b.satPoints.map Point3D.real) (t.satPoints.map Point3D.real) (2 ^ (-41 : ℤ) * 8) := by
  have h0 := ex_num 0 false 0 (by decide +kernel)
  have h1 := ex_num 1 false 1 (by decide +kernel)
  have h2 := ex_num 2 false 2 (by decide +kernel)
  have h3 := ex_num 3 false 3 (by decide +kernel)
  have h4 := ex_num 4 false 4 (by decide +kernel)
  have h5 := ex_num 5 false 5 (by decide +kernel)
  have h7 := ex_num 7 false 7 (by decide +kernel)
  have h8 := ex_num 8 false 8 (by decide +kernel)
  refine ⟨_, _, rfl, rfl, ⟨⟨⟨h0.1, h0.1, h0.1⟩, ?_⟩, ⟨h2.1, h2.1, h2.1⟩, ?_⟩,
    ⟨⟨⟨h1.1, h1.1, h1.1⟩, ?_⟩, ⟨⟨h3.1, h4.1, h5.1⟩, ?_⟩, ⟨h7.1, h3.1, h8.1⟩, ?_⟩, ?_⟩
  · simp [forall_fin3, h0.2, val]
  · simp [forall_fin3, h2.2, val]; norm_num
  · simp [forall_fin3, h1.2, val]
  · simp [forall_fin3, h3.2, h4.2, h5.2, val]; norm_num
  · simp [forall_fin3, h3.2, h7.2, h8.2, val]; norm_num
  · intro v hv
    refine ⟨fun d => 1 - v d, ?_, ?_⟩
    · have hb := solid_box ⟨⟨0, 0, 0⟩, ⟨2, 2, 2⟩⟩ (fun d => 1 - v d) (fun d => by
        have h1 := abs_le.1 ((hv d).trans (show (2:ℝ) ^ (-41 : ℤ) * 8 ≤ 1 by norm_num))
        have h2 : at3 (⟨0, 0, 0⟩ : Point3D ℝ) d = 0 ∧ at3 (⟨2, 2, 2⟩ : Point3D ℝ) d = 2 := by
          revert d; rw [forall_fin3]; simp
        rw [h2.1, h2.2]
        constructor <;> linarith only [h1.1, h1.2])
      have e : (BoundingBox3D.satPoints ⟨⟨f 0, f 0, f 0⟩, ⟨f 2, f 2, f 2⟩⟩).map Point3D.real = BoundingBox3D.satPoints ⟨⟨0, 0, 0⟩, ⟨2, 2, 2⟩⟩ := by
        simp [BoundingBox3D.satPoints, Point3D.real, h0.2, h2.2, val]
      rw [e]
      exact hb
    · refine subset_convexHull ℝ _ ⟨⟨1, 1, 1⟩, ?_, ?_⟩
      · simp [TriFace3D.satPoints, Point3D.real, h1.2, val]
      · funext d
        revert d
        rw [forall_fin3]
        simp

/-- C49 fails for doubles without a margin: the first vertex of the second triangle is exactly the middle of an
edge of the first, and yet no collision is reported. -/
theorem c49_violated_rounding : ∃ s t : TriFace3D F64,
    s = ⟨⟨f (-1), f 4, f (-4)⟩, ⟨f 2, f 1, f 2⟩, ⟨f (-4), f 0, f (-2)⟩⟩ ∧
    t = ⟨⟨f (1/2), f (5/2), f (-1)⟩, ⟨f (-1), f (-4), f 0⟩, ⟨f (-3), f (-3), f 0⟩⟩ ∧
    TriFace3D.new s.a s.b s.c = .ok s ∧ TriFace3D.new t.a t.b t.c = .ok t ∧
    (Collider3D.face s).collidesWith (.face t) = some false ∧
    ∃ x, x ∈ solid (s.satPoints.map Point3D.real) ∧ x ∈ solid (t.satPoints.map Point3D.real) := by
  refine ⟨_, _, rfl, rfl, by decide +kernel, by decide +kernel, by decide +kernel, ?_⟩
  have h1 := ex_num (-1) true 1 (by decide +kernel)
  have h4 := ex_num 4 false 4 (by decide +kernel)
  have h4' := ex_num (-4) true 4 (by decide +kernel)
  have h2 := ex_num 2 false 2 (by decide +kernel)
  have h1' := ex_num 1 false 1 (by decide +kernel)
  have h05 := ex_num (1/2) false (1/2) (by decide +kernel)
  have h25 := ex_num (5/2) false (5/2) (by decide +kernel)
  refine ⟨at3 (Point3D.real ⟨f (1/2), f (5/2), f (-1)⟩), ?_, subset_convexHull ℝ _ ⟨_, by simp [TriFace3D.satPoints], rfl⟩⟩
  have hS : Convex ℝ (solid ([⟨f (-1), f 4, f (-4)⟩, ⟨f 2, f 1, f 2⟩, ⟨f (-4), f 0, f (-2)⟩].map Point3D.real)) := convex_convexHull ℝ _
  have a1 := hS (subset_convexHull ℝ _ ⟨Point3D.real ⟨f (-1), f 4, f (-4)⟩, by simp, rfl⟩)
    (subset_convexHull ℝ _ ⟨Point3D.real ⟨f 2, f 1, f 2⟩, by simp, rfl⟩) (show (0:ℝ) ≤ 1/2 by norm_num) (show (0:ℝ) ≤ 1/2 by norm_num) (by norm_num)
  rw [show TriFace3D.satPoints ⟨⟨f (-1), f 4, f (-4)⟩, ⟨f 2, f 1, f 2⟩, ⟨f (-4), f 0, f (-2)⟩⟩ = [⟨f (-1), f 4, f (-4)⟩, ⟨f 2, f 1, f 2⟩, ⟨f (-4), f 0, f (-2)⟩] from rfl]
  convert a1 using 1
  funext d
  revert d
  rw [forall_fin3]
  simp [Point3D.real, h1.2, h4.2, h4'.2, h2.2, h1'.2, h25.2, val]
  norm_num
  rw [h05.2]
  norm_num [val]

end R3D

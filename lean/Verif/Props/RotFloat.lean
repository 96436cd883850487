import Verif.Props.MatrixFloat
import Verif.Props.Interpolate
import Verif.Props.BoxFloat
import Verif.Props.SumFloat
import Verif.Lemmas.Triangle
/-!
# C104: rotations and circles of doubles

The sine and the cosine of the platform are a parameter (`Trig F64`); what is assumed of them is `GoodTrig`, i.e. that they are
off by at most `2^-52` (two units in the last place of numbers near one).
-/
namespace R3D
open Scalar LawfulScalar Spec F64

/-- sine and cosine of finite numbers are off by at most `2^-52` -/
def Spec.GoodTrig (T : Trig F64) : Prop :=
  ∀ x : F64, F64.Num x → F64.Num (T.sin x) ∧ |toR (T.sin x) - Real.sin (toR x)| ≤ 2 ^ (-52 : ℤ) ∧
    F64.Num (T.cos x) ∧ |toR (T.cos x) - Real.cos (toR x)| ≤ 2 ^ (-52 : ℤ)

namespace F64

theorem two52 : (2:ℝ) ^ (-52 : ℤ) = 2 * uu := by unfold uu; rw [u_small]; norm_num

theorem appr_one {a : F64} {x : ℝ} (ha : Num a) (hx : |x| ≤ 1) (h : |toR a - x| ≤ 2 ^ (-52 : ℤ)) : Appr a x 1 2 0 := by
  refine ⟨ha, hx, le_rfl, h.trans ?_⟩
  rw [two52]
  nlinarith [uu_pos]

theorem _root_.R3D.Spec.GoodTrig.appr {T : Trig F64} (h : GoodTrig T) {x : F64} (hx : Num x) :
    Appr (T.sin x) (Real.sin (toR x)) 1 2 0 ∧ Appr (T.cos x) (Real.cos (toR x)) 1 2 0 :=
  ⟨appr_one (h x hx).1 (Real.abs_sin_le_one _) (h x hx).2.1, appr_one (h x hx).2.2.1 (Real.abs_cos_le_one _) (h x hx).2.2.2⟩

theorem pow_uu_two {k : ℕ} (hk : k ≤ 1000) : (1 + uu) ^ k ≤ 2 := by
  refine (pow_uu_mono hk).trans ?_
  have : (1 + uu) ^ 1000 ≤ 1 + 2 * (1000:ℕ) * uu := pow_uu_le (by unfold uu; rw [u_small]; norm_num)
  refine this.trans ?_
  unfold uu; rw [u_small]; norm_num

theorem big_any {S : ℝ} (h : S ≤ 2 ^ (1000 : ℤ)) {k : ℕ} (hk : k ≤ 1000) {e : ℝ} (he : e ≤ 100) :
    (1 + uu) ^ k * S + e ≤ 2 ^ (1023 : ℤ) := by
  have h1 := pow_uu_two hk
  have h0 := one_le_pow_uu k
  have h2 : (2:ℝ) ^ (1023 : ℤ) = 2 ^ (23 : ℤ) * 2 ^ (1000 : ℤ) := by rw [← zpow_add₀ two_ne_zero]; norm_num
  have h3 : (1:ℝ) ≤ 2 ^ (1000 : ℤ) := one_le_zpow₀ one_le_two (by norm_num)
  have h4 : (1 + uu) ^ k * S ≤ (1 + uu) ^ k * 2 ^ (1000 : ℤ) := mul_le_mul_of_nonneg_left h (by linarith)
  have h5 : (1 + uu) ^ k * 2 ^ (1000 : ℤ) ≤ 2 * 2 ^ (1000 : ℤ) := mul_le_mul_of_nonneg_right h1 (zero_le_one.trans h3)
  have h6 : (2:ℝ) ^ (23 : ℤ) = 8388608 := by norm_num
  rw [h2, h6]
  generalize (2:ℝ) ^ (1000 : ℤ) = T at *
  linarith only [h3, h4, h5, he]

/-- a coordinate times a factor of at most two -/
theorem Appr.scale {a b : F64} {y B f : ℝ} {l : ℕ} (ha : Num a) (hb : Appr b y B l f) (hB : B ≤ 2) (hl : l ≤ 900) (hf : f ≤ 1)
    (h : |toR a| ≤ 2 ^ (990 : ℤ)) :
    Appr (a * b) (toR a * y) (|toR a| * B) (l + 1) (2 * (|toR a| * f) + 2 ^ (-1075 : ℤ)) := by
  have hp := pow_uu_two (hl.trans (by norm_num) : l ≤ 1000)
  have h1 := one_le_pow_uu l
  have hB0 := hb.pos
  have hf0 := hb.nonneg
  refine ((Appr.exact ha le_rfl).mul hb ?_).mono (by omega) ?_
  · rw [pow_zero, one_mul, add_zero]
    have : (1 + uu) ^ l * B + f ≤ 5 := by nlinarith
    calc |toR a| * ((1 + uu) ^ l * B + f) ≤ 2 ^ (990 : ℤ) * 5 := mul_le_mul h this (by positivity) (by positivity)
      _ ≤ 2 ^ (990 : ℤ) * 2 ^ (33 : ℤ) := mul_le_mul_of_nonneg_left (by norm_num) (by positivity)
      _ = 2 ^ (1023 : ℤ) := by rw [← zpow_add₀ two_ne_zero]; norm_num
  · simp

theorem pow990 {x : ℝ} (h : x ≤ 2 ^ (990 : ℤ)) : 100 * x ≤ 2 ^ (1000 : ℤ) := by
  have e : (2:ℝ) ^ (1000 : ℤ) = 1024 * 2 ^ (990 : ℤ) := by
    rw [show (1000:ℤ) = 10 + 990 by norm_num, zpow_add₀ two_ne_zero]; norm_num
  have : (0:ℝ) < 2 ^ (990 : ℤ) := by positivity
  rw [e]; clear e; generalize (2:ℝ) ^ (990 : ℤ) = T at *; linarith

theorem eta74 : (2:ℝ) ^ (-1075 : ℤ) = 2 ^ (-1074 : ℤ) / 2 := by
  rw [show (-1075:ℤ) = -1074 + -1 by norm_num, zpow_add₀ two_ne_zero, zpow_neg_one, div_eq_mul_inv]

/-- a rotated coordinate -/
theorem rot_coord {p q c s : F64} {C S : ℝ} (hp : Num p) (hq : Num q) (hc : Appr c C 1 2 0) (hs : Appr s S 1 2 0)
    (h1 : |toR p| ≤ 2 ^ (990 : ℤ)) (h2 : |toR q| ≤ 2 ^ (990 : ℤ)) :
    Appr (p * c + q * s) (toR p * C + toR q * S) (|toR p| + |toR q|) 4 (2 * 2 ^ (-1074 : ℤ)) := by
  have a := (Appr.scale hp hc (by norm_num) (by norm_num) (by norm_num) h1)
  have b := (Appr.scale hq hs (by norm_num) (by norm_num) (by norm_num) h2)
  simp only [mul_zero, zero_add, mul_one] at a b
  have h := a.add b (big_any (by
    have := pow990 h1; have := pow990 h2; have := abs_nonneg (toR p); have := abs_nonneg (toR q)
    generalize (2:ℝ) ^ (1000 : ℤ) = T at *; clear a b h1 h2; linarith) (by norm_num)
    (by rw [eta74]; linarith [eta_le_one]))
  refine h.mono le_rfl ?_
  rw [eta74]; linarith


theorem lit0_appr (k : ℕ) : Appr (Scalar.lit 0 : F64) 0 0 k 0 := by
  have h := lit_nat (k := 0) (by norm_num)
  simp only [Nat.cast_zero] at h
  have := (Appr.exact h.1 (A := 0) (by rw [h.2]; simp)).mono (Nat.zero_le k) le_rfl
  rwa [h.2] at this
theorem lit1_appr (k : ℕ) : Appr (Scalar.lit 1 : F64) 1 1 k 0 := by
  have h := lit_nat (k := 1) (by norm_num)
  simp only [Nat.cast_one] at h
  have := (Appr.exact h.1 (A := 1) (by rw [h.2]; simp)).mono (Nat.zero_le k) le_rfl
  rwa [h.2] at this

theorem err_of {c : F64} {x A e : ℝ} {k : ℕ} (h : Appr c x A k e) {n : ℕ} (hk : k ≤ 1000) (hn : 2 * k * uu ≤ n * uu) :
    |toR c - x| ≤ n * uu * A + e := by
  refine h.err.trans (add_le_add (mul_le_mul_of_nonneg_right ?_ h.pos) le_rfl)
  have := pow_uu_le (k := k) (by
    have : (k:ℝ) ≤ 1000 := by exact_mod_cast hk
    have h2 : uu ≤ 1 / 2000 := by unfold uu; rw [u_small]; norm_num
    nlinarith [uu_pos])
  linarith

theorem rot_coord0 {p q c s : F64} {C S : ℝ} (hp : Num p) (hq : Num q) (hc : Appr c C 1 2 0) (hs : Appr s S 1 2 0)
    (h1 : |toR p| ≤ 2 ^ (990 : ℤ)) (h2 : |toR q| ≤ 2 ^ (990 : ℤ)) :
    Num (p * c + q * s + Scalar.lit 0) ∧ |toR (p * c + q * s + Scalar.lit 0) - (toR p * C + toR q * S)| ≤
      2 ^ (-49 : ℤ) * (|toR p| + |toR q|) + 2 ^ (-1070 : ℤ) := by
  have a := rot_coord hp hq hc hs h1 h2
  have b := a.add (lit0_appr 4) (big_any (by
    have := pow990 h1; have := pow990 h2; have := abs_nonneg (toR p); have := abs_nonneg (toR q)
    generalize (2:ℝ) ^ (1000 : ℤ) = T at *; clear a h1 h2; linarith) (by norm_num) (by linarith [eta_le_one]))
  refine ⟨b.num, ?_⟩
  have := err_of b (n := 10) (by norm_num) (by push_cast; linarith [uu_pos])
  rw [add_zero, add_zero, add_zero] at this
  have e1 : (2:ℝ) ^ (-49 : ℤ) = 16 * uu := by unfold uu; rw [u_small]; norm_num
  have e2 : (2:ℝ) ^ (-1070 : ℤ) = 16 * 2 ^ (-1074 : ℤ) := by
    rw [show (-1070 : ℤ) = 4 + -1074 by norm_num, zpow_add₀ two_ne_zero]; norm_num
  rw [e1, e2]
  refine this.trans (add_le_add ?_ (by linarith [eta_pos]))
  have h := add_nonneg (abs_nonneg (toR p)) (abs_nonneg (toR q))
  have := mul_nonneg uu_pos.le h
  push_cast
  linarith

end F64

/-! ### the plane -/

/-- the rotation of the plane by the angle `t` -/
noncomputable def Spec.rot2 (t : ℝ) (v : Fin 2 → ℝ) : Fin 2 → ℝ :=
  ![v 0 * Real.cos t - v 1 * Real.sin t, v 0 * Real.sin t + v 1 * Real.cos t]

theorem rot2_isometry (t : ℝ) (v w : Fin 2 → ℝ) : Spec.sqrDist (rot2 t v) (rot2 t w) = Spec.sqrDist v w := by
  have h := Real.sin_sq_add_cos_sq t
  simp only [Spec.sqrDist, Fin.sum_univ_two, rot2, Matrix.cons_val_zero, Matrix.cons_val_one]
  linear_combination ((v 0 - w 0) ^ 2 + (v 1 - w 1) ^ 2) * h

/-- C104: rotating a point of doubles by a matrix: every coordinate is off by at most `2^-49` of the size of the point -/
theorem c104_rotation_2d [T : Trig F64] (hT : GoodTrig T) (p : Point2D F64) (a : F64) (hp : p.Num) (ha : F64.Num a)
    (hb : ∀ d, |toR (at2 p d)| ≤ 2 ^ (990 : ℤ)) (d : Fin 2) :
    F64.Num (at2 (p.transformed (.rotation a)) d) ∧
    |toR (at2 (p.transformed (.rotation a)) d) - rot2 (toR a) (at2 p.real) d| ≤
      2 ^ (-49 : ℤ) * (|toR p.x| + |toR p.y|) + 2 ^ (-1070 : ℤ) := by
  obtain ⟨hs, hc⟩ := hT.appr ha
  rw [Fin.forall_fin_two] at hb
  have h1 := rot_coord0 hp.1 hp.2 hc hs.neg hb.1 hb.2
  have h2 := rot_coord0 hp.1 hp.2 hs hc hb.1 hb.2
  rw [mul_neg, ← sub_eq_add_neg] at h1
  revert d
  rw [Fin.forall_fin_two]
  exact ⟨h1, h2⟩

/-- the computed distance of computed points that are near exact ones -/
theorem dist_near_2d {p q : Point2D F64} {P Q : Fin 2 → ℝ} {ε δ S : ℝ} (hp : p.Num) (hq : q.Num) (hε : ∀ d, |toR (at2 p d) - P d| ≤ ε)
    (hδ : ∀ d, |toR (at2 q d) - Q d| ≤ δ) (hS : √(Spec.sqrDist P Q) ≤ S) (h : S + 2 * (ε + δ) ≤ 2 ^ (511 : ℤ)) :
    ∃ D, p.dist q = .fin false D ∧ |(D : ℝ) - √(Spec.sqrDist P Q)| ≤ 2 ^ (-50 : ℤ) * S + 3 * (ε + δ) + 2 ^ (-536 : ℤ) := by
  have ep : ∀ d, at2 p.real d = toR (at2 p d) := by rw [Fin.forall_fin_two]; exact ⟨rfl, rfl⟩
  have eq : ∀ d, at2 q.real d = toR (at2 q d) := by rw [Fin.forall_fin_two]; exact ⟨rfl, rfl⟩
  have t := sqrDist_tri (at2 p.real) (at2 q.real) P Q
  simp only [Fin.sum_univ_two, ep, eq] at t
  have t' : |√(Spec.sqrDist (at2 p.real) (at2 q.real)) - √(Spec.sqrDist P Q)| ≤ 2 * (ε + δ) := by
    linarith [hε 0, hε 1, hδ 0, hδ 1]
  have hle : √(Spec.sqrDist (at2 p.real) (at2 q.real)) ≤ S + 2 * (ε + δ) := by
    have := (abs_le.1 t').2; linarith
  have hd : ∀ d, |at2 p.real d - at2 q.real d| ≤ 2 ^ (511 : ℤ) := by
    intro d
    refine le_trans ?_ (hle.trans h)
    refine Real.abs_le_sqrt ?_
    exact Finset.single_le_sum (f := fun i => (at2 p.real i - at2 q.real i) ^ 2) (fun i _ => sq_nonneg _) (Finset.mem_univ d)
  obtain ⟨D, hD⟩ := c92_finite_2d p q hp hq hd
  refine ⟨D, hD, ?_⟩
  have ha := c92_dist_2d p q hp hq _ _ hD
  unfold Accurate at ha
  have := abs_sub_le (D : ℝ) (√(Spec.sqrDist (at2 p.real) (at2 q.real))) (√(Spec.sqrDist P Q))
  have h50 : (2:ℝ) ^ (-50 : ℤ) * √(Spec.sqrDist (at2 p.real) (at2 q.real)) ≤ 2 ^ (-50 : ℤ) * S + (ε + δ) := by
    have h1 := mul_le_mul_of_nonneg_left hle (show (0:ℝ) ≤ 2 ^ (-50 : ℤ) by positivity)
    have h0 : 0 ≤ ε + δ := add_nonneg ((abs_nonneg _).trans (hε 0)) ((abs_nonneg _).trans (hδ 0))
    have h2 : (2:ℝ) ^ (-50 : ℤ) ≤ 1 / 2 := by norm_num
    have h3 := mul_le_mul_of_nonneg_right h2 h0
    clear ha this; generalize (2:ℝ) ^ (-50 : ℤ) = κ at *; linarith only [h1, h3]
  generalize (2:ℝ) ^ (-536 : ℤ) = η at *
  generalize (2:ℝ) ^ (-50 : ℤ) = κ at *
  linarith

theorem dist_near_3d {p q : Point3D F64} {P Q : Fin 3 → ℝ} {ε δ S : ℝ} (hp : p.Num) (hq : q.Num) (hε : ∀ d, |toR (at3 p d) - P d| ≤ ε)
    (hδ : ∀ d, |toR (at3 q d) - Q d| ≤ δ) (hS : √(Spec.sqrDist P Q) ≤ S) (h : S + 3 * (ε + δ) ≤ 2 ^ (511 : ℤ)) :
    ∃ D, p.dist q = .fin false D ∧ |(D : ℝ) - √(Spec.sqrDist P Q)| ≤ 2 ^ (-50 : ℤ) * S + 4 * (ε + δ) + 2 ^ (-536 : ℤ) := by
  have ep : ∀ d, at3 p.real d = toR (at3 p d) := by rw [forall_fin3]; exact ⟨rfl, rfl, rfl⟩
  have eq : ∀ d, at3 q.real d = toR (at3 q d) := by rw [forall_fin3]; exact ⟨rfl, rfl, rfl⟩
  have t := sqrDist_tri (at3 p.real) (at3 q.real) P Q
  simp only [Fin.sum_univ_three, ep, eq] at t
  have t' : |√(Spec.sqrDist (at3 p.real) (at3 q.real)) - √(Spec.sqrDist P Q)| ≤ 3 * (ε + δ) := by
    linarith [hε 0, hε 1, hε 2, hδ 0, hδ 1, hδ 2]
  have hle : √(Spec.sqrDist (at3 p.real) (at3 q.real)) ≤ S + 3 * (ε + δ) := by
    have := (abs_le.1 t').2; linarith
  have hd : ∀ d, |at3 p.real d - at3 q.real d| ≤ 2 ^ (511 : ℤ) := by
    intro d
    refine le_trans ?_ (hle.trans h)
    refine Real.abs_le_sqrt ?_
    exact Finset.single_le_sum (f := fun i => (at3 p.real i - at3 q.real i) ^ 2) (fun i _ => sq_nonneg _) (Finset.mem_univ d)
  obtain ⟨D, hD⟩ := c92_finite_3d p q hp hq hd
  refine ⟨D, hD, ?_⟩
  have ha := c92_dist_3d p q hp hq _ _ hD
  unfold Accurate at ha
  have := abs_sub_le (D : ℝ) (√(Spec.sqrDist (at3 p.real) (at3 q.real))) (√(Spec.sqrDist P Q))
  have h50 : (2:ℝ) ^ (-50 : ℤ) * √(Spec.sqrDist (at3 p.real) (at3 q.real)) ≤ 2 ^ (-50 : ℤ) * S + (ε + δ) := by
    have h1 := mul_le_mul_of_nonneg_left hle (show (0:ℝ) ≤ 2 ^ (-50 : ℤ) by positivity)
    have h0 : 0 ≤ ε + δ := add_nonneg ((abs_nonneg _).trans (hε 0)) ((abs_nonneg _).trans (hδ 0))
    have h2 : (2:ℝ) ^ (-50 : ℤ) ≤ 1 / 3 := by norm_num
    have h3 := mul_le_mul_of_nonneg_right h2 h0
    clear ha this; generalize (2:ℝ) ^ (-50 : ℤ) = κ at *; linarith only [h1, h3]
  generalize (2:ℝ) ^ (-536 : ℤ) = η at *
  generalize (2:ℝ) ^ (-50 : ℤ) = κ at *
  linarith

theorem sqrDist_zero_le {n : ℕ} (P Q : Fin n → ℝ) : √(Spec.sqrDist P Q) ≤ ∑ d, |P d| + ∑ d, |Q d| := by
  have := sqrDist_tri P Q 0 0
  have e : Spec.sqrDist (0 : Fin n → ℝ) 0 = 0 := by simp [Spec.sqrDist]
  rw [e, Real.sqrt_zero, sub_zero, abs_of_nonneg (Real.sqrt_nonneg _)] at this
  simpa using this

theorem tiny_536 : 16 * (2:ℝ) ^ (-1058 : ℤ) ≤ 2 ^ (-536 : ℤ) := by
  have : (2:ℝ) ^ (-1054 : ℤ) = 16 * 2 ^ (-1058 : ℤ) := by
    rw [show (-1054 : ℤ) = 4 + -1058 by norm_num, zpow_add₀ two_ne_zero]; norm_num
  rw [← this]
  exact zpow_le_zpow_right₀ one_le_two (by norm_num)

theorem two535 : (2:ℝ) ^ (-535 : ℤ) = 2 * 2 ^ (-536 : ℤ) := by
  rw [show (-535 : ℤ) = 1 + -536 by norm_num, zpow_add₀ two_ne_zero]; norm_num

theorem up_511 {S : ℝ} (h : S ≤ 2 ^ (500 : ℤ)) {t : ℝ} (ht : t ≤ 1) : 2 * S + t ≤ 2 ^ (511 : ℤ) := by
  have e : (2:ℝ) ^ (511 : ℤ) = 2048 * 2 ^ (500 : ℤ) := by
    rw [show (511:ℤ) = 11 + 500 by norm_num, zpow_add₀ two_ne_zero]; norm_num
  have : (1:ℝ) ≤ 2 ^ (500 : ℤ) := one_le_zpow₀ one_le_two (by norm_num)
  rw [e]; clear e; generalize (2:ℝ) ^ (500 : ℤ) = T at *; linarith

/-- C104: the computed distance of two rotated points is the exact distance of the points up to `2^-46` of their size -/
theorem c104_distance_2d [T : Trig F64] (hT : GoodTrig T) (p q : Point2D F64) (a : F64) (hp : p.Num) (hq : q.Num) (ha : F64.Num a)
    (hb : |toR p.x| + |toR p.y| + |toR q.x| + |toR q.y| ≤ 2 ^ (500 : ℤ)) :
    ∃ D, (p.transformed (.rotation a)).dist (q.transformed (.rotation a)) = .fin false D ∧
      |(D : ℝ) - √(Spec.sqrDist (at2 p.real) (at2 q.real))| ≤
        2 ^ (-46 : ℤ) * (|toR p.x| + |toR p.y| + |toR q.x| + |toR q.y|) + 2 ^ (-535 : ℤ) := by
  have n1 := abs_nonneg (toR p.x); have n2 := abs_nonneg (toR p.y); have n3 := abs_nonneg (toR q.x); have n4 := abs_nonneg (toR q.y)
  have h990 : (2:ℝ) ^ (500 : ℤ) ≤ 2 ^ (990 : ℤ) := zpow_le_zpow_right₀ one_le_two (by norm_num)
  have bp : ∀ d, |toR (at2 p d)| ≤ 2 ^ (990 : ℤ) := by
    rw [Fin.forall_fin_two]; constructor <;> refine le_trans ?_ (hb.trans h990) <;> simp only [at2_zero, at2_one] <;> linarith
  have bq : ∀ d, |toR (at2 q d)| ≤ 2 ^ (990 : ℤ) := by
    rw [Fin.forall_fin_two]; constructor <;> refine le_trans ?_ (hb.trans h990) <;> simp only [at2_zero, at2_one] <;> linarith
  have rp := c104_rotation_2d hT p a hp ha bp
  have rq := c104_rotation_2d hT q a hq ha bq
  have hS : √(Spec.sqrDist (at2 p.real) (at2 q.real)) ≤ |toR p.x| + |toR p.y| + (|toR q.x| + |toR q.y|) := by
    have := sqrDist_zero_le (at2 p.real) (at2 q.real)
    simp only [Fin.sum_univ_two] at this
    exact this
  have e := rot2_isometry (toR a) (at2 p.real) (at2 q.real)
  rw [← e]
  rw [← e] at hS
  clear h990 bp bq
  generalize hSS : |toR p.x| + |toR p.y| + |toR q.x| + |toR q.y| = S at hb ⊢
  have t70 : (2:ℝ) ^ (-1070 : ℤ) ≤ 2 ^ (-1058 : ℤ) := zpow_le_zpow_right₀ one_le_two (by norm_num)
  have t58 := tiny_536
  have t1 : (2:ℝ) ^ (-536 : ℤ) ≤ 1 := zpow_le_one_of_nonpos₀ one_le_two (by norm_num)
  have k49 : (2:ℝ) ^ (-49 : ℤ) = 1 / 2 ^ 49 := by norm_num
  have k46 : (2:ℝ) ^ (-46 : ℤ) = 1 / 2 ^ 46 := by norm_num
  have k50 : (2:ℝ) ^ (-50 : ℤ) = 1 / 2 ^ 50 := by norm_num
  have up := up_511 hb (t := 4 * (2:ℝ) ^ (-1070 : ℤ)) (by linarith)
  have p70 : (0:ℝ) < 2 ^ (-1070 : ℤ) := by positivity
  obtain ⟨D, hD, he⟩ := dist_near_2d ⟨(rp 0).1, (rp 1).1⟩ ⟨(rq 0).1, (rq 1).1⟩ (fun d => (rp d).2) (fun d => (rq d).2)
    (S := S) (by rw [← hSS]; linarith) (by
      refine le_trans ?_ up
      rw [k49]; clear up; generalize (2:ℝ) ^ (-1070 : ℤ) = η at *; linarith)
  refine ⟨D, hD, he.trans ?_⟩
  rw [k49, k50, k46, two535]
  clear up
  generalize (2:ℝ) ^ (-1070 : ℤ) = η at *
  generalize (2:ℝ) ^ (-1058 : ℤ) = η' at *
  generalize (2:ℝ) ^ (-536 : ℤ) = θ at *
  linarith

/-- C104: `rotate` of `IsEditable2D`, i.e. the rotation about a point -/
theorem c104_rotate [T : Trig F64] (hT : GoodTrig T) (p c : Point2D F64) (a : F64) (hp : p.Num) (hc : c.Num) (ha : F64.Num a)
    (hb : ∀ d, |toR (at2 p d)| ≤ 2 ^ (980 : ℤ) ∧ |toR (at2 c d)| ≤ 2 ^ (980 : ℤ)) (d : Fin 2) :
    F64.Num (at2 (p.rotate a c) d) ∧
    |toR (at2 (p.rotate a c) d) - (toR (at2 c d) + rot2 (toR a) (at2 p.real - at2 c.real) d)| ≤
      2 ^ (-49 : ℤ) * (|toR p.x| + |toR p.y| + 2 * (|toR c.x| + |toR c.y|)) + 2 ^ (-1070 : ℤ) := by
  obtain ⟨hs, hk⟩ := hT.appr ha
  rw [Fin.forall_fin_two] at hb
  simp only [at2_zero, at2_one] at hb
  obtain ⟨⟨b1, b2⟩, b3, b4⟩ := hb
  have e990 : (2:ℝ) ^ (990 : ℤ) = 1024 * 2 ^ (980 : ℤ) := by
    rw [show (990:ℤ) = 10 + 980 by norm_num, zpow_add₀ two_ne_zero]; norm_num
  have p980 : (0:ℝ) < 2 ^ (980 : ℤ) := by positivity
  have n1 := abs_nonneg (toR p.x); have n2 := abs_nonneg (toR p.y); have n3 := abs_nonneg (toR c.x); have n4 := abs_nonneg (toR c.y)
  have g : ∀ {x : ℝ}, x ≤ 16 * 2 ^ (980 : ℤ) → 4 * x ≤ 2 ^ (990 : ℤ) := fun h => by
    rw [e990]; clear e990 b1 b2 b3 b4; generalize (2:ℝ) ^ (980 : ℤ) = U at *; linarith
  have tot : |toR p.x| + |toR p.y| + 2 * (|toR c.x| + |toR c.y|) ≤ 16 * 2 ^ (980 : ℤ) := by
    clear e990 g; generalize (2:ℝ) ^ (980 : ℤ) = U at *; linarith
  have tot' := g tot
  clear g tot e990 p980
  have tot2 := pow990 tot'
  clear b1 b2 b3 b4
  -- differences
  have sx := (Appr.exact hp.1 le_rfl).sub (Appr.exact hc.1 le_rfl) (big_any (by
    generalize (2:ℝ) ^ (1000 : ℤ) = U at *; clear tot'; linarith) (by norm_num) (by norm_num))
  have sy := (Appr.exact hp.2 le_rfl).sub (Appr.exact hc.2 le_rfl) (big_any (by
    generalize (2:ℝ) ^ (1000 : ℤ) = U at *; clear tot'; linarith) (by norm_num) (by norm_num))
  simp only [add_zero, mul_zero] at sx sy
  -- products
  have prod : ∀ {t x : F64} {X Y A : ℝ}, Appr t X 1 2 0 → Appr x Y A (0 + 1) 0 → A ≤ 2 ^ (1000 : ℤ) →
      Appr (t * x) (X * Y) A 4 (2 ^ (-1075 : ℤ)) := by
    intro t x X Y A h1 h2 h3
    have := h1.mul h2 (by
      have l1 := pow_uu_two (k := 2) (by norm_num)
      have l2 := pow_uu_two (k := 0 + 1) (by norm_num)
      have l3 := one_le_pow_uu 2
      have l4 := one_le_pow_uu (0 + 1)
      have hA := h2.pos
      have : (2:ℝ) ^ (1023 : ℤ) = 2 ^ (23 : ℤ) * 2 ^ (1000 : ℤ) := by rw [← zpow_add₀ two_ne_zero]; norm_num
      rw [this, add_zero, add_zero, mul_one]
      have k : (1 + uu) ^ 2 * ((1 + uu) ^ (0 + 1) * A) ≤ 2 * (2 * A) :=
        mul_le_mul l1 (mul_le_mul_of_nonneg_right l2 hA) (by positivity) (by norm_num)
      have k2 : (2:ℝ) ^ (23 : ℤ) = 8388608 := by norm_num
      rw [k2]
      clear this k2
      generalize (2:ℝ) ^ (1000 : ℤ) = U at *
      linarith)
    simp only [mul_zero, zero_mul, add_zero, zero_add, one_mul] at this
    exact this
  have cx := prod hk sx (by generalize (2:ℝ) ^ (1000 : ℤ) = U at *; clear tot'; linarith)
  have cy := prod hk sy (by generalize (2:ℝ) ^ (1000 : ℤ) = U at *; clear tot'; linarith)
  have wx := prod hs sx (by generalize (2:ℝ) ^ (1000 : ℤ) = U at *; clear tot'; linarith)
  have wy := prod hs sy (by generalize (2:ℝ) ^ (1000 : ℤ) = U at *; clear tot'; linarith)
  have cex := (Appr.exact hc.1 le_rfl).mono (l := 4) (by norm_num) le_rfl
  have cey := (Appr.exact hc.2 le_rfl).mono (l := 4) (by norm_num) le_rfl
  have small : (2:ℝ) ^ (-1075 : ℤ) ≤ 1 := zpow_le_one_of_nonpos₀ one_le_two (by norm_num)
  have h75 : (0:ℝ) < 2 ^ (-1075 : ℤ) := by positivity
  have fx := cex.add cx (big_any (by generalize (2:ℝ) ^ (1000 : ℤ) = U at *; clear tot' cx cy wx wy; linarith) (by norm_num) (by linarith))
  have fy := cey.add wx (big_any (by generalize (2:ℝ) ^ (1000 : ℤ) = U at *; clear tot' cx cy wx wy; linarith) (by norm_num) (by linarith))
  have gx := fx.sub (wy.mono (l := 4 + 1) (by norm_num) le_rfl) (big_any (by
    generalize (2:ℝ) ^ (1000 : ℤ) = U at *; clear tot' cx cy wx wy fx fy; linarith) (by norm_num) (by linarith))
  have gy := fy.add (cy.mono (l := 4 + 1) (by norm_num) le_rfl) (big_any (by
    generalize (2:ℝ) ^ (1000 : ℤ) = U at *; clear tot' cx cy wx wy fx fy; linarith) (by norm_num) (by linarith))
  have ex := err_of gx (n := 12) (by norm_num) (by push_cast; linarith [uu_pos])
  have ey := err_of gy (n := 12) (by norm_num) (by push_cast; linarith [uu_pos])
  have e1 : (2:ℝ) ^ (-49 : ℤ) = 16 * uu := by unfold uu; rw [u_small]; norm_num
  have e2 : (2:ℝ) ^ (-1070 : ℤ) = 32 * 2 ^ (-1075 : ℤ) := by
    rw [show (-1070 : ℤ) = 5 + -1075 by norm_num, zpow_add₀ two_ne_zero]; norm_num
  have hu := uu_pos
  clear tot2 tot' cx cy wx wy fx fy cex cey sx sy prod
  revert d
  rw [e1, e2, Fin.forall_fin_two]
  refine ⟨⟨gx.num, ?_⟩, gy.num, ?_⟩
  · have e : toR (at2 c 0) + rot2 (toR a) (at2 p.real - at2 c.real) 0 =
        toR c.x + Real.cos (toR a) * (toR p.x - toR c.x) - Real.sin (toR a) * (toR p.y - toR c.y) := by
      show toR c.x + ((toR p.x - toR c.x) * Real.cos _ - (toR p.y - toR c.y) * Real.sin _) = _
      ring
    rw [e]
    refine ex.trans ?_
    generalize (2:ℝ) ^ (-1075 : ℤ) = η at *
    push_cast
    nlinarith only [h75, mul_nonneg hu.le n1, mul_nonneg hu.le n2, mul_nonneg hu.le n3, mul_nonneg hu.le n4]
  · have e : toR (at2 c 1) + rot2 (toR a) (at2 p.real - at2 c.real) 1 =
        toR c.y + Real.sin (toR a) * (toR p.x - toR c.x) + Real.cos (toR a) * (toR p.y - toR c.y) := by
      show toR c.y + ((toR p.x - toR c.x) * Real.sin _ + (toR p.y - toR c.y) * Real.cos _) = _
      ring
    rw [e]
    refine ey.trans ?_
    generalize (2:ℝ) ^ (-1075 : ℤ) = η at *
    push_cast
    nlinarith only [h75, mul_nonneg hu.le n1, mul_nonneg hu.le n2, mul_nonneg hu.le n3, mul_nonneg hu.le n4]

/-- the double next to a number between -1 and 1, towards zero, on the grid of `2^-52` -/
noncomputable def F64.near (x : ℝ) : F64 := .fin (decide (x < 0)) ((⌊|x| * 2 ^ 52⌋₊ : ℚ) / 2 ^ 52)

theorem F64.near_spec {x : ℝ} (hx : |x| ≤ 1) : F64.Num (F64.near x) ∧ |toR (F64.near x) - x| ≤ 2 ^ (-52 : ℤ) := by
  have h0 := mul_nonneg (abs_nonneg x) (show (0:ℝ) ≤ 2 ^ 52 by positivity)
  have hk : ⌊|x| * 2 ^ 52⌋₊ ≤ 2 ^ 52 := by
    have := Nat.floor_le_floor (mul_le_mul_of_nonneg_right hx (show (0:ℝ) ≤ 2 ^ 52 by positivity))
    rw [one_mul] at this
    have e : ⌊(2:ℝ) ^ 52⌋₊ = 2 ^ 52 := by exact_mod_cast Nat.floor_natCast (R := ℝ) (2 ^ 52)
    rwa [e] at this
  have fl := Nat.floor_le h0
  have lf := Nat.lt_floor_add_one (|x| * 2 ^ 52)
  unfold F64.near
  generalize ⌊|x| * 2 ^ 52⌋₊ = k at *
  have kq : (k : ℚ) / 2 ^ 52 ≤ 1 := by
    rw [div_le_one (by positivity)]; exact_mod_cast hk
  refine ⟨Num.mk' ⟨by positivity, lt_of_le_of_lt kq ?_, k, -52, lt_of_le_of_lt hk (by norm_num), by norm_num, ?_⟩, ?_⟩
  · exact one_lt_zpow₀ one_lt_two (by norm_num)
  · rw [zpow_neg, div_eq_mul_inv]; norm_cast
  · have b : |(k : ℝ) / 2 ^ 52 - (|x| : ℝ)| ≤ 2 ^ (-52 : ℤ) := by
      have e : (2:ℝ) ^ (-52 : ℤ) = 1 / 2 ^ 52 := by norm_num
      have e1 : (k : ℝ) / 2 ^ 52 ≤ |x| := by rw [div_le_iff₀ (by positivity)]; exact fl
      have e2 : |x| ≤ ((k : ℝ) + 1) / 2 ^ 52 := by rw [le_div_iff₀ (by positivity)]; exact lf.le
      rw [add_div] at e2
      rw [e, abs_le]; constructor <;> linarith
    rw [real_fin]
    by_cases h : x < 0
    · simp only [h, decide_true, val]
      rw [abs_of_neg h] at b
      push_cast
      rw [← abs_neg]
      refine le_trans (le_of_eq ?_) b
      congr 1
      simp; ring
    · simp only [h, decide_false, val]
      rw [abs_of_nonneg (not_lt.1 h)] at b
      push_cast
      simpa using b

/-- sine and cosine with one rounding towards zero -/
@[instance_reducible] noncomputable def F64.trig : Trig F64 where
  sin x := if x = .nan then .nan else F64.near (Real.sin (toR x))
  cos x := if x = .nan then .nan else F64.near (Real.cos (toR x))
  tan x := x
  pi := F64.near 1

/-- the hypothesis on sine and cosine can be met -/
theorem F64.trig_good : GoodTrig F64.trig := by
  intro x hx
  have hn : x ≠ .nan := by rintro rfl; obtain ⟨⟨s, m, h⟩, -⟩ := hx; exact absurd h (by simp)
  have h1 := F64.near_spec (Real.abs_sin_le_one (toR x))
  have h2 := F64.near_spec (Real.abs_cos_le_one (toR x))
  have e1 : F64.trig.sin x = F64.near (Real.sin (toR x)) := if_neg hn
  have e2 : F64.trig.cos x = F64.near (Real.cos (toR x)) := if_neg hn
  rw [e1, e2]
  exact ⟨h1.1, h1.2, h2.1, h2.2⟩

/-- the hypotheses of `c104_rotation_2d`, `c104_rotate` and `c104_arc` are met -/
example : ∃ T : Trig F64, GoodTrig T ∧ T.sin .nan = .nan ∧ T.cos .nan = .nan := ⟨F64.trig, F64.trig_good, if_pos rfl, if_pos rfl⟩

example : ∃ (T : Trig F64) (p : Point2D F64), GoodTrig T ∧ p.Num ∧ toR p.x = 3 ∧ (∀ d, |toR (at2 p d)| ≤ 2 ^ (990 : ℤ)) ∧
    ∀ d, |toR (at2 (p.transformed (.rotation (f 1))) d) - rot2 1 (at2 p.real) d| ≤ 2 ^ (-46 : ℤ) + 2 ^ (-1070 : ℤ) := by
  obtain ⟨n3, e3⟩ := ex_num 3 false 3 (by decide +kernel)
  obtain ⟨n4, e4⟩ := ex_num 4 false 4 (by decide +kernel)
  obtain ⟨n1, e1⟩ := ex_num 1 false 1 (by decide +kernel)
  have hb : ∀ d, |toR (at2 (⟨f 3, f 4⟩ : Point2D F64) d)| ≤ 2 ^ (990 : ℤ) := by
    rw [Fin.forall_fin_two]
    have : (2:ℝ) ^ (3 : ℤ) ≤ 2 ^ (990 : ℤ) := zpow_le_zpow_right₀ one_le_two (by norm_num)
    refine ⟨le_trans ?_ this, le_trans ?_ this⟩
    · show |toR (f 3)| ≤ _; rw [e3]; norm_num [val]
    · show |toR (f 4)| ≤ _; rw [e4]; norm_num [val]
  have v3 : toR (f 3) = 3 := by rw [e3]; norm_num [val]
  have v4 : toR (f 4) = 4 := by rw [e4]; norm_num [val]
  have v1 : toR (f 1) = 1 := by rw [e1]; norm_num [val]
  let _ := F64.trig
  refine ⟨F64.trig, ⟨f 3, f 4⟩, F64.trig_good, ⟨n3, n4⟩, v3, hb, fun d => ?_⟩
  have := (c104_rotation_2d F64.trig_good ⟨f 3, f 4⟩ (f 1) ⟨n3, n4⟩ n1 hb d).2
  rw [v1] at this
  refine this.trans (add_le_add ?_ le_rfl)
  show _ * (|toR (f 3)| + |toR (f 4)|) ≤ _
  rw [v3, v4]; norm_num

end R3D

import Verif.Props.Within
import Mathlib.RingTheory.Polynomial.Bernstein
import Mathlib.Analysis.Calculus.Deriv.MeanValue
import Mathlib.Analysis.Calculus.Deriv.Polynomial
/-!
C143 for Bezier curves: the curve is not longer than the line of its control points.
-/
namespace R3D
open Scalar LawfulScalar Spec

/-- the weight of the control points after the first `i + 1` ones -/
noncomputable def bernTail (n i : ℕ) (t : ℝ) : ℝ := ∑ k ∈ Finset.Ico (i + 1) (n + 1), bernstein n k t

theorem bernstein_nonneg' (n k : ℕ) {t : ℝ} (h0 : 0 ≤ t) (h1 : t ≤ 1) : 0 ≤ bernstein n k t := by
  have := sub_nonneg.2 h1
  unfold bernstein
  positivity

theorem bern_eval (n k : ℕ) (t : ℝ) : (_root_.bernsteinPolynomial ℝ n k).eval t = bernstein n k t := by
  simp [_root_.bernsteinPolynomial, bernstein]

theorem bernTail_deriv (n i : ℕ) (h : i ≤ n) :
    Polynomial.derivative (∑ k ∈ Finset.Ico (i + 1) (n + 1), _root_.bernsteinPolynomial ℝ n k) =
      n * _root_.bernsteinPolynomial ℝ (n - 1) i := by
  have tele : ∀ m, i ≤ m → Polynomial.derivative (∑ k ∈ Finset.Ico (i + 1) (m + 1), _root_.bernsteinPolynomial ℝ n k) =
      n * (_root_.bernsteinPolynomial ℝ (n - 1) i - _root_.bernsteinPolynomial ℝ (n - 1) m) := by
    intro m hm
    induction m, hm using Nat.le_induction with
    | base => simp
    | succ m hm ih =>
      rw [Finset.sum_Ico_succ_top (by omega), Polynomial.derivative_add, ih, bernsteinPolynomial.derivative_succ]
      ring
  rw [tele n h]
  rcases n with _ | n
  · simp
  · rw [Nat.add_sub_cancel, bernsteinPolynomial.eq_zero_of_lt ℝ (Nat.lt_succ_self n), sub_zero]

theorem bernTail_mono (n i : ℕ) (h : i ≤ n) {s t : ℝ} (h0 : 0 ≤ s) (hst : s ≤ t) (h1 : t ≤ 1) : bernTail n i s ≤ bernTail n i t := by
  set P := ∑ k ∈ Finset.Ico (i + 1) (n + 1), _root_.bernsteinPolynomial ℝ n k with hP
  have e : ∀ t, bernTail n i t = P.eval t := fun t => by
    rw [hP, Polynomial.eval_finsetSum]
    exact Finset.sum_congr rfl fun k _ => (bern_eval n k t).symm
  rw [e, e]
  refine monotoneOn_of_deriv_nonneg (convex_Icc (0 : ℝ) 1) P.differentiable.continuous.continuousOn P.differentiable.differentiableOn ?_
    (Set.mem_Icc.2 ⟨h0, hst.trans h1⟩) (Set.mem_Icc.2 ⟨h0.trans hst, h1⟩) hst
  intro x hx
  rw [interior_Icc, Set.mem_Ioo] at hx
  rw [Polynomial.deriv, hP, bernTail_deriv n i h, Polynomial.eval_mul, bern_eval, Polynomial.eval_natCast]
  exact mul_nonneg (Nat.cast_nonneg _) (bernstein_nonneg' _ _ hx.1.le hx.2.le)

theorem bernTail_nonneg (n i : ℕ) {t : ℝ} (h0 : 0 ≤ t) (h1 : t ≤ 1) : 0 ≤ bernTail n i t :=
  Finset.sum_nonneg fun _ _ => bernstein_nonneg' _ _ h0 h1

theorem bernTail_le (n i : ℕ) {t : ℝ} (h0 : 0 ≤ t) (h1 : t ≤ 1) : bernTail n i t ≤ 1 := by
  rw [← bernstein_sum n t]
  refine Finset.sum_le_sum_of_subset_of_nonneg (fun k hk => ?_) fun k _ _ => bernstein_nonneg' _ _ h0 h1
  simp only [Finset.mem_Ico, Finset.mem_range] at hk ⊢
  omega

/-- summing by parts -/
theorem sum_by_parts (b g : ℕ → ℝ) (n : ℕ) : ∑ k ∈ Finset.range (n + 1), b k * g k =
    g 0 * ∑ k ∈ Finset.range (n + 1), b k + ∑ i ∈ Finset.range n, (∑ k ∈ Finset.Ico (i + 1) (n + 1), b k) * (g (i + 1) - g i) := by
  induction n with
  | zero => simp [mul_comm]
  | succ n ih =>
    rw [Finset.sum_range_succ, ih, Finset.sum_range_succ (n := n) (f := fun i =>
      (∑ k ∈ Finset.Ico (i + 1) (n + 1 + 1), b k) * (g (i + 1) - g i))]
    have e : ∑ i ∈ Finset.range n, (∑ k ∈ Finset.Ico (i + 1) (n + 1 + 1), b k) * (g (i + 1) - g i) =
        ∑ i ∈ Finset.range n, (∑ k ∈ Finset.Ico (i + 1) (n + 1), b k) * (g (i + 1) - g i) + b (n + 1) * (g n - g 0) := by
      rw [← Finset.sum_range_sub g n, Finset.mul_sum, ← Finset.sum_add_distrib]
      refine Finset.sum_congr rfl fun i hi => ?_
      rw [Finset.mem_range] at hi
      rw [Finset.sum_Ico_succ_top (by omega)]
      ring
    rw [e, Nat.Ico_succ_singleton, Finset.sum_singleton, Finset.sum_range_succ b (n + 1), Finset.sum_range_succ b n]
    ring

theorem eucl_combine {m : ℕ} (n : ℕ) (a : Fin m → ℝ) (x y : ℕ → ℝ) (v : ℕ → Fin m → ℝ) :
    eucl (fun d => a d + ∑ i ∈ Finset.range n, x i * v i d) (fun d => a d + ∑ i ∈ Finset.range n, y i * v i d) ≤
      ∑ i ∈ Finset.range n, |x i - y i| * eucl (v i) 0 := by
  induction n with
  | zero => simp [eucl_self]
  | succ n ih =>
    simp only [Finset.sum_range_succ, ← add_assoc]
    refine (eucl_add _ _ _ _).trans (add_le_add ih ?_)
    have : Spec.sqrDist (fun d => x n * v n d) (fun d => y n * v n d) = |x n - y n| ^ 2 * Spec.sqrDist (v n) 0 := by
      rw [sq_abs]
      simp only [Spec.sqrDist, Finset.mul_sum, Pi.zero_apply]
      exact Finset.sum_congr rfl fun d _ => by ring
    rw [eucl, this, Real.sqrt_mul (sq_nonneg _), Real.sqrt_sq (abs_nonneg _), eucl]

/-- **C143** (partial: up to 21 control points, more are answered with a panic, see C45) a Bezier curve is not longer than the
line of its control points, however many points are asked for (exact arithmetic). -/
theorem c143_bezier_length_partial (base : List (Point2D ℝ)) (h2 : 2 ≤ base.length) (h21 : base.length ≤ 21) (n : Nat) :
    ∃ pts, interpolateBezier base n = some (.ok pts) ∧ PointCloud2D.length ⟨pts⟩ ≤ PointCloud2D.length ⟨base⟩ := by
  obtain ⟨pts, e, hl, -, w⟩ := c45_bezier_partial base h2 h21 n
  refine ⟨pts, e, ?_⟩
  obtain ⟨m, hm⟩ : ∃ m, base.length = m + 1 := ⟨base.length - 1, by omega⟩
  let c : ℕ → Fin 2 → ℝ := fun k => at2 (base[k]?.getD ⟨0, 0⟩)
  have hc : ∀ k (h : k < base.length), c k = at2 base[k] := fun k h => by simp [c, h]
  have hpt : ∀ i (h : i < pts.length), at2 pts[i] = fun d => c 0 d +
      ∑ j ∈ Finset.range m, bernTail m j ((i : ℝ) / n) * (fun d => c (j + 1) d - c j d) d := by
    intro i hi
    obtain ⟨w, -, -, hx, hy, hw⟩ := w i pts[i] (List.getElem?_eq_getElem hi)
    have hd : ∀ d, at2 pts[i] d = ∑ k, w k * at2 base[k] d := by rw [Fin.forall_fin_two]; exact ⟨hx, hy⟩
    funext d
    rw [hd d]
    have e1 : ∑ k, w k * at2 base[k] d = ∑ k ∈ Finset.range base.length, bernstein m k ((i : ℝ) / n) * c k d := by
      rw [Finset.sum_range]
      refine Finset.sum_congr rfl fun k _ => ?_
      rw [hw, hc k.1 k.2, show base.length - 1 = m by omega]
      rfl
    rw [e1, hm, sum_by_parts (fun k => bernstein m k ((i : ℝ) / n)) (fun k => c k d), bernstein_sum, mul_one]
    rfl
  have hD : ∀ j, eucl (fun d => c (j + 1) d - c j d) 0 = eucl (c j) (c (j + 1)) := fun j => by
    unfold eucl
    congr 1
    simp only [Spec.sqrDist, Pi.zero_apply]
    exact Finset.sum_congr rfl fun d _ => by ring
  have frac : ∀ i, i ≤ n → 0 ≤ (i : ℝ) / n ∧ (i : ℝ) / n ≤ 1 := fun i hi => by
    refine ⟨by positivity, div_le_one_of_le₀ (by exact_mod_cast hi) (Nat.cast_nonneg _)⟩
  rw [(c55_length_2d pts).1, (c55_length_2d base).1]
  have hseg : ∀ i (h : i + 1 < pts.length), segLen2 (pts[i]'(by omega)) pts[i + 1] ≤
      ∑ j ∈ Finset.range m, (bernTail m j (((i + 1 : ℕ) : ℝ) / n) - bernTail m j ((i : ℝ) / n)) * eucl (c j) (c (j + 1)) := by
    intro i h
    change eucl _ _ ≤ _
    rw [hpt i (by omega), hpt (i + 1) h]
    refine (eucl_combine m _ _ _ _).trans (le_of_eq (Finset.sum_congr rfl fun j hj => ?_))
    rw [hD, abs_sub_comm, abs_of_nonneg]
    rw [Finset.mem_range] at hj
    exact sub_nonneg.2 (bernTail_mono m j (by omega) (frac i (by omega)).1
      (div_le_div_of_nonneg_right (by push_cast; linarith) (Nat.cast_nonneg _)) (frac (i + 1) (by omega)).2)
  calc ∑ i : Fin (pts.length - 1), segLen2 (pts[i.1]'(by omega)) (pts[i.1 + 1]'(by omega))
      ≤ ∑ i : Fin (pts.length - 1), ∑ j ∈ Finset.range m,
          (bernTail m j (((i.1 + 1 : ℕ) : ℝ) / n) - bernTail m j ((i.1 : ℝ) / n)) * eucl (c j) (c (j + 1)) :=
        Finset.sum_le_sum fun i _ => hseg i.1 (by omega)
    _ = ∑ i ∈ Finset.range (pts.length - 1), ∑ j ∈ Finset.range m,
          (bernTail m j (((i + 1 : ℕ) : ℝ) / n) - bernTail m j ((i : ℝ) / n)) * eucl (c j) (c (j + 1)) := by
        rw [Finset.sum_range]
    _ = ∑ j ∈ Finset.range m, (bernTail m j (((pts.length - 1 : ℕ) : ℝ) / n) - bernTail m j (((0 : ℕ) : ℝ) / n)) *
          eucl (c j) (c (j + 1)) := by
        rw [Finset.sum_comm]
        refine Finset.sum_congr rfl fun j _ => ?_
        rw [← Finset.sum_mul, Finset.sum_range_sub (fun i => bernTail m j ((i : ℝ) / n))]
    _ ≤ ∑ j ∈ Finset.range m, eucl (c j) (c (j + 1)) := by
        refine Finset.sum_le_sum fun j _ => ?_
        have f1 := frac (pts.length - 1) (by omega)
        have f0 := frac 0 (Nat.zero_le _)
        have b1 := bernTail_le m j f1.1 f1.2
        have b0 := bernTail_nonneg m j f0.1 f0.2
        exact mul_le_of_le_one_left (eucl_nonneg _ _) (by linarith)
    _ = _ := by
        have : base.length - 1 = m := by omega
        rw [← this, Finset.sum_range]
        refine Finset.sum_congr rfl fun j _ => ?_
        rw [hc j.1 (by omega), hc (j.1 + 1) (by omega)]
        rfl

/-- the hypotheses are satisfiable by a curve which is no straight line -/
example : 2 ≤ [(⟨0, 0⟩ : Point2D ℝ), ⟨1, 2⟩, ⟨3, 0⟩].length ∧ [(⟨0, 0⟩ : Point2D ℝ), ⟨1, 2⟩, ⟨3, 0⟩].length ≤ 21 := by
  simp

end R3D

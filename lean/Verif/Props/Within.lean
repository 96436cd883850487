import Verif.Props.Stable
import Verif.Props.Backward
import Verif.Props.Interpolate
import Verif.Props.DouglasPeucker
/-!
C143 derived points stay within the data and derived lines grow no longer: centers of gravity, interpolated lines and Bezier
curves stay in every half plane (half space) that contains the data, cosine interpolation in every rectangle; interpolated
and simplified lines are not longer than the line they come from (exact arithmetic; `c143_violated_center` for doubles).
-/
namespace R3D
open Scalar LawfulScalar Spec

/-- the point is in the half plane `u x + w y ≤ c` -/
def Spec.InHalf2 (u : Fin 2 → ℝ) (c : ℝ) (p : Point2D ℝ) : Prop := ∑ d, u d * at2 p d ≤ c
/-- the point is in the half space `u x + v y + w z ≤ c` -/
def Spec.InHalf3 (u : Fin 3 → ℝ) (c : ℝ) (p : Point3D ℝ) : Prop := ∑ d, u d * at3 p d ≤ c

theorem half_mean {β : Type} {n : ℕ} (g : β → Fin n → ℝ) (u : Fin n → ℝ) (c : ℝ) (l : List β) (hl : l ≠ [])
    (h : ∀ p ∈ l, ∑ d, u d * g p d ≤ c) : ∑ d, u d * ((l.map fun p => g p d).sum / l.length) ≤ c := by
  have hpos : (0 : ℝ) < l.length := by exact_mod_cast List.length_pos_iff.2 hl
  have key : ∀ l : List β, (∀ p ∈ l, ∑ d, u d * g p d ≤ c) → ∑ d, u d * (l.map fun p => g p d).sum ≤ c * l.length := by
    intro l
    induction l with
    | nil => simp
    | cons p l ih =>
      intro h
      have h1 := h p (by simp)
      have h2 := ih fun q hq => h q (by simp [hq])
      simp only [List.map_cons, List.sum_cons, mul_add, Finset.sum_add_distrib, List.length_cons]
      push_cast
      linarith
  have e : ∑ d, u d * ((l.map fun p => g p d).sum / l.length) = (∑ d, u d * (l.map fun p => g p d).sum) / l.length := by
    rw [Finset.sum_div]
    exact Finset.sum_congr rfl fun d _ => by rw [mul_div_assoc]
  rw [e, div_le_iff₀ hpos]
  exact key l h

/-- **C143** the center of gravity is in every half plane (half space) that contains all points (exact arithmetic). -/
theorem c143_center :
    (∀ (l : List (Point2D ℝ)) c, PointCloud2D.centerOfGravity ⟨l⟩ = some c → ∀ u k, (∀ p ∈ l, InHalf2 u k p) → InHalf2 u k c) ∧
    ∀ (l : List (Point3D ℝ)) c, PointCloud3D.centerOfGravity ⟨l⟩ = some c → ∀ u k, (∀ p ∈ l, InHalf3 u k p) → InHalf3 u k c := by
  constructor
  · intro l c hc u k h
    have hl : l ≠ [] := fun e => by rw [(c76_center_of_gravity_2d l).1 e] at hc; cases hc
    obtain ⟨c', e, hm⟩ := (c76_center_of_gravity_2d l).2 hl
    obtain rfl : c' = c := Option.some.inj (e.symm.trans hc)
    rw [InHalf2, show at2 c' = _ from funext hm]
    exact half_mean at2 u k l hl h
  · intro l c hc u k h
    have hl : l ≠ [] := fun e => by rw [(c76_center_of_gravity_3d l).1 e] at hc; cases hc
    obtain ⟨c', e, hm⟩ := (c76_center_of_gravity_3d l).2 hl
    obtain rfl : c' = c := Option.some.inj (e.symm.trans hc)
    rw [InHalf3, show at3 c' = _ from funext hm]
    exact half_mean at3 u k l hl h

/-- **C143** (partial: lines of different first points and at least 2 points asked for, see `c78_violated`) the points of a
linearly interpolated line are in every half plane that contains the line (exact arithmetic). -/
theorem c143_linear_partial (p q : Point2D ℝ) (t : List (Point2D ℝ)) (hne : p ≠ q) (n : Nat) (hn : 2 ≤ n) :
    ∃ pts, interpolationLinear (p :: q :: t) n = some (.ok pts) ∧ pts.length = n ∧
      ∀ u k, (∀ x ∈ p :: q :: t, InHalf2 u k x) → ∀ x ∈ pts, InHalf2 u k x := by
  obtain ⟨pts, e, hl, -, -, w⟩ := c78_linear_partial p q t hne n hn
  refine ⟨pts, e, hl, fun u k h x hx => ?_⟩
  obtain ⟨i, hi, rfl⟩ := List.getElem_of_mem hx
  obtain ⟨a, b, f, ⟨j, ha, hb, h0, h1, -⟩, hr⟩ := w i pts[i] (List.getElem?_eq_getElem hi)
  have ia : ∑ d, u d * at2 a d ≤ k := h a (List.mem_of_getElem? ha)
  have ib : ∑ d, u d * at2 b d ≤ k := h b (List.mem_of_getElem? hb)
  have e2 : ∑ d, u d * at2 pts[i] d = (1 - f) * (∑ d, u d * at2 a d) + f * ∑ d, u d * at2 b d := by
    rw [Finset.mul_sum, Finset.mul_sum, ← Finset.sum_add_distrib]
    exact Finset.sum_congr rfl fun d _ => by rw [hr]; ring
  rw [InHalf2, e2]
  nlinarith [mul_nonneg h0 (sub_nonneg.2 ib), mul_nonneg (sub_nonneg.2 h1) (sub_nonneg.2 ia)]

/-- **C143** (partial: up to 21 control points, more are answered with a panic, see C45) the points of a Bezier curve are in
every half plane that contains its control points (exact arithmetic). -/
theorem c143_bezier_partial (base : List (Point2D ℝ)) (h2 : 2 ≤ base.length) (h21 : base.length ≤ 21) (n : Nat) :
    ∃ pts, interpolateBezier base n = some (.ok pts) ∧ pts.length = n ∧
      ∀ u k, (∀ x ∈ base, InHalf2 u k x) → ∀ x ∈ pts, InHalf2 u k x := by
  obtain ⟨pts, e, hl, -, w⟩ := c45_bezier_partial base h2 h21 n
  refine ⟨pts, e, hl, fun u k h x hx => ?_⟩
  obtain ⟨i, hi, rfl⟩ := List.getElem_of_mem hx
  obtain ⟨w, w0, ws, hx, hy, -⟩ := w i pts[i] (List.getElem?_eq_getElem hi)
  have a1 : ∀ d, at2 pts[i] d = ∑ k, w k * at2 base[k] d := by rw [Fin.forall_fin_two]; exact ⟨hx, hy⟩
  have e2 : ∑ d, u d * at2 pts[i] d = ∑ k, w k * ∑ d, u d * at2 base[k] d := by
    simp only [a1, Finset.mul_sum]
    rw [Finset.sum_comm]
    exact Finset.sum_congr rfl fun k _ => Finset.sum_congr rfl fun d _ => by ring
  rw [InHalf2, e2]
  calc ∑ k, w k * ∑ d, u d * at2 base[k] d ≤ ∑ j, w j * k :=
        Finset.sum_le_sum fun j _ => mul_le_mul_of_nonneg_left (h _ (List.getElem_mem _)) (w0 j)
    _ = k := by rw [← Finset.sum_mul, ws, one_mul]

/-- **C143** (partial: rectangles instead of half planes, see `c143_violated_cosine`; as for `c143_linear_partial`) the points
of a line interpolated with cosines are in every rectangle that contains the line (exact arithmetic). -/
theorem c143_cosine_partial (p q : Point2D ℝ) (t : List (Point2D ℝ)) (hne : p ≠ q) (n : Nat) (hn : 2 ≤ n) :
    ∃ pts, interpolateCosine (p :: q :: t) n = some (.ok pts) ∧ pts.length = n ∧
      ∀ lo hi : Fin 2 → ℝ, (∀ x ∈ p :: q :: t, ∀ d, lo d ≤ at2 x d ∧ at2 x d ≤ hi d) →
        ∀ x ∈ pts, ∀ d, lo d ≤ at2 x d ∧ at2 x d ≤ hi d := by
  obtain ⟨pts, e, hl, -, -, w⟩ := c78_cosine_partial p q t hne n hn
  refine ⟨pts, e, hl, fun lo hi h x hx d => ?_⟩
  obtain ⟨i, hi', rfl⟩ := List.getElem_of_mem hx
  obtain ⟨a, b, f, ⟨j, ha, hb, -⟩, -, -, hr⟩ := w i pts[i] (List.getElem?_eq_getElem hi')
  have ia := h a (List.mem_of_getElem? ha) d
  have ib := h b (List.mem_of_getElem? hb) d
  exact ⟨(le_min ia.1 ib.1).trans (hr d).1, (hr d).2.trans (max_le ia.2 ib.2)⟩

/-! ### lengths -/

/-- the point at the part `f` of the segment from `a` to `b` -/
noncomputable def walkPt (a b : Point2D ℝ) (f : ℝ) (d : Fin 2) : ℝ := at2 a d + f * (at2 b d - at2 a d)

theorem eucl_walkPt (a b : Point2D ℝ) (f g : ℝ) : eucl (walkPt a b f) (walkPt a b g) = |f - g| * segLen2 a b := by
  have : Spec.sqrDist (walkPt a b f) (walkPt a b g) = |f - g| ^ 2 * Spec.sqrDist (at2 a) (at2 b) := by
    rw [sq_abs]
    simp only [Spec.sqrDist, Finset.mul_sum, walkPt]
    exact Finset.sum_congr rfl fun d _ => by ring
  rw [eucl, this, Real.sqrt_mul (sq_nonneg _), Real.sqrt_sq (abs_nonneg _), segLen2]

theorem walkPt_zero (a b : Point2D ℝ) : walkPt a b 0 = at2 a := by funext d; simp [walkPt]
theorem walkPt_one (a b : Point2D ℝ) : walkPt a b 1 = at2 b := by funext d; simp [walkPt]

theorem eucl_tri {n : ℕ} (a b c : Fin n → ℝ) : eucl a c ≤ eucl a b + eucl b c := by
  simp only [eucl_dist]; exact dist_triangle _ _ _

theorem walk_step (p q : Point2D ℝ) (l : List (Point2D ℝ)) (s : ℝ) (a b : Point2D ℝ) (f : ℝ) (h : Walk (p :: q :: l) s a b f) :
    (a = p ∧ b = q ∧ 0 ≤ f ∧ f ≤ 1 ∧ s = f * segLen2 p q) ∨ (segLen2 p q ≤ s ∧ Walk (q :: l) (s - segLen2 p q) a b f) := by
  rw [walk_split] at h
  obtain ⟨u, v, e, h0, h1, hs⟩ := h
  cases u with
  | nil =>
    simp only [List.nil_append, List.cons.injEq] at e
    obtain ⟨rfl, rfl, rfl⟩ := e
    exact Or.inl ⟨rfl, rfl, h0, h1, by simpa [pairSum] using hs⟩
  | cons x u =>
    simp only [List.cons_append, List.cons.injEq] at e
    obtain ⟨rfl, e⟩ := e
    obtain ⟨y, w, hw⟩ : ∃ y w, u ++ [a] = y :: w := by cases u <;> simp
    have hy : y = q := by
      have : u ++ a :: b :: v = (u ++ [a]) ++ b :: v := by simp
      rw [this, hw] at e
      simp at e
      exact e.1.symm
    subst hy
    simp only [List.cons_append, hw, pairSum] at hs
    have n2 : 0 ≤ pairSum segLen2 (y :: w) := pairSum_nonneg _
    have n3 : 0 ≤ f * segLen2 a b := mul_nonneg h0 (segLen2_nonneg _ _)
    exact Or.inr ⟨by linarith, (walk_split _ _ _ _ _).2 ⟨u, v, e, h0, h1, by rw [hw]; linarith⟩⟩

theorem walk_from : ∀ (l : List (Point2D ℝ)) (p : Point2D ℝ) (s : ℝ) (a b : Point2D ℝ) (f : ℝ), Walk (p :: l) s a b f →
    eucl (at2 p) (walkPt a b f) ≤ s
  | [], _, _, _, _, _, ⟨k, _, hb, _⟩ => by simp at hb
  | q :: l, p, s, a, b, f, h => by
    rcases walk_step p q l s a b f h with ⟨rfl, rfl, h0, h1, hs⟩ | ⟨hs, hw⟩
    · rw [← walkPt_zero a b, eucl_walkPt, zero_sub, abs_neg, abs_of_nonneg h0, hs]
    · have i := walk_from l q _ a b f hw
      have t := eucl_tri (at2 p) (at2 q) (walkPt a b f)
      change _ ≤ segLen2 p q + _ at t
      linarith

theorem walk_lip : ∀ (l : List (Point2D ℝ)) (s t : ℝ) (a b a' b' : Point2D ℝ) (f f' : ℝ), s ≤ t → Walk l s a b f →
    Walk l t a' b' f' → eucl (walkPt a b f) (walkPt a' b' f') ≤ t - s
  | [], _, _, _, _, _, _, _, _, _, ⟨k, h, _⟩, _ => by simp at h
  | [p], _, _, _, _, _, _, _, _, _, ⟨k, _, h, _⟩, _ => by simp at h
  | p :: q :: l, s, t, a, b, a', b', f, f', hst, h, h' => by
    rcases walk_step p q l s a b f h with ⟨rfl, rfl, h0, h1, hs⟩ | ⟨hs, hw⟩ <;>
      rcases walk_step _ _ _ _ _ _ _ h' with ⟨rfl, rfl, h0', h1', hs'⟩ | ⟨hs', hw'⟩
    · rw [eucl_walkPt, ← abs_of_nonneg (segLen2_nonneg a' b'), ← abs_mul, sub_mul, ← hs, ← hs',
        abs_sub_comm, abs_of_nonneg (by linarith)]
    · have i := walk_from l b _ a' b' f' hw'
      have t1 := eucl_tri (walkPt a b f) (at2 b) (walkPt a' b' f')
      have e : eucl (walkPt a b f) (at2 b) = (1 - f) * segLen2 a b := by
        rw [← walkPt_one a b, eucl_walkPt, abs_sub_comm, abs_of_nonneg (by linarith)]
      linarith
    · have i := walk_from l b' _ a b f hw
      have t1 := eucl_tri (walkPt a b f) (at2 b') (walkPt a' b' f')
      rw [eucl_comm _ (at2 b')] at t1
      have e : eucl (at2 b') (walkPt a' b' f') = (1 - f') * segLen2 a' b' := by
        rw [← walkPt_one a' b', eucl_walkPt, abs_of_nonneg (by linarith)]
      linarith
    · have := walk_lip (q :: l) _ _ a b a' b' f f' (by linarith) hw hw'
      linarith

/-- **C143** (partial: as for `c143_linear_partial`) a linearly interpolated line is not longer than the line (exact
arithmetic). -/
theorem c143_linear_length_partial (p q : Point2D ℝ) (t : List (Point2D ℝ)) (hne : p ≠ q) (n : Nat) (hn : 2 ≤ n) :
    ∃ pts, interpolationLinear (p :: q :: t) n = some (.ok pts) ∧
      PointCloud2D.length ⟨pts⟩ ≤ PointCloud2D.length ⟨p :: q :: t⟩ := by
  obtain ⟨pts, e, hl, -, -, w⟩ := c78_linear_partial p q t hne n hn
  refine ⟨pts, e, ?_⟩
  rw [(c55_length_2d pts).1, cloud_length_2d]
  generalize hL : pairSum segLen2 (p :: q :: t) = L at w
  have hL0 : 0 ≤ L := hL ▸ pairSum_nonneg _
  have hn1 : (0 : ℝ) < n - 1 := by
    have : (2 : ℝ) ≤ n := by exact_mod_cast hn
    linarith
  calc ∑ i : Fin (pts.length - 1), segLen2 (pts[i.1]'(by omega)) (pts[i.1 + 1]'(by omega))
      ≤ ∑ i : Fin (pts.length - 1), L / (n - 1) := Finset.sum_le_sum fun i _ => by
        obtain ⟨a, b, f, hw, hr⟩ := w i.1 (pts[i.1]'(by omega)) (List.getElem?_eq_getElem _)
        obtain ⟨a', b', f', hw', hr'⟩ := w (i.1 + 1) (pts[i.1 + 1]'(by omega)) (List.getElem?_eq_getElem _)
        have k := walk_lip _ _ _ a b a' b' f f' (by
          push_cast
          have := div_nonneg hL0 hn1.le
          nlinarith) hw hw'
        have e1 : at2 (pts[i.1]'(by omega)) = walkPt a b f := funext hr
        have e2 : at2 (pts[i.1 + 1]'(by omega)) = walkPt a' b' f' := funext hr'
        rw [segLen2, e1, e2]
        change eucl _ _ ≤ _
        push_cast at k
        linarith
    _ = L := by
        rw [Finset.sum_const, Finset.card_univ, Fintype.card_fin, nsmul_eq_mul, hl, Nat.cast_sub (by omega)]
        push_cast
        field_simp

theorem pairSum_cons_sublist {l l' : List (Point2D ℝ)} (h : l.Sublist l') :
    ∀ a, pairSum segLen2 (a :: l) ≤ pairSum segLen2 (a :: l') := by
  induction h with
  | slnil => intro a; exact le_rfl
  | @cons l l' b _ ih =>
    intro a
    refine (ih a).trans ?_
    cases l' with
    | nil => simp only [pairSum]; linarith [segLen2_nonneg a b]
    | cons c m =>
      have t : segLen2 a c ≤ segLen2 a b + segLen2 b c := eucl_tri (at2 a) (at2 b) (at2 c)
      simp only [pairSum]
      linarith
  | @cons_cons l l' b _ ih =>
    intro a
    have := ih b
    simp only [pairSum]
    linarith

theorem pairSum_sublist {l l' : List (Point2D ℝ)} (h : l.Sublist l') : pairSum segLen2 l ≤ pairSum segLen2 l' := by
  induction h with
  | slnil => exact le_rfl
  | @cons l l' b _ ih =>
    refine ih.trans ?_
    cases l' with
    | nil => simp [pairSum]
    | cons c m => simp only [pairSum]; linarith [segLen2_nonneg b c]
  | @cons_cons l l' b h _ => exact pairSum_cons_sublist h b

/-- **C143** (partial: lines of at least 2 points; a single point is doubled, see `c44_violated`) a simplified line has only
points of the line, the same ends, and is not longer (exact arithmetic). -/
theorem c143_simplify_partial (e : ℝ) (he : 0 ≤ e) (l : List (Point2D ℝ)) (hl : 2 ≤ l.length) :
    ∃ r, douglasPeucker e l.length l = some r ∧ (∀ p ∈ r, p ∈ l) ∧ r.head? = l.head? ∧ r.getLast? = l.getLast? ∧
      PointCloud2D.length ⟨r⟩ ≤ PointCloud2D.length ⟨l⟩ := by
  obtain ⟨r, h1, h2, h3, h4⟩ := c44_subsequence_partial e (by simpa using he) l hl l.length le_rfl
  refine ⟨r, h1, fun p hp => h2.subset hp, h3, h4, ?_⟩
  rw [cloud_length_2d, cloud_length_2d]
  exact pairSum_sublist h2

/-- the hypotheses are met: a line with a corner, all of it in the half plane `x + y ≤ 5` -/
example : (⟨0, 0⟩ : Point2D ℝ) ≠ ⟨3, 0⟩ ∧ ∀ x ∈ [(⟨0, 0⟩ : Point2D ℝ), ⟨3, 0⟩, ⟨3, 2⟩], InHalf2 (fun _ => 1) 5 x := by
  refine ⟨by simp, ?_⟩
  simp only [List.mem_cons, List.not_mem_nil, or_false, forall_eq_or_imp, forall_eq, InHalf2, Fin.sum_univ_two, at2_zero, at2_one]
  norm_num

/-- **C143 violated** doubles: the center of gravity of three times the same point is another point, outside their (degenerate)
extent. -/
theorem c143_violated_center : ∃ p c : Point2D F64, PointCloud2D.centerOfGravity ⟨[p, p, p]⟩ = some c ∧ (c.x >. p.x) = true :=
  ⟨⟨.ofRat (1 / 10), .ofRat 0⟩, ⟨(.ofRat (1 / 10) + .ofRat (1 / 10) + .ofRat (1 / 10)) / .ofRat 3, .ofRat 0⟩, by decide +kernel,
    by decide +kernel⟩

/-- **C143 violated** cosine interpolation of the segment from (0,0) to (1,1) leaves it: of four points the second is below. -/
theorem c143_violated_cosine : ∃ pts x, interpolateCosine [(⟨0, 0⟩ : Point2D ℝ), ⟨1, 1⟩] 4 = some (.ok pts) ∧ x ∈ pts ∧
    (∀ y ∈ [(⟨0, 0⟩ : Point2D ℝ), ⟨1, 1⟩], InHalf2 ![1, -1] 0 y) ∧ ¬ InHalf2 ![1, -1] 0 x := by
  obtain ⟨pts, e, hl, -, -, w⟩ := c78_cosine_partial (⟨0, 0⟩ : Point2D ℝ) ⟨1, 1⟩ [] (by simp) 4 (by norm_num)
  refine ⟨pts, pts[1]'(by omega), e, List.getElem_mem _, ?_, ?_⟩
  · simp [InHalf2]
  · obtain ⟨a, b, f, ⟨k, ha, hb, h0, h1, hs⟩, hx, hy, -⟩ := w 1 (pts[1]'(by omega)) (List.getElem?_eq_getElem _)
    have hk : k = 0 := by
      rcases k with _ | k
      · rfl
      · simp at hb
    subst hk
    simp only [List.getElem?_cons_zero, Option.some.injEq, zero_add, List.getElem?_cons_succ] at ha hb
    subst ha; subst hb
    have hs2 : 0 < segLen2 (⟨0, 0⟩ : Point2D ℝ) ⟨1, 1⟩ := segLen2_pos (by simp)
    have hf : f = 1 / 3 := by
      simp only [zero_add, List.take_succ_cons, List.take_zero, pairSum, Nat.cast_one, Nat.cast_ofNat, add_zero, one_mul] at hs
      have : f * segLen2 (⟨0, 0⟩ : Point2D ℝ) ⟨1, 1⟩ = 1 / 3 * segLen2 (⟨0, 0⟩ : Point2D ℝ) ⟨1, 1⟩ := by linarith
      exact mul_right_cancel₀ hs2.ne' this
    rw [hf] at hx hy
    have hc : Real.cos (1 / 3 * Real.pi) = 1 / 2 := by rw [show 1 / 3 * Real.pi = Real.pi / 3 by ring, Real.cos_pi_div_three]
    rw [hc] at hy
    simp only [InHalf2, Fin.sum_univ_two, at2_zero, at2_one, hx, hy, Matrix.cons_val_zero, Matrix.cons_val_one]
    norm_num

end R3D

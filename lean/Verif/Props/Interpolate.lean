import Verif.Model.Curves2D
import Verif.Lemmas.Scalar
import Verif.Lemmas.BoundingBoxReal
import Verif.Props.PointCloud
/-!
C78: linear and cosine interpolation; C79: the 2D curve factories.
-/
namespace R3D
open Scalar LawfulScalar Spec

/-! ## C78 -/

/-- walking the distance `s` along the polyline `l` ends on the segment from `a` to `b`, at the part `f` of it -/
def Spec.Walk (l : List (Point2D ℝ)) (s : ℝ) (a b : Point2D ℝ) (f : ℝ) : Prop :=
  ∃ k : Nat, l[k]? = some a ∧ l[k + 1]? = some b ∧ 0 ≤ f ∧ f ≤ 1 ∧
    s = pairSum segLen2 (l.take (k + 1)) + f * segLen2 a b

theorem segLen2_nonneg (a b : Point2D ℝ) : 0 ≤ segLen2 a b := Real.sqrt_nonneg _

theorem segLen2_pos {a b : Point2D ℝ} (h : a ≠ b) : 0 < segLen2 a b := by
  apply Real.sqrt_pos.2
  simp only [Spec.sqrDist, Fin.sum_univ_two, at2_zero, at2_one]
  by_cases hx : a.x = b.x
  · have hy : a.y ≠ b.y := by
      intro hy
      apply h
      cases a; cases b
      simp_all
    have : a.y - b.y ≠ 0 := sub_ne_zero.2 hy
    have : 0 < (a.y - b.y) ^ 2 := by positivity
    nlinarith [sq_nonneg (a.x - b.x)]
  · have : a.x - b.x ≠ 0 := sub_ne_zero.2 hx
    have : 0 < (a.x - b.x) ^ 2 := by positivity
    nlinarith [sq_nonneg (a.y - b.y)]

theorem pairSum_nonneg (l : List (Point2D ℝ)) : 0 ≤ pairSum segLen2 l := by
  induction l with
  | nil => simp [pairSum]
  | cons a l ih =>
    cases l with
    | nil => simp [pairSum]
    | cons b l =>
      rw [pairSum]
      exact add_nonneg (segLen2_nonneg a b) ih

theorem pairSum_zero : ∀ (l : List (Point2D ℝ)) (q : Point2D ℝ), pairSum segLen2 (q :: l) = 0 →
    (q :: l).getLast? = some q
  | [], _, _ => rfl
  | r :: l, q, h => by
    rw [pairSum] at h
    have h1 := segLen2_nonneg q r
    have h2 := pairSum_nonneg (r :: l)
    have e : q = r := by
      by_contra hne
      have := segLen2_pos hne
      linarith
    subst e
    have := pairSum_zero l q (by linarith)
    simpa using this

theorem walk_spec (target : ℝ) (build : ℝ → Point2D ℝ → Point2D ℝ → Point2D ℝ) :
    ∀ (l : List (Point2D ℝ)) (before : ℝ), before ≤ target →
      (before < target ∨ ∃ p q t, l = p :: q :: t ∧ p ≠ q) → target ≤ before + pairSum segLen2 l →
      ∃ a b f, walk target build before l = some (build f a b) ∧ Walk l (target - before) a b f ∧
        (target = before → l.head? = some a ∧ f = 0) ∧
        (target = before + pairSum segLen2 l → l.getLast? = some b ∧ f = 1)
  | [], before, h1, hn, h2 => by
    rw [pairSum] at h2
    · rcases hn with hn | ⟨p, q, t, e, -⟩
      · linarith
      · simp at e
    · simp
  | [_], before, h1, hn, h2 => by
    rw [pairSum] at h2
    · rcases hn with hn | ⟨p, q, t, e, -⟩
      · linarith
      · simp at e
    · simp
  | p :: q :: l, before, h1, hn, h2 => by
    have hlen : Scalar.sqrt (Scalar.sq (q.x - p.x) + Scalar.sq (q.y - p.y)) = segLen2 p q := by
      simp only [segLen2, Spec.sqrDist, Fin.sum_univ_two, at2_zero, at2_one, Scalar.sq, Real.scalar_sqrt]
      congr 1
      ring
    rw [walk]
    simp only [hlen]
    by_cases hc : target ≤ before + segLen2 p q
    · have hpos : 0 < segLen2 p q := by
        rcases hn with hn | ⟨p', q', t, e, hne⟩
        · linarith
        · simp only [List.cons.injEq] at e
          obtain ⟨rfl, rfl, -⟩ := e
          exact segLen2_pos hne
      rw [if_pos (by simpa using hc)]
      have e : before + segLen2 p q - before = segLen2 p q := by ring
      rw [e]
      refine ⟨p, q, _, rfl, ⟨0, rfl, rfl, div_nonneg (by linarith) hpos.le, ?_, ?_⟩, ?_, ?_⟩
      · rw [div_le_one hpos]
        linarith
      · rw [List.take_succ_cons, List.take_zero, pairSum, zero_add, div_mul_cancel₀ _ hpos.ne']
        simp
      · rintro rfl
        simp
      · intro e2
        rw [pairSum] at e2
        have hr : pairSum segLen2 (q :: l) = 0 := le_antisymm (by linarith) (pairSum_nonneg _)
        have := pairSum_zero l q hr
        rw [e2, hr]
        refine ⟨by simpa using this, ?_⟩
        rw [add_zero, add_sub_cancel_left, div_self hpos.ne']
    · rw [if_neg (by simpa using hc)]
      push Not at hc
      rw [pairSum] at h2
      obtain ⟨a, b, f, e1, ⟨k, ka, kb, f0, f1, ks⟩, e3, e4⟩ :=
        walk_spec target build (q :: l) (before + segLen2 p q) hc.le (.inl hc) (by linarith)
      refine ⟨a, b, f, e1, ⟨k + 1, by simpa using ka, by simpa using kb, f0, f1, ?_⟩, ?_, ?_⟩
      · rw [List.take_succ_cons]
        have : (q :: l).take (k + 1) = q :: l.take k := List.take_succ_cons
        rw [this] at ks ⊢
        rw [pairSum]
        linarith
      · intro e
        have := segLen2_nonneg p q
        linarith
      · intro e
        rw [pairSum] at e
        have := e4 (by linarith)
        simpa using this

theorem getElem?_filterMap_range {β : Type} (f : Nat → Option β) (g : Nat → β) (n : Nat)
    (h : ∀ i < n, f i = some (g i)) : (List.range n).filterMap f = (List.range n).map g := by
  rw [List.filterMap_congr (g := fun i => some (g i)) (fun i hi => h i (List.mem_range.1 hi))]
  exact congrFun List.filterMap_eq_map _

/-- the interpolations: what both have in common -/
theorem interpolation_common (base : List (Point2D ℝ)) (hn : ∃ p q t, base = p :: q :: t ∧ p ≠ q) (nPoints : Nat)
    (hp : 2 ≤ nPoints) (build : ℝ → Point2D ℝ → Point2D ℝ → Point2D ℝ) :
    ∃ pts, (List.range nPoints).filterMap (fun i : Nat => walk ((i : ℝ) * (pairSum segLen2 base / ((nPoints - 1 : Nat) : ℝ)))
        build 0 base) = pts ∧ pts.length = nPoints ∧
      ∀ (i : Nat) r, pts[i]? = some r → ∃ a b f, r = build f a b ∧
        Walk base (i * (pairSum segLen2 base / (nPoints - 1))) a b f ∧
        (i = 0 → base.head? = some a ∧ f = 0) ∧ (i + 1 = nPoints → base.getLast? = some b ∧ f = 1) := by
  have hc : ((nPoints - 1 : Nat) : ℝ) = nPoints - 1 := by
    rw [Nat.cast_sub (by omega)]
    simp
  have hpos : (0 : ℝ) < nPoints - 1 := by
    have : (2 : ℝ) ≤ nPoints := by exact_mod_cast hp
    linarith
  rw [hc]
  set L := pairSum segLen2 base with hL
  have hL0 : 0 < L := by
    obtain ⟨p, q, t, rfl, hne⟩ := hn
    rw [hL, pairSum]
    exact add_pos_of_pos_of_nonneg (segLen2_pos hne) (pairSum_nonneg _)
  have key : ∀ i < nPoints, ∃ a b f, walk ((i : ℝ) * (L / (nPoints - 1))) build 0 base = some (build f a b) ∧
      Walk base (i * (L / (nPoints - 1))) a b f ∧
        (i = 0 → base.head? = some a ∧ f = 0) ∧ (i + 1 = nPoints → base.getLast? = some b ∧ f = 1) := by
    intro i hi
    have hi' : (i : ℝ) ≤ nPoints - 1 := by
      have : (i : ℝ) + 1 ≤ nPoints := by exact_mod_cast hi
      linarith
    obtain ⟨a, b, f, e1, e2, e3, e4⟩ := walk_spec ((i : ℝ) * (L / (nPoints - 1))) build base 0
      (by positivity) (.inr hn) (by
        rw [zero_add, ← hL, mul_div_assoc', div_le_iff₀ hpos, mul_comm]
        exact mul_le_mul_of_nonneg_left hi' hL0.le)
    rw [sub_zero] at e2
    refine ⟨a, b, f, e1, e2, ?_, ?_⟩
    · rintro rfl
      exact e3 (by simp)
    · intro hi2
      apply e4
      have : (i : ℝ) = nPoints - 1 := by
        rw [← hi2]
        push_cast
        ring
      rw [this, zero_add, ← hL]
      field_simp
  have : Nonempty (Point2D ℝ) := ⟨⟨0, 0⟩⟩
  choose! a b f k1 k2 k3 k4 using key
  refine ⟨(List.range nPoints).map (fun i => build (f i) (a i) (b i)), ?_, by simp, ?_⟩
  · exact getElem?_filterMap_range _ _ _ k1
  · intro i r hr
    have hi : i < nPoints := by
      have := (List.getElem?_eq_some_iff.1 hr).1
      simpa using this
    have : build (f i) (a i) (b i) = r := by simpa [List.getElem?_eq_getElem, hi] using hr
    exact ⟨a i, b i, f i, this.symm, k2 i hi, k3 i hi, k4 i hi⟩

/-- **C78** (partial: the first two points differ, at least two points requested; missing: see `c78_violated`)
`interpolation_linear` returns the requested number of points, equally spaced along the polyline, from its first
to its last point (exact arithmetic). -/
theorem c78_linear_partial (p q : Point2D ℝ) (t : List (Point2D ℝ)) (hne : p ≠ q) (nPoints : Nat)
    (hp : 2 ≤ nPoints) : let base := p :: q :: t
    ∃ pts, interpolationLinear base nPoints = some (.ok pts) ∧ pts.length = nPoints ∧
      pts.head? = base.head? ∧ pts.getLast? = base.getLast? ∧
      ∀ (i : Nat) r, pts[i]? = some r → ∃ a b f, Walk base (i * (pairSum segLen2 base / (nPoints - 1))) a b f ∧
        ∀ d, at2 r d = at2 a d + f * (at2 b d - at2 a d) := by
  intro base
  obtain ⟨pts, h1, hlen, h3⟩ := interpolation_common base ⟨p, q, t, rfl, hne⟩ nPoints hp
    (fun f p q => ⟨p.x + f * (q.x - p.x), p.y + f * (q.y - p.y)⟩)
  have hlt : ¬ base.length < 2 := by simp [base]
  have h0 : ¬ nPoints = 0 := by omega
  refine ⟨pts, ?_, hlen, ?_, ?_, ?_⟩
  · rw [← h1]
    simp only [interpolationLinear, if_neg hlt, if_neg h0, cloud_length_2d, Real.scalar_lit, Real.scalar_zero]
    push_cast
    rfl
  · have hi : 0 < pts.length := by omega
    obtain ⟨a, b, f, e1, -, e3, -⟩ := h3 0 pts[0] (List.getElem?_eq_getElem hi)
    obtain ⟨e4, e5⟩ := e3 rfl
    rw [e4, List.head?_eq_getElem?, List.getElem?_eq_getElem hi, e1, e5]
    simp
  · have hi : pts.length - 1 < pts.length := by omega
    obtain ⟨a, b, f, e1, -, -, e3⟩ := h3 (pts.length - 1) pts[pts.length - 1] (List.getElem?_eq_getElem hi)
    obtain ⟨e4, e5⟩ := e3 (by omega)
    rw [e4, List.getLast?_eq_getElem?, List.getElem?_eq_getElem hi, e1, e5]
    simp
  · intro i r hr
    obtain ⟨a, b, f, e1, e2, -⟩ := h3 i r hr
    refine ⟨a, b, f, e2, ?_⟩
    rw [Fin.forall_fin_two, e1]
    simp

/-- **C78** (partial, see `c78_linear_partial`) `interpolate_cosine` returns the requested number of points. Their
x coordinates are those of the linear interpolation; y moves between the neighbours along half a cosine wave, so
that the points stay within the bounds of the segment; the ends are the ends of the polyline (exact arithmetic and
trigonometry). -/
theorem c78_cosine_partial (p q : Point2D ℝ) (t : List (Point2D ℝ)) (hne : p ≠ q) (nPoints : Nat)
    (hp : 2 ≤ nPoints) : let base := p :: q :: t
    ∃ pts, interpolateCosine base nPoints = some (.ok pts) ∧ pts.length = nPoints ∧
      pts.head? = base.head? ∧ pts.getLast? = base.getLast? ∧
      ∀ (i : Nat) r, pts[i]? = some r → ∃ a b f, Walk base (i * (pairSum segLen2 base / (nPoints - 1))) a b f ∧
        r.x = a.x + f * (b.x - a.x) ∧ r.y = a.y + (1 - Real.cos (f * Real.pi)) / 2 * (b.y - a.y) ∧
        ∀ d, min (at2 a d) (at2 b d) ≤ at2 r d ∧ at2 r d ≤ max (at2 a d) (at2 b d) := by
  intro base
  obtain ⟨pts, h1, hlen, h3⟩ := interpolation_common base ⟨p, q, t, rfl, hne⟩ nPoints hp
    (fun f p q => ⟨p.x + f * (q.x - p.x), p.y * (1 - (1 - Real.cos (f * Real.pi)) / 2) +
      q.y * ((1 - Real.cos (f * Real.pi)) / 2)⟩)
  have hlt : ¬ base.length < 2 := by simp [base]
  have h0 : ¬ nPoints = 0 := by omega
  have hmix : ∀ a b t : ℝ, 0 ≤ t → t ≤ 1 → min a b ≤ a + t * (b - a) ∧ a + t * (b - a) ≤ max a b := by
    intro a b t t0 t1
    rcases le_total a b with h | h
    · rw [min_eq_left h, max_eq_right h]
      constructor <;> nlinarith
    · rw [min_eq_right h, max_eq_left h]
      constructor <;> nlinarith
  refine ⟨pts, ?_, hlen, ?_, ?_, ?_⟩
  · rw [← h1]
    simp only [interpolateCosine, if_neg hlt, if_neg h0, cloud_length_2d, Real.scalar_lit, Real.scalar_zero, Trig.cos,
      Trig.pi]
    push_cast
    rfl
  · have hi : 0 < pts.length := by omega
    obtain ⟨a, b, f, e1, -, e3, -⟩ := h3 0 pts[0] (List.getElem?_eq_getElem hi)
    obtain ⟨e4, e5⟩ := e3 rfl
    rw [e4, List.head?_eq_getElem?, List.getElem?_eq_getElem hi, e1, e5]
    simp
  · have hi : pts.length - 1 < pts.length := by omega
    obtain ⟨a, b, f, e1, -, -, e3⟩ := h3 (pts.length - 1) pts[pts.length - 1] (List.getElem?_eq_getElem hi)
    obtain ⟨e4, e5⟩ := e3 (by omega)
    rw [e4, List.getLast?_eq_getElem?, List.getElem?_eq_getElem hi, e1, e5]
    simp [Real.cos_pi]
  · intro i r hr
    obtain ⟨a, b, f, e1, e2, -⟩ := h3 i r hr
    have ey : r.y = a.y + (1 - Real.cos (f * Real.pi)) / 2 * (b.y - a.y) := by
      rw [e1]
      ring
    have ex : r.x = a.x + f * (b.x - a.x) := by rw [e1]
    refine ⟨a, b, f, e2, ex, ey, ?_⟩
    obtain ⟨k, -, -, f0, f1, -⟩ := e2
    rw [Fin.forall_fin_two]
    simp only [at2_zero, at2_one]
    rw [ex, ey]
    refine ⟨hmix _ _ _ f0 f1, hmix _ _ _ ?_ ?_⟩
    · linarith [Real.cos_le_one (f * Real.pi)]
    · linarith [Real.neg_one_le_cos (f * Real.pi)]

/-- later points may repeat -/
example : ∃ pts, interpolationLinear ([⟨0, 0⟩, ⟨3, 4⟩, ⟨3, 4⟩, ⟨3, 0⟩] : List (Point2D ℝ)) 4 = some (.ok pts) ∧ pts.length = 4 := by
  obtain ⟨pts, h1, h2, -⟩ := c78_linear_partial ⟨0, 0⟩ ⟨3, 4⟩ [⟨3, 4⟩, ⟨3, 0⟩] (by simp) 4 (by norm_num)
  exact ⟨pts, h1, h2⟩

/-- **C78** fewer than two base points give an error (any scalar type). -/
theorem c78_few {α : Type} [Scalar α] [Trig α] (base : List (Point2D α)) (h : base.length < 2) (nPoints : Nat) :
    interpolationLinear base nPoints = some (.error .TooFewPoints) ∧
    interpolateCosine base nPoints = some (.error .TooFewPoints) := by
  rw [interpolationLinear, if_pos h, interpolateCosine, if_pos h]
  exact ⟨rfl, rfl⟩

/-- **C78 violated** asking for no points panics (in a debug build); asking for one point returns none; starting
with two equal points gives a point with NaN coordinates. -/
theorem c78_violated :
    (∃ base : List (Point2D F64), interpolationLinear base 0 = none) ∧
    (∃ base : List (Point2D F64), interpolationLinear base 1 = some (.ok [])) ∧
    ∃ base : List (Point2D F64), ∃ p q, interpolationLinear base 2 = some (.ok [p, q]) ∧ p.x = .nan ∧ p.y = .nan := by
  refine ⟨⟨[⟨.ofRat 0, .ofRat 0⟩, ⟨.ofRat 4, .ofRat 0⟩], by decide +kernel⟩,
    ⟨[⟨.ofRat 0, .ofRat 0⟩, ⟨.ofRat 4, .ofRat 0⟩], by decide +kernel⟩,
    ⟨[⟨.ofRat 0, .ofRat 0⟩, ⟨.ofRat 0, .ofRat 0⟩, ⟨.ofRat 4, .ofRat 0⟩], ⟨.nan, .nan⟩, ⟨.ofRat 4, .ofRat 0⟩,
      by decide +kernel, rfl, rfl⟩⟩

/-! ## C79 -/

/-- **C79** `rectangle` returns the four corners counter clockwise, starting at the lower left one; opposite sides have
the given width and height, neighbouring sides are orthogonal and the diagonals meet in the center (exact
arithmetic). -/
theorem c79_rectangle (c : Point2D ℝ) (w h : Positive ℝ) : ∃ p q r s, rectangle c w h = [p, q, r, s] ∧
    p.x = c.x - w.val / 2 ∧ p.y = c.y - h.val / 2 ∧
    (q.x - p.x = w.val ∧ q.y = p.y) ∧ (r.x = q.x ∧ r.y - q.y = h.val) ∧ (r.x - s.x = w.val ∧ s.y = r.y) ∧
    (s.x = p.x ∧ s.y - p.y = h.val) ∧ p.x + r.x = 2 * c.x ∧ p.y + r.y = 2 * c.y := by
  refine ⟨_, _, _, _, rfl, ?_⟩
  simp only [Real.scalar_lit]
  push_cast
  refine ⟨?_, ?_, ⟨?_, ?_⟩, ⟨?_, ?_⟩, ⟨?_, ?_⟩, ⟨?_, ?_⟩, ?_, ?_⟩ <;> first | trivial | ring

theorem map_range_at {β : Type} (g : Nat → β) (n i : Nat) (r : β) (h : ((List.range n).map g)[i]? = some r) :
    i < n ∧ r = g i := by
  have hi : i < n := by
    have := (List.getElem?_eq_some_iff.1 h).1
    simpa using this
  refine ⟨hi, ?_⟩
  have : g i = r := by simpa [List.getElem?_eq_getElem, hi] using h
  exact this.symm

/-- **C79** (partial: the end angle is not below the start angle; otherwise see `c79_violated`) `arc` with at least
two points returns that many points, at half the diameter from the center; the angles run in equal steps from
the start to the end angle (exact arithmetic and trigonometry). -/
theorem c79_arc_partial (c : Point2D ℝ) (n : Nat) (hn : 2 ≤ n) (d : Positive ℝ) (hd : 0 < d.val) (start end_ : ℝ)
    (h : start ≤ end_) : ∃ pts, arc c n d start end_ = some pts ∧ pts.length = n ∧
      ∀ (i : Nat) p, pts[i]? = some p → segLen2 c p = d.val / 2 ∧
        ∃ t, p.x = c.x + d.val / 2 * Real.cos t ∧ p.y = c.y + d.val / 2 * Real.sin t ∧
          t = start + (end_ - start) * (i / (n - 1)) ∧ (i = 0 → t = start) ∧ (i + 1 = n → t = end_) := by
  have h0 : ¬ n = 0 := by omega
  have hc : ((n - 1 : Nat) : ℝ) = n - 1 := by
    rw [Nat.cast_sub (by omega)]
    simp
  have hpos : (0 : ℝ) < n - 1 := by
    have : (2 : ℝ) ≤ n := by exact_mod_cast hn
    linarith
  refine ⟨_, by simp only [arc, if_neg h0]; rfl, by simp, ?_⟩
  intro i p hp
  obtain ⟨hi, rfl⟩ := map_range_at _ _ _ _ hp
  simp only [Real.scalar_lit, Real.scalar_abs, Trig.cos, Trig.sin]
  push_cast
  rw [hc, abs_of_nonneg (by linarith : 0 ≤ end_ - start)]
  have e : start + (i : ℝ) * ((end_ - start) / (n - 1)) = start + (end_ - start) * (i / (n - 1)) := by ring
  rw [e]
  refine ⟨?_, rfl, rfl, rfl, ?_, ?_⟩
  · simp only [segLen2, Spec.sqrDist, Fin.sum_univ_two, at2_zero, at2_one]
    set t := start + (end_ - start) * (i / (n - 1))
    have : (c.x - (c.x + d.val / 2 * Real.cos t)) ^ 2 + (c.y - (c.y + d.val / 2 * Real.sin t)) ^ 2 = (d.val / 2) ^ 2 := by
      linear_combination (d.val / 2) ^ 2 * (Real.cos_sq_add_sin_sq t)
    rw [this]
    exact Real.sqrt_sq (by positivity)
  · rintro rfl
    simp
  · intro hi2
    have : (i : ℝ) = n - 1 := by
      rw [← hi2]
      push_cast
      ring
    rw [this, div_self hpos.ne']
    ring

/-- **C79** (partial: only half of the ellipse, see `c79_violated`) `ellipse` with at least two points returns that
many points on the axis parallel ellipse with the given half axes; they run in equal parameter steps over its upper
half, from the rightmost to the leftmost point (exact arithmetic and trigonometry). -/
theorem c79_ellipse_partial (c : Point2D ℝ) (n : Nat) (hn : 2 ≤ n) (a b : Positive ℝ) (ha : 0 < a.val) (hb : 0 < b.val) :
    ∃ pts, ellipse c n a b = some pts ∧ pts.length = n ∧
      ∀ (i : Nat) p, pts[i]? = some p →
        ((p.x - c.x) / a.val) ^ 2 + ((p.y - c.y) / b.val) ^ 2 = 1 ∧ c.y ≤ p.y ∧
        p.x = c.x + a.val * Real.cos (Real.pi * (i / (n - 1))) ∧
        p.y = c.y + b.val * Real.sin (Real.pi * (i / (n - 1))) ∧
        (i = 0 → p.x = c.x + a.val ∧ p.y = c.y) ∧ (i + 1 = n → p.x = c.x - a.val ∧ p.y = c.y) := by
  have h0 : ¬ n = 0 := by omega
  have hc : ((n - 1 : Nat) : ℝ) = n - 1 := by
    rw [Nat.cast_sub (by omega)]
    simp
  have hpos : (0 : ℝ) < n - 1 := by
    have : (2 : ℝ) ≤ n := by exact_mod_cast hn
    linarith
  refine ⟨_, by simp only [ellipse, if_neg h0]; rfl, by simp, ?_⟩
  intro i p hp
  obtain ⟨hi, rfl⟩ := map_range_at _ _ _ _ hp
  simp only [Real.scalar_lit, Real.scalar_zero, Trig.cos, Trig.sin, Trig.pi, Real.cos_zero, Real.sin_zero]
  push_cast
  rw [hc]
  have hi' : (i : ℝ) ≤ n - 1 := by
    have : (i : ℝ) + 1 ≤ n := by exact_mod_cast hi
    linarith
  have e : (i : ℝ) * (Real.pi / (n - 1)) = Real.pi * (i / (n - 1)) := by ring
  rw [e]
  have q0 : (0 : ℝ) ≤ (i : ℝ) / (n - 1) := by positivity
  have q1 : (i : ℝ) / (n - 1) ≤ 1 := (div_le_one hpos).2 hi'
  have hs : 0 ≤ Real.sin (Real.pi * (i / (n - 1))) := by
    apply Real.sin_nonneg_of_nonneg_of_le_pi
    · have := Real.pi_pos
      positivity
    · have := Real.pi_pos
      nlinarith
  refine ⟨?_, ?_, by ring, by ring, ?_, ?_⟩
  · set t := Real.pi * (i / (n - 1))
    have e1 : (c.x + a.val * Real.cos t * 1 - b.val * Real.sin t * 0 - c.x) / a.val = Real.cos t := by
      field_simp
      ring
    have e2 : (c.y + a.val * Real.cos t * 0 + b.val * Real.sin t * 1 - c.y) / b.val = Real.sin t := by
      field_simp
      ring
    rw [e1, e2]
    exact Real.cos_sq_add_sin_sq t
  · have := mul_nonneg hb.le hs
    linarith
  · rintro rfl
    simp
  · intro hi2
    have : (i : ℝ) = n - 1 := by
      rw [← hi2]
      push_cast
      ring
    simp only [this, div_self hpos.ne', mul_one, Real.cos_pi, Real.sin_pi]
    constructor <;> ring

/-- **C79** (partial: the start angle is 0; it is ignored otherwise, see `c79_violated`) `involut_circle` with at least
two points returns that many points of the involute of the circle: from the point at angle `t` of the circle
the tangent, of the length of the arc from angle 0 to `t`, leads to the point; `t` runs in equal steps from 0 to
the end angle (exact arithmetic and trigonometry). -/
theorem c79_involut_partial (c : Point2D ℝ) (n : Nat) (hn : 2 ≤ n) (d : Positive ℝ) (end_ : ℝ) (h : 0 ≤ end_) :
    ∃ pts, involutCircle c n d 0 end_ = some pts ∧ pts.length = n ∧
      ∀ (i : Nat) p, pts[i]? = some p → ∃ t, t = end_ * (i / (n - 1)) ∧
        p.x = c.x + d.val / 2 * Real.cos t + (d.val / 2 * t) * Real.sin t ∧
        p.y = c.y + d.val / 2 * Real.sin t - (d.val / 2 * t) * Real.cos t ∧ (i + 1 = n → t = end_) := by
  have h0 : ¬ n = 0 := by omega
  have hc : ((n - 1 : Nat) : ℝ) = n - 1 := by
    rw [Nat.cast_sub (by omega)]
    simp
  have hpos : (0 : ℝ) < n - 1 := by
    have : (2 : ℝ) ≤ n := by exact_mod_cast hn
    linarith
  refine ⟨_, by simp only [involutCircle, if_neg h0]; rfl, by simp, ?_⟩
  intro i p hp
  obtain ⟨hi, rfl⟩ := map_range_at _ _ _ _ hp
  simp only [Real.scalar_lit, Real.scalar_abs, Trig.cos, Trig.sin]
  push_cast
  rw [hc, sub_zero, abs_of_nonneg h]
  have e : (i : ℝ) * (end_ / (n - 1)) = end_ * (i / (n - 1)) := by ring
  rw [e]
  refine ⟨by ring, by ring, by ring, ?_⟩
  intro hi2
  have : (i : ℝ) = n - 1 := by
    rw [← hi2]
    push_cast
    ring
  rw [this, div_self hpos.ne', mul_one]

/-- **C79 violated** an arc from angle 0 to -π/2 ends at angle π/2; an ellipse has no points in its lower half; the
involute from angle 1 to 2 is the one from 0 to 1 (exact arithmetic and trigonometry). -/
theorem c79_violated :
    (∃ p q : Point2D ℝ, arc ⟨0, 0⟩ 2 ⟨2⟩ 0 (-(Real.pi / 2)) = some [p, q] ∧ q.y = 1) ∧
    (∀ n, 2 ≤ n → ∃ pts, ellipse (⟨0, 0⟩ : Point2D ℝ) n ⟨2⟩ ⟨1⟩ = some pts ∧ ∀ p ∈ pts, 0 ≤ p.y) ∧
    ∀ n, involutCircle (⟨0, 0⟩ : Point2D ℝ) n ⟨2⟩ 1 2 = involutCircle ⟨0, 0⟩ n ⟨2⟩ 0 1 := by
  refine ⟨⟨_, _, rfl, ?_⟩, ?_, ?_⟩
  · simp only [Real.scalar_lit, Real.scalar_abs, Trig.sin]
    rw [sub_zero, abs_neg, abs_of_nonneg (by have := Real.pi_pos; positivity)]
    norm_num
  · intro n hn
    obtain ⟨pts, h1, -, h3⟩ := c79_ellipse_partial ⟨0, 0⟩ n hn ⟨2⟩ ⟨1⟩ (by norm_num) (by norm_num)
    refine ⟨pts, h1, ?_⟩
    intro p hp
    obtain ⟨i, hi⟩ := List.mem_iff_getElem?.1 hp
    exact (h3 i p hi).2.1
  · intro n
    simp only [involutCircle, Real.scalar_abs]
    norm_num

/-- an arc of 90 degrees with five points -/
example : (2 : ℕ) ≤ 5 ∧ (0 : ℝ) < (⟨3⟩ : Positive ℝ).val ∧ (0 : ℝ) ≤ Real.pi / 2 := by
  refine ⟨by norm_num, by norm_num, ?_⟩
  have := Real.pi_pos
  positivity

end R3D

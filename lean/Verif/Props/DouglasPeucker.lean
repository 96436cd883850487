import Verif.Model.Curves2D
import Verif.Lemmas.Scalar
import Verif.Props.PointCloud
/-!
C44: line simplification by Douglas-Peucker.
-/
namespace R3D
open Scalar LawfulScalar Spec

/-- `p` is at most `e` away from the line through `a` and `b` -/
def Spec.NearLine (e : ℝ) (a b p : Point2D ℝ) : Prop :=
  ∃ s : ℝ, segLen2 p ⟨a.x + s * (b.x - a.x), a.y + s * (b.y - a.y)⟩ ≤ e

section
variable {α : Type} [Scalar α]

theorem dpFind_index (first last : Point2D α) : ∀ (l : List (Point2D α)) (i : Nat) (s : Nat × α),
    (dpFind first last l i s = s) ∨ (i ≤ (dpFind first last l i s).1 ∧ (dpFind first last l i s).1 < i + l.length)
  | [], _, _ => .inl rfl
  | p :: l, i, s => by
    rw [dpFind]
    by_cases h : (distancePointLine p first last >. s.2) = true
    · simp only [if_pos h]
      rcases dpFind_index first last l (i + 1) (i, distancePointLine p first last) with h1 | h1
      · rw [h1]
        right
        simp
      · right
        rw [List.length_cons]
        omega
    · simp only [if_neg h]
      rcases dpFind_index first last l (i + 1) (s.1, s.2) with h1 | h1
      · exact .inl h1
      · right
        rw [List.length_cons]
        omega

/-- one step of the recursion: either the end points, or a split at an inner point -/
theorem dp_step (e : α) (he : ¬ (zero >. e) = true) (fuel : Nat) (l : List (Point2D α)) (hl : l ≠ []) :
    (douglasPeucker e (fuel + 1) l = some [l.head hl, l.getLast hl] ∧
      ¬ ((dpFind (l.head hl) (l.getLast hl) l.tail.dropLast 1 (0, zero)).2 >. e) = true) ∨
    ∃ k, 1 ≤ k ∧ k + 1 < l.length ∧ ∀ r1 r2, douglasPeucker e fuel (l.take k) = some r1 →
      douglasPeucker e fuel (l.drop k) = some r2 → r1 ≠ [] →
      douglasPeucker e (fuel + 1) l = some (r1.dropLast ++ r2) := by
  match l, hl with
  | first :: rest, hl =>
    have hlast : (first :: rest).getLast? = some ((first :: rest).getLast hl) := List.getLast?_eq_some_getLast hl
    rw [List.head_cons, List.tail_cons]
    generalize hg : (first :: rest).getLast hl = last at *
    generalize hf : dpFind first last rest.dropLast 1 (0, zero) = f
    have hidx := dpFind_index first last rest.dropLast 1 (0, zero)
    rw [hf] at hidx
    obtain ⟨index, dmax⟩ := f
    by_cases hd : (dmax >. e) = true
    · right
      rcases hidx with h | h
      · obtain ⟨rfl, rfl⟩ : index = 0 ∧ dmax = zero := by simpa using h
        exact absurd hd he
      · simp only [List.length_dropLast] at h
        refine ⟨index, h.1, by rw [List.length_cons]; omega, ?_⟩
        intro r1 r2 h1 h2 hne
        have hne' : ¬ r1.length = 0 := by simpa using hne
        rw [douglasPeucker, hlast]
        simp only [Option.bind_eq_bind, Option.bind_some, hf, if_pos hd, h1, h2, if_neg hne']
        rw [List.dropLast_eq_take]
    · left
      refine ⟨?_, hd⟩
      rw [douglasPeucker, hlast]
      simp only [Option.bind_eq_bind, Option.bind_some, hf, if_neg hd]

/-- what the recursion returns for any fuel of at least the length -/
theorem dp_main (e : α) (he : ¬ (zero >. e) = true) : ∀ (fuel : Nat) (l : List (Point2D α)), l.length ≤ fuel →
    (l = [] → douglasPeucker e fuel l = some []) ∧
    (∀ p, l = [p] → douglasPeucker e fuel l = some [p, p]) ∧
    (2 ≤ l.length → ∃ r, douglasPeucker e fuel l = some r ∧ r.Sublist l ∧ 2 ≤ r.length ∧
      r.head? = l.head? ∧ r.getLast? = l.getLast?) := by
  intro fuel
  induction fuel with
  | zero =>
    intro l hl
    have : l = [] := by simpa using hl
    subst this
    exact ⟨fun _ => rfl, by simp, by simp⟩
  | succ fuel ih =>
    intro l hl
    refine ⟨?_, ?_, ?_⟩
    · rintro rfl
      rfl
    · rintro p rfl
      rcases dp_step e he fuel [p] (by simp) with ⟨h, -⟩ | ⟨k, h1, h2, -⟩
      · simpa using h
      · simp at h2
    · intro h2
      have hne : l ≠ [] := by
        rintro rfl
        simp at h2
      rcases dp_step e he fuel l hne with ⟨h, -⟩ | ⟨k, k1, k2, h⟩
      · refine ⟨_, h, ?_, by simp, ?_, ?_⟩
        · match l, h2, hne with
          | a :: b :: l, _, _ =>
            rw [List.head_cons, List.getLast_cons (by simp)]
            exact (List.singleton_sublist.2 (List.getLast_mem _)).cons_cons a
        · rw [List.head?_eq_some_head hne]
          rfl
        · rw [List.getLast?_eq_some_getLast hne]
          rfl
      · have l1 : (l.take k).length = k := by
          rw [List.length_take]
          omega
        have l2 : (l.drop k).length = l.length - k := by simp
        obtain ⟨r2, e2, s2, g2, -, t2⟩ := (ih (l.drop k) (by omega)).2.2 (by omega)
        have hlast2 : r2.getLast? = l.getLast? := by
          rw [t2, List.getLast?_drop, if_neg (by omega)]
        have hr2 : r2 ≠ [] := by
          rintro rfl
          simp at g2
        by_cases hk : k = 1
        · subst hk
          obtain ⟨p, hp⟩ := List.length_eq_one_iff.1 l1
          have e1 := (ih (l.take 1) (by omega)).2.1 p hp
          refine ⟨_, h _ _ e1 e2 (by simp), ?_, ?_, ?_, ?_⟩
          · have : [p, p].dropLast = l.take 1 := by simp [hp]
            rw [this]
            conv_rhs => rw [← List.take_append_drop 1 l]
            exact List.Sublist.append (List.Sublist.refl _) s2
          · simp
            omega
          · have : l.head? = (l.take 1).head? := by
              rw [List.head?_take, if_neg (by omega)]
            rw [this, hp]
            rfl
          · rw [List.getLast?_append_of_ne_nil _ hr2, hlast2]
        · obtain ⟨r1, e1, s1, g1, hd1, -⟩ := (ih (l.take k) (by omega)).2.2 (by omega)
          have hr1 : r1 ≠ [] := by
            rintro rfl
            simp at g1
          refine ⟨_, h _ _ e1 e2 hr1, ?_, ?_, ?_, ?_⟩
          · conv_rhs => rw [← List.take_append_drop k l]
            exact List.Sublist.append ((List.dropLast_sublist _).trans s1) s2
          · simp
            omega
          · have hd : r1.dropLast ≠ [] := by
              intro e0
              have := congrArg List.length e0
              simp at this
              omega
            rw [List.head?_append_of_ne_nil _ hd]
            have : r1.dropLast.head? = r1.head? := by
              match r1, hd with
              | a :: b :: l, _ => rfl
            rw [this, hd1, List.head?_take, if_neg (by omega)]
          · rw [List.getLast?_append_of_ne_nil _ hr2, hlast2]

/-- **C44** (partial) for every scalar type, every tolerance that is not negative and at least two points:
the recursion ends, the result is a subsequence of the input and keeps its first and last point. The missing
part is the error bound, see `c44_runs_partial` and `c44_violated`. -/
theorem c44_subsequence_partial (e : α) (he : ¬ (zero >. e) = true) (l : List (Point2D α)) (hl : 2 ≤ l.length)
    (fuel : Nat) (hfuel : l.length ≤ fuel) :
    ∃ r, douglasPeucker e fuel l = some r ∧ r.Sublist l ∧ r.head? = l.head? ∧ r.getLast? = l.getLast? := by
  obtain ⟨r, h1, h2, -, h3, h4⟩ := (dp_main e he fuel l hfuel).2.2 hl
  exact ⟨r, h1, h2, h3, h4⟩

end

/-- the formula for the distance is the distance to a point of the line, unless the line is vertical -/
theorem distancePointLine_near (p a b : Point2D ℝ) (hab : a.x ≠ b.x) {e : ℝ}
    (h : distancePointLine p a b ≤ e) : NearLine e a b p := by
  have hx : a.x - b.x ≠ 0 := sub_ne_zero.2 hab
  have hD : a.x * a.x - 2 * a.x * b.x + a.y * a.y - 2 * a.y * b.y + b.x * b.x + b.y * b.y ≠ 0 := by
    have : 0 < (a.x - b.x) ^ 2 := by positivity
    nlinarith [sq_nonneg (a.y - b.y)]
  refine ⟨((p.x - a.x) * (b.x - a.x) + (p.y - a.y) * (b.y - a.y)) /
    (a.x * a.x - 2 * a.x * b.x + a.y * a.y - 2 * a.y * b.y + b.x * b.x + b.y * b.y), le_of_eq_of_le ?_ h⟩
  simp only [segLen2, Spec.sqrDist, Fin.sum_univ_two, at2_zero, at2_one, distancePointLine, Scalar.sq,
    Real.scalar_sqrt, Real.scalar_lit]
  push_cast
  congr 1
  set D := a.x * a.x - 2 * a.x * b.x + a.y * a.y - 2 * a.y * b.y + b.x * b.x + b.y * b.y with hDdef
  have ex : a.x + ((p.x - a.x) * (b.x - a.x) + (p.y - a.y) * (b.y - a.y)) / D * (b.x - a.x) =
      (a.x * a.x * p.x - a.x * a.y * b.y + a.x * a.y * p.y - 2 * a.x * b.x * p.x + a.x * b.y * b.y
      - a.x * b.y * p.y + a.y * a.y * b.x - a.y * b.x * b.y - a.y * b.x * p.y + b.x * b.x * p.x
      + b.x * b.y * p.y) / D := by
    rw [eq_div_iff hD, add_mul, div_mul_eq_mul_div, div_mul_cancel₀ _ hD, hDdef]
    ring
  have ey : a.y + ((p.x - a.x) * (b.x - a.x) + (p.y - a.y) * (b.y - a.y)) / D * (b.y - a.y) =
      ((a.y - b.y) * (a.x + ((p.x - a.x) * (b.x - a.x) + (p.y - a.y) * (b.y - a.y)) / D * (b.x - a.x))
        + a.x * b.y - a.y * b.x) / (a.x - b.x) := by
    rw [eq_div_iff hx]
    ring
  rw [← ex, ← ey]
  ring

theorem dpFind_max (first last : Point2D ℝ) : ∀ (l : List (Point2D ℝ)) (i : Nat) (s : Nat × ℝ),
    s.2 ≤ (dpFind first last l i s).2 ∧ ∀ p ∈ l, distancePointLine p first last ≤ (dpFind first last l i s).2
  | [], _, _ => ⟨le_rfl, by simp⟩
  | p :: l, i, s => by
    rw [dpFind]
    have hif : ∀ d : ℝ, s.2 ≤ (if (d >. s.2) = true then (i, d) else (s.1, s.2)).2 ∧
        d ≤ (if (d >. s.2) = true then (i, d) else (s.1, s.2)).2 := by
      intro d
      by_cases h : s.2 < d
      · rw [if_pos (by simpa using h)]
        exact ⟨h.le, le_rfl⟩
      · rw [if_neg (by simpa using h)]
        exact ⟨le_rfl, not_lt.1 h⟩
    obtain ⟨h1, h2⟩ := dpFind_max first last l (i + 1)
      (if (distancePointLine p first last >. s.2) = true then (i, distancePointLine p first last) else (s.1, s.2))
    obtain ⟨h3, h4⟩ := hif (distancePointLine p first last)
    refine ⟨h3.trans h1, ?_⟩
    intro q hq
    rcases List.mem_cons.1 hq with rfl | hq
    · exact h4.trans h1
    · exact h2 q hq

/-- **C44** (partial) what holds instead of the error bound (exact arithmetic): the input is cut into consecutive
runs, the result consists of the first points of the runs and the last point of the input, and the points of a
run are within the tolerance of the line through the first and the last point of the run (unless this line is
vertical). The bound would need the line to the first point of the next run. If only the end points are
left, there is one run, and the bound holds. -/
theorem c44_runs_partial (e : ℝ) (he : 0 ≤ e) (l : List (Point2D ℝ)) (hl : l ≠ []) :
    ∃ (r : List (Point2D ℝ)) (runs : List (List (Point2D ℝ))), douglasPeucker e l.length l = some r ∧ runs.flatten = l ∧ (∀ run ∈ runs, run ≠ []) ∧
      r = runs.filterMap List.head? ++ [l.getLast hl] ∧
      (∀ run ∈ runs, ∀ a b, run.head? = some a → run.getLast? = some b → a.x ≠ b.x →
        ∀ p ∈ run, NearLine e a b p) ∧
      (r.length ≤ 2 → ∀ a b, l.head? = some a → l.getLast? = some b → a.x ≠ b.x → ∀ p ∈ l, NearLine e a b p) := by
  have main : ∀ (fuel : Nat) (l : List (Point2D ℝ)) (hl : l ≠ []), l.length ≤ fuel →
      ∃ runs : List (List (Point2D ℝ)), douglasPeucker e fuel l = some (runs.filterMap List.head? ++ [l.getLast hl]) ∧
      runs.flatten = l ∧ (∀ run ∈ runs, run ≠ []) ∧
      (∀ run ∈ runs, ∀ a b, run.head? = some a → run.getLast? = some b → a.x ≠ b.x →
        ∀ p ∈ run, NearLine e a b p) := by
    intro fuel
    induction fuel with
    | zero =>
      intro l hl h
      exact absurd (by simpa using h) hl
    | succ fuel ih =>
      intro l hl hfuel
      rcases dp_step e (by simpa using he) fuel l hl with ⟨h, hd⟩ | ⟨k, k1, k2, h⟩
      · refine ⟨[l], ?_, by simp, by simpa using hl, ?_⟩
        · rw [h]
          simp [List.head?_eq_some_head hl]
        · intro run hrun a b ha hb hab p hp
          obtain rfl : run = l := by simpa using hrun
          rw [List.head?_eq_some_head hl] at ha
          rw [List.getLast?_eq_some_getLast hl] at hb
          obtain rfl : run.head hl = a := by simpa using ha
          obtain rfl : run.getLast hl = b := by simpa using hb
          have hdm : (dpFind (run.head hl) (run.getLast hl) run.tail.dropLast 1 (0, zero)).2 ≤ e := by
            simpa using hd
          obtain ⟨h0, hmax⟩ := dpFind_max (run.head hl) (run.getLast hl) run.tail.dropLast 1 (0, zero)
          by_cases hin : p ∈ run.tail.dropLast
          · exact distancePointLine_near p _ _ hab ((hmax p hin).trans hdm)
          · have hends : p = run.head hl ∨ p = run.getLast hl := by
              match run, hl, hp, hin with
              | x :: rest, hl, hp, hin =>
                rcases List.mem_cons.1 hp with rfl | hp
                · exact .inl rfl
                · right
                  have hrest : rest ≠ [] := List.ne_nil_of_mem hp
                  rw [← List.dropLast_append_getLast hrest] at hp
                  rcases List.mem_append.1 hp with hp | hp
                  · exact absurd hp hin
                  · rw [List.getLast_cons hrest]
                    simpa using hp
            rcases hends with rfl | rfl
            · exact ⟨0, by simpa [segLen2, Spec.sqrDist] using he⟩
            · refine ⟨1, ?_⟩
              simpa [segLen2, Spec.sqrDist] using he
      · have l1 : (l.take k).length = k := by
          rw [List.length_take]
          omega
        have l2 : (l.drop k).length = l.length - k := by simp
        have n1 : l.take k ≠ [] := by
          intro e0
          rw [e0] at l1
          simp at l1
          omega
        have n2 : l.drop k ≠ [] := by
          intro e0
          rw [e0] at l2
          simp at l2
          omega
        obtain ⟨runs1, a1, a2, a3, a4⟩ := ih (l.take k) n1 (by omega)
        obtain ⟨runs2, b1, b2, b3, b4⟩ := ih (l.drop k) n2 (by omega)
        refine ⟨runs1 ++ runs2, ?_, ?_, ?_, ?_⟩
        · rw [h _ _ a1 b1 (by simp)]
          rw [List.dropLast_concat, List.filterMap_append, List.append_assoc, List.getLast_drop n2]
        · rw [List.flatten_append, a2, b2, List.take_append_drop]
        · intro run hrun
          rcases List.mem_append.1 hrun with hrun | hrun
          · exact a3 run hrun
          · exact b3 run hrun
        · intro run hrun
          rcases List.mem_append.1 hrun with hrun | hrun
          · exact a4 run hrun
          · exact b4 run hrun
  obtain ⟨runs, h1, h2, h3, h4⟩ := main l.length l hl le_rfl
  refine ⟨_, runs, h1, h2, h3, rfl, h4, ?_⟩
  intro hlen
  match runs, h2, h3, h4, hlen with
  | [], h2, _, _, _ => exact absurd h2.symm hl
  | [run], h2, _, h4, _ =>
    obtain rfl : run = l := by simpa using h2
    exact h4 run (by simp)
  | r1 :: r2 :: rs, _, h3, _, hlen =>
    exfalso
    rw [List.filterMap_cons, List.filterMap_cons, List.head?_eq_some_head (h3 r1 (by simp)),
      List.head?_eq_some_head (h3 r2 (by simp))] at hlen
    simp at hlen

/-- a polyline with an inner point at distance one, and a tolerance -/
example : (2 : ℕ) ≤ ([⟨0, 0⟩, ⟨1, 1⟩, ⟨2, 0⟩] : List (Point2D ℝ)).length ∧ ¬ (zero >. (1 / 2 : ℝ)) = true ∧
    (⟨0, 0⟩ : Point2D ℝ).x ≠ (⟨2, 0⟩ : Point2D ℝ).x := by
  norm_num

/-- **C44 violated** the point before the split point is dropped whatever its distance: for (0,0), (1,9), (2,10),
(3,0) and tolerance 1/2 the point (1,9) is dropped although it is further than that from both lines of the
result. A vertical base line makes the distance NaN and drops everything: for (0,0), (5,1), (0,2) and
tolerance 1 only the end points are left. A single point is returned twice. -/
theorem c44_violated :
    (∃ (l : List (Point2D F64)) (e : F64) (a b c p : Point2D F64), e = .ofRat (1 / 2) ∧
      douglasPeucker e l.length l = some [a, b, c] ∧ p ∈ l ∧
      (distancePointLine p a b >. e) = true ∧ (distancePointLine p b c >. e) = true) ∧
    (∃ (l : List (Point2D F64)) (a b p : Point2D F64), douglasPeucker (.ofRat 1) l.length l = some [a, b] ∧
      a.x = .ofRat 0 ∧ b.x = .ofRat 0 ∧ p ∈ l ∧ p.x = .ofRat 5) ∧
    ∃ p : Point2D F64, douglasPeucker (.ofRat 1) 1 [p] = some [p, p] := by
  refine ⟨⟨[⟨.ofRat 0, .ofRat 0⟩, ⟨.ofRat 1, .ofRat 9⟩, ⟨.ofRat 2, .ofRat 10⟩, ⟨.ofRat 3, .ofRat 0⟩], .ofRat (1 / 2),
      ⟨.ofRat 0, .ofRat 0⟩, ⟨.ofRat 2, .ofRat 10⟩, ⟨.ofRat 3, .ofRat 0⟩, ⟨.ofRat 1, .ofRat 9⟩, rfl, ?_, ?_, ?_, ?_⟩,
    ⟨[⟨.ofRat 0, .ofRat 0⟩, ⟨.ofRat 5, .ofRat 1⟩, ⟨.ofRat 0, .ofRat 2⟩], ⟨.ofRat 0, .ofRat 0⟩, ⟨.ofRat 0, .ofRat 2⟩,
      ⟨.ofRat 5, .ofRat 1⟩, ?_, rfl, rfl, ?_, rfl⟩, ⟨⟨.ofRat 0, .ofRat 0⟩, ?_⟩⟩ <;> decide +kernel

/-- **C44 violated** with a negative tolerance the recursion never ends. -/
theorem c44_negative (p q : Point2D F64) (fuel : Nat) : douglasPeucker (F64.ofRat (-1)) fuel [p, q] = none := by
  induction fuel with
  | zero => rfl
  | succ fuel ih =>
    have h : ((zero : F64) >. F64.ofRat (-1)) = true := by decide +kernel
    rw [douglasPeucker]
    simp only [List.getLast?_cons_cons, List.getLast?_singleton, List.dropLast_singleton, dpFind, if_pos h,
      List.take_zero, List.drop_zero, ih, Option.bind_eq_bind, Option.bind_some, Option.bind_none,
      Option.bind_fun_none]

end R3D

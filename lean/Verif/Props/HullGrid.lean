import Verif.Lemmas.F64Grid
import Verif.Props.Hull
import Verif.Props.DistFloat
import Verif.Props.BoxGrid
/-!
C102: doubles on a fixed point grid. The convex hull.
-/
namespace R3D
open Scalar LawfulScalar Spec F64

/-- both coordinates are finite and multiples of `2^e` with at most `2^23` steps -/
def Spec.Grid2 (e : ℤ) (p : Point2D F64) : Prop :=
  p.Num ∧ ∀ d, ∃ n : ℤ, |n| ≤ 2 ^ 23 ∧ toR (at2 p d) = n * 2 ^ e

/-- all coordinates are finite and multiples of `2^e` with at most `2^23` steps -/
def Spec.Grid3 (e : ℤ) (p : Point3D F64) : Prop :=
  p.Num ∧ ∀ d, ∃ n : ℤ, |n| ≤ 2 ^ 23 ∧ toR (at3 p d) = n * 2 ^ e

theorem Spec.Grid2.get {e : ℤ} {p : Point2D F64} (h : Grid2 e p) :
    ∃ i j : ℤ, |i| ≤ 2 ^ 23 ∧ |j| ≤ 2 ^ 23 ∧ Grid e i p.x ∧ Grid e j p.y := by
  obtain ⟨n, h⟩ := h
  rw [Fin.forall_fin_two] at h
  obtain ⟨⟨i, hi, ei⟩, j, hj, ej⟩ := h
  exact ⟨i, j, hi, hj, ⟨n.1, ei⟩, n.2, ej⟩

theorem Spec.Grid3.get {e : ℤ} {p : Point3D F64} (h : Grid3 e p) :
    ∃ i j k : ℤ, |i| ≤ 2 ^ 23 ∧ |j| ≤ 2 ^ 23 ∧ |k| ≤ 2 ^ 23 ∧ Grid e i p.x ∧ Grid e j p.y ∧ Grid e k p.z := by
  obtain ⟨n, h⟩ := h
  rw [forall_fin3] at h
  obtain ⟨⟨i, hi, ei⟩, ⟨j, hj, ej⟩, k, hk, ek⟩ := h
  exact ⟨i, j, k, hi, hj, hk, ⟨n.1, ei⟩, ⟨n.2.1, ej⟩, n.2.2, ek⟩

theorem mul_bound {a b A B : ℤ} (h1 : |a| ≤ A) (h2 : |b| ≤ B) : |a * b| ≤ A * B := by
  rw [abs_mul]; exact mul_le_mul h1 h2 (abs_nonneg _) ((abs_nonneg _).trans h1)

theorem sub_bound {a b A B : ℤ} (h1 : |a| ≤ A) (h2 : |b| ≤ B) : |a - b| ≤ A + B :=
  (abs_sub _ _).trans (add_le_add h1 h2)

theorem add_bound {a b A B : ℤ} (h1 : |a| ≤ A) (h2 : |b| ≤ B) : |a + b| ≤ A + B :=
  (abs_add_le _ _).trans (add_le_add h1 h2)

/-- the turn of three grid points is computed exactly -/
theorem ccw_grid {e : ℤ} (he : -500 ≤ e) (he' : e ≤ 400) {a b c : Point2D F64} (ha : Grid2 e a) (hb : Grid2 e b) (hc : Grid2 e c) :
    F64.Num (ccw a b c) ∧ toR (ccw a b c) = ccw a.real b.real c.real := by
  obtain ⟨a1, a2, ha1, ha2, ga1, ga2⟩ := ha.get
  obtain ⟨b1, b2, hb1, hb2, gb1, gb2⟩ := hb.get
  obtain ⟨c1, c2, hc1, hc2, gc1, gc2⟩ := hc.get
  have s1 := sub_bound hb1 ha1
  have s2 := sub_bound hc2 ha2
  have s3 := sub_bound hb2 ha2
  have s4 := sub_bound hc1 ha1
  have g1 := gb1.sub ga1 (by omega) (by omega) (by omega)
  have g2 := gc2.sub ga2 (by omega) (by omega) (by omega)
  have g3 := gb2.sub ga2 (by omega) (by omega) (by omega)
  have g4 := gc1.sub ga1 (by omega) (by omega) (by omega)
  have m1 := mul_bound s1 s2
  have m2 := mul_bound s3 s4
  have p1 := g1.mul g2 (by omega) (by omega) (by omega)
  have p2 := g3.mul g4 (by omega) (by omega) (by omega)
  have m3 := sub_bound m1 m2
  have p3 := p1.sub p2 (by omega) (by omega) (by omega)
  refine ⟨p3.1, p3.2.trans ?_⟩
  simp only [ccw, Point2D.real, ga1.2, ga2.2, gb1.2, gb2.2, gc1.2, gc2.2]
  rw [zpow_add₀ two_ne_zero]
  push_cast
  ring

theorem hullPop_grid {e : ℤ} (he : -500 ≤ e) (he' : e ≤ 400) {p : Point2D F64} (hp : Grid2 e p) (l : List (Point2D F64))
    (hl : ∀ q ∈ l, Grid2 e q) :
    (hullPop p l).map Point2D.real = hullPop p.real (l.map Point2D.real) ∧ ∀ q ∈ hullPop p l, Grid2 e q := by
  induction l with
  | nil => simp [hullPop]
  | cons b l ih =>
    cases l with
    | nil => exact ⟨by simp [hullPop], by simpa [hullPop] using hl⟩
    | cons a l =>
      obtain ⟨n, h⟩ := ccw_grid he he' (hl a (by simp)) (hl b (by simp)) hp
      have hc : (ccw a b p <=. zero) = (ccw a.real b.real p.real <=. zero) := by
        rw [Bool.eq_iff_iff, num_le n num_zero, toR_zero, h]
        simp [zero]
      simp only [List.map_cons, hullPop, hc]
      split_ifs with h0
      · exact ih (fun q hq => hl q (by simp at hq ⊢; tauto))
      · exact ⟨rfl, hl⟩

theorem hullFold_grid {e : ℤ} (he : -500 ≤ e) (he' : e ≤ 400) (l : List (Point2D F64)) (hl : ∀ q ∈ l, Grid2 e q) (s : List (Point2D F64))
    (hs : ∀ q ∈ s, Grid2 e q) :
    (l.foldl hullStep s).map Point2D.real = (l.map Point2D.real).foldl hullStep (s.map Point2D.real) := by
  induction l generalizing s with
  | nil => rfl
  | cons p l ih =>
    obtain ⟨h1, h2⟩ := hullPop_grid he he' (hl p (by simp)) s hs
    rw [List.foldl_cons, List.map_cons, List.foldl_cons, ih (fun q hq => hl q (by simp [hq]))]
    · simp only [hullStep, List.map_cons, h1]
    · intro q hq
      simp only [hullStep, List.mem_cons] at hq
      rcases hq with rfl | hq
      · exact hl q (by simp)
      · exact h2 q hq

theorem sortInsert_map {α β : Type} (g : α → β) (le : α → α → Bool) (le' : β → β → Bool) (P : α → Prop)
    (h : ∀ a b, P a → P b → le a b = le' (g a) (g b)) (a : α) (ha : P a) (l : List α) (hl : ∀ b ∈ l, P b) :
    (sortInsert le a l).map g = sortInsert le' (g a) (l.map g) := by
  induction l with
  | nil => rfl
  | cons b l ih =>
    simp only [sortInsert, List.map_cons, h a b ha (hl b (by simp))]
    split_ifs
    · rfl
    · rw [List.map_cons, ih (fun c hc => hl c (by simp [hc]))]

theorem stableSort_map {α β : Type} (g : α → β) (le : α → α → Bool) (le' : β → β → Bool) (P : α → Prop)
    (h : ∀ a b, P a → P b → le a b = le' (g a) (g b)) (l : List α) (hl : ∀ b ∈ l, P b) :
    (stableSort le l).map g = stableSort le' (l.map g) := by
  induction l with
  | nil => rfl
  | cons a l ih =>
    simp only [stableSort, List.map_cons]
    rw [sortInsert_map g le le' P h a (hl a (by simp)), ih (fun c hc => hl c (by simp [hc]))]
    intro b hb
    exact hl b (by simp [(stableSort_perm (le := le) l).mem_iff.1 hb])

theorem partialCmp_grid {a b : F64} (ha : F64.Num a) (hb : F64.Num b) : partialCmp a b = partialCmp (toR a) (toR b) := by
  have h1 : Scalar.lt a b = Scalar.lt (toR a) (toR b) := by
    rw [Bool.eq_iff_iff, num_lt ha hb]; simp
  have h2 : Scalar.lt b a = Scalar.lt (toR b) (toR a) := by
    rw [Bool.eq_iff_iff, num_lt hb ha]; simp
  have h3 : Scalar.eq a b = Scalar.eq (toR a) (toR b) := by
    rw [Bool.eq_iff_iff, num_eq ha hb]; simp
  simp only [partialCmp, h1, h2, h3]

theorem sort_grid (l : List (Point2D F64)) (hl : ∀ q ∈ l, q.Num) :
    (sortVec2DX l).map Point2D.real = sortVec2DX (l.map Point2D.real) := by
  unfold sortVec2DX
  refine stableSort_map _ _ _ Point2D.Num ?_ l hl
  intro a b ha hb
  simp only [Point2D.real, partialCmp_grid ha.1 hb.1, partialCmp_grid ha.2 hb.2]

/-- on the grid the hull of doubles is the exact hull -/
theorem hull_grid {e : ℤ} (he : -500 ≤ e) (he' : e ≤ 400) (l : List (Point2D F64)) (hl : ∀ q ∈ l, Grid2 e q) :
    (convexHull2D l).map Point2D.real = convexHull2D (l.map Point2D.real) := by
  have hs : ∀ q ∈ sortVec2DX l, Grid2 e q := fun q hq => hl q ((stableSort_perm l).mem_iff.1 hq)
  simp only [convexHull2D, hullChain, List.map_append, List.map_dropLast, List.map_reverse]
  rw [hullFold_grid he he' _ hs [] (by simp), hullFold_grid he he' _ (fun q hq => hs q (List.mem_reverse.1 hq)) [] (by simp),
    List.map_reverse, sort_grid l (fun q hq => (hl q hq).1)]
  rfl

theorem hullPop_sub {α : Type} [Scalar α] (p : Point2D α) (l : List (Point2D α)) : ∀ q ∈ hullPop p l, q ∈ l := by
  induction l with
  | nil => simp [hullPop]
  | cons b l ih =>
    cases l with
    | nil => simp [hullPop]
    | cons a l =>
      intro q hq
      rw [hullPop] at hq
      split_ifs at hq
      · exact List.mem_cons_of_mem _ (ih q hq)
      · exact hq

theorem hullFold_sub {α : Type} [Scalar α] (l s : List (Point2D α)) : ∀ q ∈ l.foldl hullStep s, q ∈ l ∨ q ∈ s := by
  induction l generalizing s with
  | nil => intro q hq; exact .inr hq
  | cons p l ih =>
    intro q hq
    rcases ih _ q hq with h | h
    · exact .inl (List.mem_cons_of_mem _ h)
    · rcases List.mem_cons.1 h with rfl | h
      · exact .inl List.mem_cons_self
      · exact .inr (hullPop_sub p s q h)

/-- for every scalar type the points of the hull are input points -/
theorem hull_sub {α : Type} [Scalar α] (l : List (Point2D α)) : ∀ q ∈ convexHull2D l, q ∈ l := by
  intro q hq
  simp only [convexHull2D, hullChain, List.mem_append] at hq
  rcases hq with h | h
  · rcases hullFold_sub _ _ q (List.mem_reverse.1 (List.mem_of_mem_dropLast h)) with h | h
    · exact (stableSort_perm l).mem_iff.1 h
    · simp at h
  · rcases hullFold_sub _ _ q (List.mem_reverse.1 (List.mem_of_mem_dropLast h)) with h | h
    · exact (stableSort_perm l).mem_iff.1 (List.mem_reverse.1 h)
    · simp at h

/-- C102, convex hull of doubles. Coordinates on a fixed point grid (e.g. all whole numbers up to 2^23), points
above each other given bottom up: what C43 says of exact arithmetic holds for doubles. The points of the result are
points of the input; every input point is on or left of every edge of the closed polygon, and in the convex hull
of the result; unless all points are on one line there are at least three points, none twice, and the
polygon turns left everywhere. -/
theorem c102_hull (e : ℤ) (he : -500 ≤ e) (he' : e ≤ 400) (l : List (Point2D F64)) (h2 : 2 ≤ l.length) (hl : ∀ q ∈ l, Grid2 e q)
    (hord : l.Pairwise fun p q => toR p.x = toR q.x → toR p.y ≤ toR q.y) :
    (∀ p ∈ convexHull2D l, p ∈ l) ∧
    (∀ a b, CyclicEdge ((convexHull2D l).map Point2D.real) a b → ∀ p ∈ l, 0 ≤ turn a b p.real) ∧
    (∀ p ∈ l, (toR p.x, toR p.y) ∈ convexHull ℝ ((fun q : Point2D F64 => (toR q.x, toR q.y)) '' {q | q ∈ convexHull2D l})) ∧
    (¬ Collinear2 (l.map Point2D.real) → 3 ≤ (convexHull2D l).length ∧ ((convexHull2D l).map Point2D.real).Nodup ∧
      ∀ a b c, CyclicCorner ((convexHull2D l).map Point2D.real) a b c → 0 < turn a b c) := by
  have H := c43_hull_partial (l.map Point2D.real) (by simpa using h2) (List.pairwise_map.2 hord)
  rw [← hull_grid he he' l hl] at H
  obtain ⟨h1, h2, h3, h4⟩ := H
  refine ⟨hull_sub l, fun a b h p hp => h2 a b h p.real (List.mem_map_of_mem hp), ?_, ?_⟩
  · intro p hp
    have := h3 p.real (List.mem_map_of_mem hp)
    show (p.real.x, p.real.y) ∈ _
    convert this using 2
    ext ⟨u, v⟩
    constructor
    · rintro ⟨q, hq, e⟩
      exact ⟨q.real, List.mem_map_of_mem hq, e⟩
    · rintro ⟨q, hq, e⟩
      obtain ⟨r, hr, rfl⟩ := List.mem_map.1 hq
      exact ⟨r, hr, e⟩
  · intro hc
    obtain ⟨a, b, c⟩ := h4 hc
    exact ⟨by simpa using a, b, c⟩

/-- whole numbers up to 2^23 are on the grid of step 1 -/
theorem grid2_whole {a b : ℤ} (h1 : |a| ≤ 2 ^ 23) (h2 : |b| ≤ 2 ^ 23) : Grid2 0 ⟨f a, f b⟩ := by
  have ga := grid_whole (n := a) (by omega)
  have gb := grid_whole (n := b) (by omega)
  refine ⟨⟨ga.1, gb.1⟩, ?_⟩
  rw [Fin.forall_fin_two]
  exact ⟨⟨a, h1, ga.2⟩, b, h2, gb.2⟩

theorem grid3_whole {a b c : ℤ} (h1 : |a| ≤ 2 ^ 23) (h2 : |b| ≤ 2 ^ 23) (h3 : |c| ≤ 2 ^ 23) : Grid3 0 ⟨f a, f b, f c⟩ := by
  have ga := grid_whole (n := a) (by omega)
  have gb := grid_whole (n := b) (by omega)
  have gc := grid_whole (n := c) (by omega)
  refine ⟨⟨ga.1, gb.1, gc.1⟩, ?_⟩
  rw [forall_fin3]
  exact ⟨⟨a, h1, ga.2⟩, ⟨b, h2, gb.2⟩, c, h3, gc.2⟩

/-- the hypotheses are met: a triangle with a point inside and one on its border, not all on one line -/
example : ∃ l : List (Point2D F64), l = [⟨f ((0:ℤ)), f ((0:ℤ))⟩, ⟨f ((8000000:ℤ)), f ((0:ℤ))⟩, ⟨f ((0:ℤ)), f ((7:ℤ))⟩, ⟨f ((4:ℤ)), f ((0:ℤ))⟩, ⟨f ((1:ℤ)), f ((1:ℤ))⟩] ∧
    2 ≤ l.length ∧ (∀ q ∈ l, Grid2 0 q) ∧ (l.Pairwise fun p q => toR p.x = toR q.x → toR p.y ≤ toR q.y) ∧
    ¬ Collinear2 (l.map Point2D.real) := by
  have v : ∀ n : ℤ, |n| < 2 ^ 53 → toR (f n) = n := fun n h => by rw [(grid_whole h).2]; simp
  have v0 := v 0 (by norm_num)
  have v1 := v 1 (by norm_num)
  have v4 := v 4 (by norm_num)
  have v7 := v 7 (by norm_num)
  have v8 := v 8000000 (by norm_num)
  refine ⟨_, rfl, by simp, ?_, ?_, ?_⟩
  · intro q hq
    simp only [List.mem_cons, List.not_mem_nil, or_false] at hq
    rcases hq with rfl | rfl | rfl | rfl | rfl <;> exact grid2_whole (by norm_num) (by norm_num)
  · simp only [List.pairwise_cons, List.mem_cons, List.not_mem_nil, or_false, forall_eq_or_imp, forall_eq, v0, v1, v4, v7, v8]
    norm_num
  · intro h
    have := h ⟨toR (f ((0:ℤ))), toR (f ((0:ℤ)))⟩ (by simp [Point2D.real]) ⟨toR (f ((4:ℤ))), toR (f ((0:ℤ)))⟩ (by simp [Point2D.real]) ⟨toR (f ((1:ℤ))), toR (f ((1:ℤ)))⟩ (by simp [Point2D.real])
    simp only [turn, v0, v1, v4] at this
    norm_num at this

end R3D

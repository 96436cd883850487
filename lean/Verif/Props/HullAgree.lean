import Verif.Props.Hull
import Verif.Props.Within
/-!
C144 for convex hulls: a hull answers questions about half planes and bounding boxes like the points it was made of.
-/
namespace R3D
open Scalar LawfulScalar Spec

theorem hull_half (l : List (Point2D ℝ)) (hl : 2 ≤ l.length) (hord : l.Pairwise fun p q => p.x = q.x → p.y ≤ q.y)
    (u : Fin 2 → ℝ) (k : ℝ) (h : ∀ p ∈ convexHull2D l, InHalf2 u k p) : ∀ p ∈ l, InHalf2 u k p := by
  intro p hp
  obtain ⟨-, -, h3, -⟩ := c43_hull_partial l hl hord
  have hc : Convex ℝ {q : ℝ × ℝ | u 0 * q.1 + u 1 * q.2 ≤ k} := by
    intro x hx y hy a b ha hb hab
    simp only [Set.mem_ofPred_eq, Prod.fst_add, Prod.snd_add, Prod.smul_fst, Prod.smul_snd, smul_eq_mul] at hx hy ⊢
    have h1 := mul_le_mul_of_nonneg_left hx ha
    have h2 := mul_le_mul_of_nonneg_left hy hb
    have : a * k + b * k = k := by rw [← add_mul, hab, one_mul]
    nlinarith
  have := convexHull_min (s := (fun q : Point2D ℝ => (q.x, q.y)) '' {q | q ∈ convexHull2D l}) (by
    rintro _ ⟨q, hq, rfl⟩
    have := h q hq
    simp only [InHalf2, Fin.sum_univ_two, at2] at this
    exact this) hc (h3 p hp)
  simp only [InHalf2, Fin.sum_univ_two, at2]
  exact this

/-- **C144** (partial: points above each other are given bottom up as in C43, see `c144_violated_hull`) the points of the convex hull
are in the same half planes and have the same bounding box as all points (exact arithmetic). -/
theorem c144_hull_partial (l : List (Point2D ℝ)) (hl : 2 ≤ l.length) (hord : l.Pairwise fun p q => p.x = q.x → p.y ≤ q.y) :
    (∀ u k, (∀ p ∈ convexHull2D l, InHalf2 u k p) ↔ ∀ p ∈ l, InHalf2 u k p) ∧
    ∀ b, BoundingBox2D.fromIterator (convexHull2D l) = .ok b ↔ BoundingBox2D.fromIterator l = .ok b := by
  obtain ⟨h1, -, h3, -⟩ := c43_hull_partial l hl hord
  have hne : convexHull2D l ≠ [] := by
    intro he
    obtain ⟨p, hp⟩ := List.exists_mem_of_ne_nil l (by rintro rfl; simp at hl)
    have := h3 p hp
    rw [he] at this
    simp at this
  have half : ∀ (v : Fin 2 → ℝ) k, (∀ p ∈ convexHull2D l, ∑ d, v d * at2 p d ≤ k) → ∀ p ∈ l, ∑ d, v d * at2 p d ≤ k := hull_half l hl hord
  have up : ∀ d k, (∀ p ∈ convexHull2D l, at2 p d ≤ k) → ∀ p ∈ l, at2 p d ≤ k := by
    intro d k h p hp
    have := half (fun e => if e = d then 1 else 0) k (fun q hq => by simpa using h q hq) p hp
    simpa using this
  have down : ∀ d k, (∀ p ∈ convexHull2D l, k ≤ at2 p d) → ∀ p ∈ l, k ≤ at2 p d := by
    intro d k h p hp
    have := half (fun e => if e = d then -1 else 0) (-k) (fun q hq => by simpa using h q hq) p hp
    simpa using this
  refine ⟨fun u k => ⟨hull_half l hl hord u k, fun h p hp => h p (h1 p hp)⟩, fun b => ?_⟩
  rw [fromIterator_real_2d, fromIterator_real_2d]
  constructor
  · rintro ⟨b1, b2, b3⟩
    refine ⟨b1, fun p hp d => ⟨down d _ (fun q hq => (b2 q hq d).1) p hp, up d _ (fun q hq => (b2 q hq d).2) p hp⟩, fun d => ?_⟩
    obtain ⟨⟨p, hp, e⟩, q, hq, e'⟩ := b3 d
    exact ⟨⟨p, h1 p hp, e⟩, q, h1 q hq, e'⟩
  · rintro ⟨b1, b2, b3⟩
    refine ⟨b1, fun p hp d => b2 p (h1 p hp) d, fun d => ?_⟩
    classical
    have hfin : (convexHull2D l).toFinset.Nonempty := by
      obtain ⟨p, hp⟩ := List.exists_mem_of_ne_nil _ hne
      exact ⟨p, List.mem_toFinset.2 hp⟩
    obtain ⟨⟨p, hp, e⟩, q, hq, e'⟩ := b3 d
    constructor
    · obtain ⟨x, hx, hmin⟩ := Finset.exists_min_image _ (fun p => at2 p d) hfin
      rw [List.mem_toFinset] at hx
      refine ⟨x, hx, le_antisymm ?_ (b2 x (h1 x hx) d).1⟩
      rw [← e]
      exact down d _ (fun y hy => hmin y (List.mem_toFinset.2 hy)) p hp
    · obtain ⟨x, hx, hmax⟩ := Finset.exists_max_image _ (fun p => at2 p d) hfin
      rw [List.mem_toFinset] at hx
      refine ⟨x, hx, le_antisymm (b2 x (h1 x hx) d).2 ?_⟩
      rw [← e']
      exact up d _ (fun y hy => hmax y (List.mem_toFinset.2 hy)) q hq

/-- the hypotheses are met -/
example : 2 ≤ [(⟨0, 0⟩ : Point2D ℝ), ⟨0, 2⟩, ⟨1, 1⟩, ⟨3, 0⟩].length ∧
    [(⟨0, 0⟩ : Point2D ℝ), ⟨0, 2⟩, ⟨1, 1⟩, ⟨3, 0⟩].Pairwise fun p q => p.x = q.x → p.y ≤ q.y := by
  constructor
  · simp
  · simp

/-- **C144** is violated for hulls of points above each other in another order (follows C43): the bounding box of the hull of (0,1), (0,0),
(0,2), (1,1) begins at y = 1, that of the points at y = 0. -/
theorem c144_violated_hull : ∃ (l : List (Point2D F64)) (b b' : BoundingBox2D F64),
    BoundingBox2D.fromIterator (convexHull2D l) = .ok b ∧ BoundingBox2D.fromIterator l = .ok b' ∧
      b.min.y = F64.ofRat 1 ∧ b'.min.y = F64.ofRat 0 := by
  refine ⟨[⟨.ofRat 0, .ofRat 1⟩, ⟨.ofRat 0, .ofRat 0⟩, ⟨.ofRat 0, .ofRat 2⟩, ⟨.ofRat 1, .ofRat 1⟩],
    ⟨⟨.ofRat 0, .ofRat 1⟩, ⟨.ofRat 1, .ofRat 2⟩⟩, ⟨⟨.ofRat 0, .ofRat 0⟩, ⟨.ofRat 1, .ofRat 2⟩⟩, ?_, ?_, rfl, rfl⟩
  all_goals decide +kernel

end R3D

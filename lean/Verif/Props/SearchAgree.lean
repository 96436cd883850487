import Verif.Props.KdTreeFloat
import Verif.Props.Filter
/-!
C144: different ways to ask for the same points give the same answer. Searches in a tree are compared with filters, with each
other and with bounding boxes.
-/
namespace R3D
open Scalar LawfulScalar Spec

/-- the cube around a sphere -/
def cubeAround {α : Type} [Scalar α] (s : Sphere α) : Box3D α :=
  ⟨s.center, ⟨lit 2 * s.radius.val⟩, ⟨lit 2 * s.radius.val⟩, ⟨lit 2 * s.radius.val⟩⟩

section
variable {P : Type} (pos : P → Point3D ℝ) (pts : List P) (t : KdTree P)

/-- **C144** searching a tree for a sphere finds what the sphere filter allows, as often as it is there. -/
theorem c144_sphere_filter (ht : KdTree.Built pos pts t) (s : Sphere ℝ) (hs : 0 < s.radius.val) :
    (t.inSphere pos s []).Perm (pts.filter fun x => filterSphere s (pos x)) := by
  obtain ⟨r, hr, hp⟩ := KdTree.c27_in_sphere pos pts t ht s hs []
  rw [hr, List.nil_append]
  refine hp _ fun x => ?_
  rw [(c36_round ⟨⟨0, 0⟩, s.radius⟩ s hs hs ⟨0, 0⟩ (pos x)).2]
  simp only [Spec.sqrDist]
  rw [show ∑ d, (at3 (pos x) d - at3 s.center d) ^ 2 = ∑ d, (at3 s.center d - at3 (pos x) d) ^ 2 from
    Finset.sum_congr rfl fun d _ => by ring]

/-- **C144** searching a tree for a box finds what the box filter allows, as often as it is there. -/
theorem c144_box_filter (ht : KdTree.Built pos pts t) (b : Box3D ℝ) :
    (t.inBox pos b []).Perm (pts.filter fun x => filterBox3D b (pos x)) := by
  obtain ⟨r, hr, hp⟩ := KdTree.c27_in_box pos pts t ht b []
  rw [hr, List.nil_append]
  refine hp _ fun x => ?_
  rw [(c36_box ⟨⟨0, 0⟩, b.sizeX, b.sizeY⟩ b ⟨0, 0⟩ (pos x)).2, forall_fin3]
  simp only [at3, abs_le, Matrix.cons_val]
  constructor
  · rintro ⟨⟨a1, a2⟩, ⟨b1, b2⟩, c1, c2⟩
    exact ⟨⟨by linarith, by linarith⟩, ⟨by linarith, by linarith⟩, by linarith, by linarith⟩
  · rintro ⟨⟨a1, a2⟩, ⟨b1, b2⟩, c1, c2⟩
    exact ⟨⟨by linarith, by linarith⟩, ⟨by linarith, by linarith⟩, by linarith, by linarith⟩

theorem mem_inSphere (ht : KdTree.Built pos pts t) (s : Sphere ℝ) (hs : 0 < s.radius.val) (x : P) :
    x ∈ t.inSphere pos s [] ↔ x ∈ pts ∧ Spec.sqrDist (at3 s.center) (at3 (pos x)) ≤ s.radius.val ^ 2 := by
  classical
  obtain ⟨r, hr, hp⟩ := KdTree.c27_in_sphere pos pts t ht s hs []
  rw [hr, List.nil_append, (hp (fun x => decide (Spec.sqrDist (at3 s.center) (at3 (pos x)) ≤ s.radius.val ^ 2))
    fun x => by simp).mem_iff, List.mem_filter]
  simp

/-- **C144** the nearest point and the search for a sphere agree: the nearest point is found by every search that finds
anything, and a search finds nothing exactly if the nearest point is outside of the sphere. -/
theorem c144_nearest_sphere (ht : KdTree.Built pos pts t) (s : Sphere ℝ) (hs : 0 < s.radius.val) :
    ∃ b, t.nearest pos s.center = some (some b) ∧
      (t.inSphere pos s [] ≠ [] → b ∈ t.inSphere pos s []) ∧
      (t.inSphere pos s [] = [] ↔ s.radius.val ^ 2 < Spec.sqrDist (at3 s.center) (at3 (pos b))) := by
  obtain ⟨b, hb, e, hmin⟩ := KdTree.c25_nearest pos pts t ht s.center
  have hm := mem_inSphere pos pts t ht s hs
  refine ⟨b, e, fun hne => ?_, fun h => ?_, fun h => ?_⟩
  · obtain ⟨x, hx⟩ := List.exists_mem_of_ne_nil _ hne
    obtain ⟨h1, h2⟩ := (hm x).1 hx
    exact (hm b).2 ⟨hb, (hmin x h1).trans h2⟩
  · by_contra hc
    have := (hm b).2 ⟨hb, not_lt.1 hc⟩
    rw [h] at this
    simp at this
  · rw [List.eq_nil_iff_forall_not_mem]
    intro x hx
    obtain ⟨h1, h2⟩ := (hm x).1 hx
    exact absurd ((hmin x h1).trans h2) (not_le.2 h)

/-- **C144** the outlier filter asking for one neighbour keeps exactly the points whose nearest point is close enough. -/
theorem c144_outlier (ht : KdTree.Built pos pts t) (d : Positive ℝ) (hd : 0 < d.val) (p : Point3D ℝ) :
    ∃ b, t.nearest pos p = some (some b) ∧
      (filterOutlier3D pos t d 1 p = true ↔ Spec.sqrDist (at3 p) (at3 (pos b)) ≤ d.val ^ 2) := by
  obtain ⟨b, e, -, h⟩ := c144_nearest_sphere pos pts t ht ⟨p, d⟩ hd
  refine ⟨b, e, ?_⟩
  rw [← not_lt, ← h, filterOutlier3D, decide_eq_true_eq, ge_iff_le, Nat.one_le_iff_ne_zero, ne_eq, List.length_eq_zero_iff]

/-- **C144** a search for a sphere finds no more than the search for the cube around it. -/
theorem c144_sphere_in_box (ht : KdTree.Built pos pts t) (s : Sphere ℝ) (hs : 0 < s.radius.val) :
    (t.inSphere pos s []).Subperm (t.inBox pos (cubeAround s) []) := by
  classical
  refine ((c144_sphere_filter pos pts t ht s hs).subperm.trans ?_).trans (c144_box_filter pos pts t ht _).symm.subperm
  refine (List.monotone_filter_right pts fun x hx => ?_).subperm
  rw [(c36_round ⟨⟨0, 0⟩, s.radius⟩ s hs hs ⟨0, 0⟩ (pos x)).2] at hx
  rw [(c36_box ⟨⟨0, 0⟩, s.radius, s.radius⟩ _ ⟨0, 0⟩ (pos x)).2]
  simp only [cubeAround, Real.scalar_lit, Rat.cast_ofNat, mul_div_cancel_left₀ _ (two_ne_zero' ℝ)]
  simp only [Spec.sqrDist, Fin.sum_univ_three, at3, Matrix.cons_val] at hx
  have sx := sq_nonneg ((pos x).x - s.center.x)
  have sy := sq_nonneg ((pos x).y - s.center.y)
  have sz := sq_nonneg ((pos x).z - s.center.z)
  exact ⟨abs_le_of_sq_le_sq (by linarith) hs.le, abs_le_of_sq_le_sq (by linarith) hs.le, abs_le_of_sq_le_sq (by linarith) hs.le⟩

/-- **C144** a search for a box finds no more than the search for a sphere reaching its corners. -/
theorem c144_box_in_sphere (ht : KdTree.Built pos pts t) (b : Box3D ℝ) (r : Positive ℝ) (hr : 0 < r.val)
    (hd : b.sizeX.val ^ 2 + b.sizeY.val ^ 2 + b.sizeZ.val ^ 2 ≤ (2 * r.val) ^ 2) :
    (t.inBox pos b []).Subperm (t.inSphere pos ⟨b.center, r⟩ []) := by
  refine ((c144_box_filter pos pts t ht b).subperm.trans ?_).trans (c144_sphere_filter pos pts t ht ⟨b.center, r⟩ hr).symm.subperm
  refine (List.monotone_filter_right pts fun x hx => ?_).subperm
  rw [(c36_box ⟨⟨0, 0⟩, r, r⟩ _ ⟨0, 0⟩ (pos x)).2] at hx
  rw [(c36_round ⟨⟨0, 0⟩, r⟩ ⟨b.center, r⟩ hr hr ⟨0, 0⟩ (pos x)).2]
  simp only [Spec.sqrDist, Fin.sum_univ_three, at3, Matrix.cons_val]
  obtain ⟨x1, y1, z1⟩ := hx
  have q : ∀ u v : ℝ, |u| ≤ v / 2 → u ^ 2 ≤ v ^ 2 / 4 := fun u v h => by
    have := pow_le_pow_left₀ (abs_nonneg u) h 2
    rw [sq_abs] at this
    linarith [this, show (v / 2) ^ 2 = v ^ 2 / 4 by ring]
  have := q _ _ x1
  have := q _ _ y1
  have := q _ _ z1
  nlinarith

/-- **C144** a search for the bounding box of the points finds all of them. -/
theorem c144_bounding_box (ht : KdTree.Built pos pts t) (bb : BoundingBox3D ℝ)
    (h : BoundingBox3D.fromIterator (pts.map pos) = .ok bb) :
    ∃ b, Box3D.ofBB bb = some b ∧ (t.inBox pos b []).Perm pts := by
  obtain ⟨h1, h2, h3⟩ := c16_from_iterator_3d (pts.map pos) fun _ _ _ => trivial
  have l2 : 2 ≤ (pts.map pos).length := by
    by_contra hc
    rw [h1 (by omega)] at h
    cases h
  have hd : ∀ d, ∃ p ∈ pts.map pos, ∃ q ∈ pts.map pos, key (at3 p d) ≠ key (at3 q d) := by
    intro d
    by_contra hc
    push Not at hc
    rw [h2 l2 ⟨d, hc⟩] at h
    cases h
  obtain ⟨b', e', hv, hm, -⟩ := h3 l2 hd
  rw [h] at e'
  cases e'
  obtain ⟨b, eb, hb⟩ := (c36_box_of_bb ⟨⟨0, 0⟩, ⟨1, 1⟩⟩ bb (by rw [valid_real_2d]; norm_num) hv).2
  refine ⟨b, eb, (c144_box_filter pos pts t ht b).trans ?_⟩
  rw [List.filter_eq_self.2 fun x hx => (hb _).2 (hm _ (List.mem_map_of_mem hx))]

end

/-- **C144** doubles: the nearest point is found by every search for a sphere which it is clearly in, and no search finds
anything if the nearest point is clearly outside; `Rep`, radii from `2 ^ -511` on: as in C91. -/
theorem c144_nearest_sphere_f64_partial {P : Type} (pos : P → Point3D F64) (pts : List P) (t : KdTree P)
    (ht : KdTree.Built pos pts t) (hnum : ∀ x ∈ pts, (pos x).Num) (s : Sphere F64) (hc : s.center.Num)
    (hr : F64.Rep s.radius.val) (hmin : (F64.fin false (2 ^ (-511 : ℤ)) <=. s.radius.val) = true) :
    ∃ b, t.nearest pos s.center = some (some b) ∧
      ((s.center.dist (pos b) <. s.radius.val) = true → b ∈ t.inSphere pos s []) ∧
      ((s.radius.val <. s.center.dist (pos b)) = true → t.inSphere pos s [] = []) := by
  obtain ⟨b, hb, e, hmin'⟩ := KdTree.c25_nearest_f64 pos pts t ht hnum s.center hc
  obtain ⟨r, er, h1, h2⟩ := KdTree.c91_in_sphere_partial pos pts t ht hnum s hc hr hmin []
  rw [List.nil_append] at er
  refine ⟨b, e, fun h => ?_, fun h => ?_⟩
  · rw [er]
    exact h1.subset (List.mem_filter.2 ⟨hb, h⟩)
  · rw [er, List.eq_nil_iff_forall_not_mem]
    intro x hx
    obtain ⟨hx1, hx2⟩ := List.mem_filter.1 (h2.subset hx)
    have hle := hmin' x hx1
    rw [le_iff] at hle hx2
    rw [lt_iff] at h
    exact absurd (hle.2.2.trans hx2.2.2) (not_le.2 h.2.2)

/-- the hypotheses on doubles are met by a tree of a doubled point and a sphere of radius 3 -/
example : ∃ (t : KdTree (Point3D F64)) (s : Sphere F64), KdTree.Built id [KdTree.px 1, KdTree.px 1] t ∧
    (∀ x ∈ [KdTree.px 1, KdTree.px 1], (id x : Point3D F64).Num) ∧ s.center.Num ∧ F64.Rep s.radius.val ∧
      (F64.fin false (2 ^ (-511 : ℤ)) <=. s.radius.val) = true := by
  refine ⟨_, ⟨KdTree.px 1, ⟨F64.ofRat 3⟩⟩, rfl, ?_, KdTree.px_num, ?_, by decide +kernel⟩
  swap; · exact F64.ofRat_rep 3
  intro x hx
  simp only [List.mem_cons, List.not_mem_nil, or_false, or_self] at hx
  rw [hx]
  exact KdTree.px_num

/-- **C144** is violated for several nearest points: a search for a sphere finds two points, the two nearest points asked
for are others. -/
theorem c144_violated_knearest : ∃ (t : KdTree (Point3D F64)) (q : Point3D F64) (r : Positive F64),
    KdTree.Built id [KdTree.w26 1 3, KdTree.w26 3 1, KdTree.w26 2 4] t ∧ t.inSphere id ⟨q, r⟩ [] = [KdTree.w26 3 1, KdTree.w26 1 3] ∧
      t.knearest id q 2 [] = some [KdTree.w26 2 4, KdTree.w26 3 1] := by
  refine ⟨KdTree.newNode id 3 0 [KdTree.w26 1 3, KdTree.w26 3 1, KdTree.w26 2 4], KdTree.w26 2 0, ⟨F64.ofRat (7 / 2)⟩, rfl, ?_, ?_⟩
  all_goals decide +kernel

/-- **C144** is violated for doubles: the filter allows the point, the search finds only two of the three that are there. -/
theorem c144_violated_filter : ∃ (t : KdTree (Point3D F64)) (p : Point3D F64) (s : Sphere F64),
    KdTree.Built id [p, p, p] t ∧ filterSphere s p = true ∧ t.inSphere id s [] = [p, p] := by
  refine ⟨KdTree.newNode id 3 0 [KdTree.px 1, KdTree.px 1, KdTree.px 1], KdTree.px 1,
    ⟨KdTree.px (-3 / 2 ^ 55), ⟨F64.ofRat 1⟩⟩, rfl, ?_, ?_⟩
  all_goals decide +kernel

/-- the hypotheses are met: a tree of four points, two of them equal -/
example : ∃ t, KdTree.Built id [(⟨1, 3, 0⟩ : Point3D ℝ), ⟨3, 1, 0⟩, ⟨2, 4, 0⟩, ⟨1, 3, 0⟩] t ∧
    (1 : ℝ) ^ 2 + 2 ^ 2 + 2 ^ 2 ≤ (2 * 2) ^ 2 := ⟨_, rfl, by norm_num⟩

end R3D

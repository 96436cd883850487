import Verif.Props.SatAxes
import Verif.Props.ShapeBB
import Verif.Props.PointOps
/-!
C134: the bounding box of a collider against the collider: a search by boxes first loses no collision of faces and boxes along the axes.
-/
namespace R3D
open Scalar Spec LawfulScalar

namespace Spec
/-- the points well inside a collider: strictly inside the box, not on the border of the triangle -/
def Inside : Collider3D ℝ → Point3D ℝ → Prop
  | .aabb b, p => (b.min.x < p.x ∧ p.x < b.max.x) ∧ (b.min.y < p.y ∧ p.y < b.max.y) ∧ b.min.z < p.z ∧ p.z < b.max.z
  | .box3 _, _ => False
  | .face t, p => ∃ u v w : ℝ, 0 < u ∧ 0 < v ∧ 0 < w ∧ u + v + w = 1 ∧
      p = ⟨u * t.a.x + v * t.b.x + w * t.c.x, u * t.a.y + v * t.b.y + w * t.c.y, u * t.a.z + v * t.b.z + w * t.c.z⟩
/-- the box and what it shares with another one, borders included -/
def Touch (a b : BoundingBox3D ℝ) : Prop :=
  (a.min.x ≤ b.max.x ∧ b.min.x ≤ a.max.x) ∧ (a.min.y ≤ b.max.y ∧ b.min.y ≤ a.max.y) ∧ a.min.z ≤ b.max.z ∧ b.min.z ≤ a.max.z
end Spec

/-- **C134**: asking a collider directly or as an object with colliders is the same, for all numbers and with all panics -/
theorem c134_wrapped {α : Type} [Scalar α] (c d : Collider3D α) :
    c.asHasColliders.collidesWith d.asHasColliders = c.collidesWith d ∧ c.asHasColliders.collidesWithCollider d = c.collidesWith d := by
  have h : ∀ c d : Collider3D α, c.asHasColliders.collidesWithCollider d = c.collidesWith d := by
    intro c d
    cases c with
    | aabb b => rfl
    | box3 b =>
      simp only [HasColliders.collidesWithCollider, Collider3D.asHasColliders, Collider3D.hasAdditionalColliders, if_true,
        List.foldlM_cons, List.foldlM_nil, Bool.not_false]
      exact bind_pure _
    | face t =>
      simp only [HasColliders.collidesWithCollider, Collider3D.asHasColliders, Collider3D.hasAdditionalColliders, if_true,
        List.foldlM_cons, List.foldlM_nil, Bool.not_false]
      exact bind_pure _
  refine ⟨?_, h c d⟩
  cases d with
  | aabb b => exact h c (.aabb b)
  | box3 b =>
    rw [HasColliders.collidesWith, ← h c (.box3 b)]
    simp only [Collider3D.asHasColliders, Collider3D.hasAdditionalColliders, if_true,
      List.foldlM_cons, List.foldlM_nil, Bool.not_false]
    exact bind_pure _
  | face t =>
    rw [HasColliders.collidesWith, ← h c (.face t)]
    simp only [Collider3D.asHasColliders, Collider3D.hasAdditionalColliders, if_true,
      List.foldlM_cons, List.foldlM_nil, Bool.not_false]
    exact bind_pure _

theorem face_box (t : TriFace3D ℝ) (r : BoundingBox3D ℝ) (h : t.boundingBox = some r) :
    (∀ d, at3 r.min d < at3 r.max d) ∧ (∀ p ∈ t.satPoints, ∀ d, at3 r.min d ≤ at3 p d ∧ at3 p d ≤ at3 r.max d) ∧
    ∀ d, (∃ p ∈ t.satPoints, at3 p d = at3 r.min d) ∧ ∃ p ∈ t.satPoints, at3 p d = at3 r.max d := by
  simp only [TriFace3D.boundingBox] at h
  cases hb : BoundingBox3D.fromIterator [t.a, t.b, t.c] with
  | error e => rw [hb] at h; exact absurd h (by simp [Except.toOption])
  | ok bb =>
    rw [hb] at h
    simp only [Except.toOption, Option.some.injEq] at h
    subst h
    exact (fromIterator_real_3d _ _).1 hb

theorem inside_box (c : Collider3D ℝ) (rc : BoundingBox3D ℝ) (hc : c.boundingBox = some rc)
    (vc : ∀ b, c = .aabb b → (box3 b).Valid) (p : Point3D ℝ) (h : Inside c p) : (box3 rc).Valid ∧ (box3 rc).MemInt (at3 p) := by
  cases c with
  | box3 b => exact h.elim
  | aabb b =>
    simp only [Collider3D.boundingBox, Option.some.injEq] at hc
    subst hc
    refine ⟨vc _ rfl, ?_⟩
    simp only [Box.MemInt, forall_fin3, at3_zero, at3_one, at3_two, box3, Real.key_lt]
    exact h
  | face t =>
    obtain ⟨h1, h2, h3⟩ := face_box t rc hc
    obtain ⟨u, v, w, hu, hv, hw, huvw, rfl⟩ := h
    have hin : ∀ d, at3 rc.min d < u * at3 t.a d + v * at3 t.b d + w * at3 t.c d ∧ u * at3 t.a d + v * at3 t.b d + w * at3 t.c d < at3 rc.max d := by
      intro d
      have ha := h2 t.a (by simp [TriFace3D.satPoints]) d
      have hb := h2 t.b (by simp [TriFace3D.satPoints]) d
      have hc := h2 t.c (by simp [TriFace3D.satPoints]) d
      have hlt := h1 d
      obtain ⟨⟨q, hq, eq⟩, q', hq', eq'⟩ := h3 d
      simp only [TriFace3D.satPoints, List.mem_cons, List.not_mem_nil, or_false] at hq hq'
      have m1 := mul_nonneg hu.le (sub_nonneg.2 ha.1)
      have m2 := mul_nonneg hv.le (sub_nonneg.2 hb.1)
      have m3 := mul_nonneg hw.le (sub_nonneg.2 hc.1)
      have n1 := mul_nonneg hu.le (sub_nonneg.2 ha.2)
      have n2 := mul_nonneg hv.le (sub_nonneg.2 hb.2)
      have n3 := mul_nonneg hw.le (sub_nonneg.2 hc.2)
      have k1 : (u + v + w) * at3 rc.min d = at3 rc.min d := by rw [huvw, one_mul]
      have k2 : (u + v + w) * at3 rc.max d = at3 rc.max d := by rw [huvw, one_mul]
      constructor
      · rcases hq' with rfl | rfl | rfl
        · have := mul_pos hu (sub_pos.2 (eq'.symm ▸ hlt)); nlinarith
        · have := mul_pos hv (sub_pos.2 (eq'.symm ▸ hlt)); nlinarith
        · have := mul_pos hw (sub_pos.2 (eq'.symm ▸ hlt)); nlinarith
      · rcases hq with rfl | rfl | rfl
        · have := mul_pos hu (sub_pos.2 (eq.symm ▸ hlt)); nlinarith
        · have := mul_pos hv (sub_pos.2 (eq.symm ▸ hlt)); nlinarith
        · have := mul_pos hw (sub_pos.2 (eq.symm ▸ hlt)); nlinarith
    refine ⟨⟨fun d => ⟨trivial, trivial⟩, fun d => Real.key_lt.2 (h1 d)⟩, ?_⟩
    simp only [Box.MemInt, forall_fin3, at3_zero, at3_one, at3_two, box3, Real.key_lt]
    exact ⟨hin 0, hin 1, hin 2⟩

/-- **C134** (partial): two faces, two boxes along the axes, or one of each: if they share a point that is on the border of neither,
then their bounding boxes collide as well, whichever is asked. Not so for boxes with any direction (`c134_violated_box`). -/
theorem c134_bounding_boxes_partial (c d : Collider3D ℝ) (rc rd : BoundingBox3D ℝ) (hc : c.boundingBox = some rc) (hd : d.boundingBox = some rd)
    (vc : ∀ b, c = .aabb b → (box3 b).Valid) (vd : ∀ b, d = .aabb b → (box3 b).Valid) (p : Point3D ℝ) (h1 : Inside c p) (h2 : Inside d p) :
    rc.collidesWith rd = some true ∧ rd.collidesWith rc = some true := by
  obtain ⟨v1, m1⟩ := inside_box c rc hc vc p h1
  obtain ⟨v2, m2⟩ := inside_box d rd hd vd p h2
  obtain ⟨r, e, hr⟩ := c18_collides_3d rc rd v1 v2
  obtain ⟨r', e', hr'⟩ := c18_collides_3d rd rc v2 v1
  rw [e, e', hr.2 ⟨_, m1, m2⟩, hr'.2 ⟨_, m2, m1⟩]
  exact ⟨rfl, rfl⟩

/-- **C134**: a box along the axes and a face that collide according to the library, although it may see collisions that are none
(C49), have bounding boxes that at least touch -/
theorem c134_sat_faces (b : BoundingBox3D ℝ) (t : TriFace3D ℝ) (r : BoundingBox3D ℝ) (hr : t.boundingBox = some r) (hv : (box3 b).Valid)
    (h : (Collider3D.aabb b).collidesWith (.face t) = some true ∨ (Collider3D.face t).collidesWith (.aabb b) = some true) : Touch b r := by
  have hs : Collider3D.sat (.aabb b) (.face t) = some true := by
    rcases h with h | h <;> exact h
  cases hx : t.satAxes with
  | none => simp [Collider3D.sat, Collider3D.satObject, hx] at hs
  | some xa =>
  simp only [Collider3D.sat, Collider3D.satObject, hx, Option.bind_eq_bind, Option.bind_some, Option.pure_def, Option.some.injEq] at hs
  rw [c49_sat_iff _ _ _ _ (by simp [BoundingBox3D.satPoints]) (by simp [TriFace3D.satPoints])] at hs
  obtain ⟨-, h2, -⟩ := face_box t r hr
  rw [valid_real_3d] at hv
  have hb : ∀ p ∈ b.satPoints, ∀ d, at3 b.min d ≤ at3 p d ∧ at3 p d ≤ at3 b.max d := by
    intro p hp
    simp only [BoundingBox3D.satPoints, List.mem_cons, List.not_mem_nil, or_false] at hp
    rw [forall_fin3]
    rcases hp with rfl | rfl | rfl | rfl | rfl | rfl | rfl | rfl <;>
      simp [hv.1.le, hv.2.1.le, hv.2.2.le]
  have hd : ∀ (ax : Point3D ℝ) d, (∀ p, dot3 p ax = at3 p d) → ax ∈ b.satAxes → at3 b.min d ≤ at3 r.max d ∧ at3 r.min d ≤ at3 b.max d := by
    intro ax d e hm
    obtain ⟨n1, n2⟩ := hs ax (List.mem_append_left _ hm)
    constructor
    · by_contra hc
      refine n2 fun p hp q hq => ?_
      rw [e, e]
      exact ((h2 p hp d).2.trans_lt (not_le.1 hc)).trans_le (hb q hq d).1
    · by_contra hc
      refine n1 fun p hp q hq => ?_
      rw [e, e]
      exact ((hb p hp d).2.trans_lt (not_le.1 hc)).trans_le (h2 q hq d).1
  refine ⟨hd Norm3D.normX 0 ?_ ?_, hd Norm3D.normY 1 ?_ ?_, hd Norm3D.normZ 2 ?_ ?_⟩ <;>
    simp [dot3, Fin.sum_univ_three, Norm3D.normX, Norm3D.normY, Norm3D.normZ, BoundingBox3D.satAxes]

example : Inside (.aabb ⟨⟨0, 0, 0⟩, ⟨2, 2, 2⟩⟩) ⟨1, 1, 1⟩ ∧ Inside (.face ⟨⟨3, 0, 0⟩, ⟨0, 3, 0⟩, ⟨0, 0, 3⟩⟩) ⟨1, 1, 1⟩ ∧
    ∃ r, (Collider3D.face ⟨⟨3, 0, 0⟩, ⟨0, 3, 0⟩, ⟨0, 0, (3 : ℝ)⟩⟩).boundingBox = some r := by
  refine ⟨by norm_num [Inside], ⟨1 / 3, 1 / 3, 1 / 3, by norm_num, by norm_num, by norm_num, by norm_num, by norm_num⟩, ?_⟩
  obtain ⟨-, r, hr, -⟩ := (c50_triangle ⟨3, 0, 0⟩ ⟨0, 3, 0⟩ ⟨0, 0, 3⟩).1 (by rw [forall_fin3]; norm_num)
  exact ⟨r, hr⟩

/-- **C134** violated: the library sees a collision of two faces although their bounding boxes, and so the faces, are two units apart;
a search by bounding boxes first does not report it. -/
theorem c134_violated_faces : ∃ s t : TriFace3D F64,
    s = ⟨⟨.ofRat (-4), .ofRat (-4), .ofRat 3⟩, ⟨.ofRat (-1), .ofRat (-4), .ofRat (-2)⟩, ⟨.ofRat (-1), .ofRat 4, .ofRat 0⟩⟩ ∧
    t = ⟨⟨.ofRat 1, .ofRat 3, .ofRat (-4)⟩, ⟨.ofRat 4, .ofRat (-1), .ofRat 2⟩, ⟨.ofRat 2, .ofRat 1, .ofRat 0⟩⟩ ∧
    (Collider3D.face s).collidesWith (.face t) = some true ∧
    (do let a ← s.boundingBox; let b ← t.boundingBox; a.collidesWith b) = some false :=
  ⟨_, _, rfl, rfl, by decide +kernel, by decide +kernel⟩

/-- **C134** violated: a box with directions made from the bounding box `[0, 2]³` collides with the box `[2.5, 3]³`, which it
does not touch, because its corners are twice as far off as its size says; its own bounding box does not. -/
theorem c134_violated_box : ∃ (b c : BoundingBox3D F64) (u : BoxUnaligned3D F64),
    b = ⟨⟨.ofRat 0, .ofRat 0, .ofRat 0⟩, ⟨.ofRat 2, .ofRat 2, .ofRat 2⟩⟩ ∧
    c = ⟨⟨.ofRat (5 / 2), .ofRat (5 / 2), .ofRat (5 / 2)⟩, ⟨.ofRat 3, .ofRat 3, .ofRat 3⟩⟩ ∧
    BoxUnaligned3D.newFromBB b = some u ∧ u.boundingBox = some b ∧
    (Collider3D.box3 u).collidesWith (.aabb c) = some true ∧ b.collidesWith c = some false :=
  ⟨_, _, ⟨⟨.ofRat 1, .ofRat 1, .ofRat 1⟩, ⟨.ofRat 0, .ofRat 1, .ofRat 0⟩, ⟨.ofRat 0, .ofRat 0, .ofRat 1⟩, ⟨.ofRat 2⟩, ⟨.ofRat 2⟩, ⟨.ofRat 2⟩⟩,
    rfl, rfl, by decide +kernel, by decide +kernel, by decide +kernel, by decide +kernel⟩

/-- **C103**: the projection on a plane with orthonormal `u` and `v` gives the coordinates of the foot point: the rest of the way to
the point is orthogonal to the plane, no point of the plane is closer, and points of the plane keep their coordinates. -/
theorem c103_foot (o u v p : Point3D ℝ) (hu : dot3 u u = 1) (hv : dot3 v v = 1) (huv : dot3 u v = 0) :
    let inPlane : Point2D ℝ → Point3D ℝ := fun q => ⟨o.x + q.x * u.x + q.y * v.x, o.y + q.x * u.y + q.y * v.y, o.z + q.x * u.z + q.y * v.z⟩
    let q := projectPointOnPlane o u v p
    dot3 (fromTo (inPlane q) p) u = 0 ∧ dot3 (fromTo (inPlane q) p) v = 0 ∧
    (∀ r, sqrDist (at3 p) (at3 (inPlane q)) ≤ sqrDist (at3 p) (at3 (inPlane r))) ∧
    ∀ r, projectPointOnPlane o u v (inPlane r) = r := by
  simp only [dot3, Fin.sum_univ_three, at3_zero, at3_one, at3_two] at hu hv huv
  intro inPlane q
  obtain ⟨a, ha⟩ : ∃ a, a = u.x * (p.x - o.x) + u.y * (p.y - o.y) + u.z * (p.z - o.z) := ⟨_, rfl⟩
  obtain ⟨b, hb⟩ : ∃ b, b = v.x * (p.x - o.x) + v.y * (p.y - o.y) + v.z * (p.z - o.z) := ⟨_, rfl⟩
  have hq : q = ⟨a, b⟩ := by rw [ha, hb]; rfl
  rw [hq]
  refine ⟨?_, ?_, fun r => ?_, fun r => ?_⟩
  · simp only [dot3, Fin.sum_univ_three, at3_zero, at3_one, at3_two, fromTo, inPlane]
    linear_combination (-a) * hu - b * huv - ha
  · simp only [dot3, Fin.sum_univ_three, at3_zero, at3_one, at3_two, fromTo, inPlane]
    linear_combination (-b) * hv - a * huv - hb
  · have e : sqrDist (at3 p) (at3 (inPlane r)) = sqrDist (at3 p) (at3 (inPlane ⟨a, b⟩)) + (a - r.x) ^ 2 + (b - r.y) ^ 2 := by
      simp only [sqrDist, Fin.sum_univ_three, at3_zero, at3_one, at3_two, inPlane]
      linear_combination (r.x ^ 2 - a ^ 2) * hu + (r.y ^ 2 - b ^ 2) * hv + 2 * (r.x * r.y - a * b) * huv + 2 * (r.x - a) * ha + 2 * (r.y - b) * hb
    rw [e]
    nlinarith [sq_nonneg (a - r.x), sq_nonneg (b - r.y)]
  · have : projectPointOnPlane o u v (inPlane r) = ⟨u.x * ((inPlane r).x - o.x) + u.y * ((inPlane r).y - o.y) + u.z * ((inPlane r).z - o.z),
        v.x * ((inPlane r).x - o.x) + v.y * ((inPlane r).y - o.y) + v.z * ((inPlane r).z - o.z)⟩ := rfl
    rw [this]
    obtain ⟨rx, ry⟩ := r
    simp only [inPlane, Point2D.mk.injEq]
    constructor
    · linear_combination rx * hu + ry * huv
    · linear_combination ry * hv + rx * huv

example : projectPointOnPlane ⟨1, 1, 1⟩ ⟨1, 0, 0⟩ ⟨0, 1, 0⟩ ⟨4, 6, (8 : ℝ)⟩ = ⟨3, 5⟩ ∧ dot3 ⟨1, 0, 0⟩ ⟨1, 0, 0⟩ = 1 ∧ dot3 ⟨1, 0, 0⟩ ⟨0, 1, 0⟩ = 0 := by
  simp [projectPointOnPlane, conn, Point3D.dot, dot3, Fin.sum_univ_three]
  norm_num

end R3D

import Verif.Props.SimilarMesh
import Verif.Props.MeshEdit
import Verif.Props.Filter
import Verif.Props.PointCloud
/-!
C133: moving and transforming commute with everything that is computed from positions in an affine way.
-/
namespace R3D
open Scalar Spec

namespace Spec
/-- the affine map of a matrix of the plane -/
def affine2 (m : Matrix3 ℝ) (p : Point2D ℝ) : Point2D ℝ :=
  ⟨m.data 0 0 * p.x + m.data 0 1 * p.y + m.data 0 2, m.data 1 0 * p.x + m.data 1 1 * p.y + m.data 1 2⟩
/-- the point at `t` of the way from `p` to `q` -/
def between2 (t : ℝ) (p q : Point2D ℝ) : Point2D ℝ := ⟨p.x + t * (q.x - p.x), p.y + t * (q.y - p.y)⟩
/-- the point at `t` of the way from `p` to `q` -/
def between3 (t : ℝ) (p q : Point3D ℝ) : Point3D ℝ :=
  ⟨p.x + t * (q.x - p.x), p.y + t * (q.y - p.y), p.z + t * (q.z - p.z)⟩
/-- the mesh with its vertices mapped -/
def mapMesh {P Q : Type} (φ : P → Q) (m : TMesh P) : TMesh Q := ⟨m.verts.map φ, m.faces⟩
end Spec

theorem transformed_affine2 (m : Matrix3 ℝ) : (fun p : Point2D ℝ => p.transformed m) = affine2 m := by
  funext p
  simp [Point2D.transformed, affine2, mul_comm]

theorem transformed_affine3 (m : Matrix4 ℝ) : (fun p : Point3D ℝ => p.transformed m) = affineOf m := by
  funext p
  simp [Point3D.transformed, affineOf, mul_comm]

/-- **C133**, line segments: the transformed segment consists of the transformed points of the segment, point by point, for every
matrix; its center of gravity is the transformed one. -/
theorem c133_segments (m : Matrix3 ℝ) (s : LineSegment2D ℝ) (m' : Matrix4 ℝ) (s' : LineSegment3D ℝ) :
    (∀ t, between2 t (s.transform m).start (s.transform m).end_ = affine2 m (between2 t s.start s.end_)) ∧
    (s.transform m).centerOfGravity = s.centerOfGravity.map (affine2 m) ∧
    (∀ t, between3 t (s'.transform m').start (s'.transform m').end_ = affineOf m' (between3 t s'.start s'.end_)) ∧
    (s'.transform m').centerOfGravity = s'.centerOfGravity.map (affineOf m') := by
  refine ⟨fun t => ?_, ?_, fun t => ?_, ?_⟩
  · simp only [LineSegment2D.transform, between2, affine2, Point2D.transformed, Point2D.mk.injEq]
    constructor <;> ring
  · simp only [LineSegment2D.transform, LineSegment2D.centerOfGravity, center2D, affine2, Point2D.transformed, Option.map_some,
      Point2D.mk.injEq, Option.some.injEq, Real.scalar_lit]
    constructor <;> push_cast <;> ring
  · simp only [LineSegment3D.transform, between3, affineOf, Point3D.transformed, Point3D.mk.injEq]
    refine ⟨?_, ?_, ?_⟩ <;> ring
  · simp only [LineSegment3D.transform, LineSegment3D.centerOfGravity, center3D, affineOf, Point3D.transformed, Option.map_some,
      Point3D.mk.injEq, Option.some.injEq, Real.scalar_lit]
    refine ⟨?_, ?_, ?_⟩ <;> push_cast <;> ring

example : between2 (1 / 4) ((⟨⟨0, 0⟩, ⟨4, 8⟩⟩ : LineSegment2D ℝ).transform (Matrix3.translation 5 7)).start
    ((⟨⟨0, 0⟩, ⟨4, 8⟩⟩ : LineSegment2D ℝ).transform (Matrix3.translation 5 7)).end_ = ⟨6, 9⟩ := by
  rw [(c133_segments _ _ ⟨fun _ _ => 0⟩ ⟨⟨0, 0, 0⟩, ⟨0, 0, 0⟩⟩).1]
  simp [affine2, between2, Matrix3.translation]
  norm_num

theorem mean2_affine (m : Matrix3 ℝ) (l : List (Point2D ℝ)) :
    PointCloud2D.centerOfGravity ⟨l.map (affine2 m)⟩ = (PointCloud2D.centerOfGravity ⟨l⟩).map (affine2 m) := by
  have key : ∀ (l : List (Point2D ℝ)) (a b : ℝ) (k : ℝ),
      (l.map (affine2 m)).foldl (fun (s : ℝ × ℝ) p => (s.1 + p.x, s.2 + p.y))
        (m.data 0 0 * a + m.data 0 1 * b + k * m.data 0 2, m.data 1 0 * a + m.data 1 1 * b + k * m.data 1 2) =
      let r := l.foldl (fun (s : ℝ × ℝ) p => (s.1 + p.x, s.2 + p.y)) (a, b)
      (m.data 0 0 * r.1 + m.data 0 1 * r.2 + (k + l.length) * m.data 0 2, m.data 1 0 * r.1 + m.data 1 1 * r.2 + (k + l.length) * m.data 1 2) := by
    intro l
    induction l with
    | nil => intro a b k; simp
    | cons p l ih =>
      intro a b k
      have := ih (a + p.x) (b + p.y) (k + 1)
      simp only [List.map_cons, List.foldl_cons, List.length_cons, affine2] at this ⊢
      rw [show (k + (((l.length + 1 : Nat)) : ℝ)) = k + 1 + l.length by push_cast; ring]
      rw [← this]
      congr 1
      ext <;> simp only <;> ring
  unfold PointCloud2D.centerOfGravity
  simp only [PointCloud.len, List.length_map]
  split
  · rfl
  · rename_i h
    have hn : (l.length : ℝ) ≠ 0 := by
      have : l.length ≠ 0 := by omega
      exact_mod_cast this
    have := key l 0 0 0
    simp only [mul_zero, zero_mul, add_zero, zero_add] at this
    simp only [Real.scalar_zero, this, Option.map_some, affine2, Option.some.injEq, Point2D.mk.injEq, Real.scalar_lit, Rat.cast_natCast]
    constructor <;> field_simp

theorem mean3_affine (m : Matrix4 ℝ) (l : List (Point3D ℝ)) :
    PointCloud3D.centerOfGravity ⟨l.map (affineOf m)⟩ = (PointCloud3D.centerOfGravity ⟨l⟩).map (affineOf m) := by
  have key : ∀ (l : List (Point3D ℝ)) (a b c : ℝ) (k : ℝ),
      (l.map (affineOf m)).foldl (fun (s : ℝ × ℝ × ℝ) p => (s.1 + p.x, s.2.1 + p.y, s.2.2 + p.z))
        (m.data 0 0 * a + m.data 0 1 * b + m.data 0 2 * c + k * m.data 0 3, m.data 1 0 * a + m.data 1 1 * b + m.data 1 2 * c + k * m.data 1 3,
          m.data 2 0 * a + m.data 2 1 * b + m.data 2 2 * c + k * m.data 2 3) =
      let r := l.foldl (fun (s : ℝ × ℝ × ℝ) p => (s.1 + p.x, s.2.1 + p.y, s.2.2 + p.z)) (a, b, c)
      (m.data 0 0 * r.1 + m.data 0 1 * r.2.1 + m.data 0 2 * r.2.2 + (k + l.length) * m.data 0 3,
        m.data 1 0 * r.1 + m.data 1 1 * r.2.1 + m.data 1 2 * r.2.2 + (k + l.length) * m.data 1 3,
        m.data 2 0 * r.1 + m.data 2 1 * r.2.1 + m.data 2 2 * r.2.2 + (k + l.length) * m.data 2 3) := by
    intro l
    induction l with
    | nil => intro a b c k; simp
    | cons p l ih =>
      intro a b c k
      have := ih (a + p.x) (b + p.y) (c + p.z) (k + 1)
      simp only [List.map_cons, List.foldl_cons, List.length_cons, affineOf] at this ⊢
      rw [show (k + (((l.length + 1 : Nat)) : ℝ)) = k + 1 + l.length by push_cast; ring]
      rw [← this]
      congr 1
      ext <;> simp only <;> ring
  unfold PointCloud3D.centerOfGravity
  simp only [PointCloud.len, List.length_map]
  split
  · rfl
  · rename_i h
    have hn : (l.length : ℝ) ≠ 0 := by
      have : l.length ≠ 0 := by omega
      exact_mod_cast this
    have := key l 0 0 0 0
    simp only [mul_zero, zero_mul, add_zero, zero_add] at this
    simp only [Real.scalar_zero, this, Option.map_some, affineOf, Option.some.injEq, Point3D.mk.injEq, Real.scalar_lit, Rat.cast_natCast]
    refine ⟨?_, ?_, ?_⟩ <;> field_simp

/-- **C133**, clouds and meshes: the center of gravity of a transformed cloud or mesh is the transformed center of gravity, for
every matrix and every number of points; all points are transformed, in their order. -/
theorem c133_clouds (m : Matrix3 ℝ) (pc : PointCloud (Point2D ℝ)) (m' : Matrix4 ℝ) (pc' : PointCloud (Point3D ℝ)) (mesh : TMesh (Point3D ℝ)) :
    (PointCloud2D.transform pc m).data = pc.data.map (affine2 m) ∧ (PointCloud3D.transform pc' m').data = pc'.data.map (affineOf m') ∧
    mesh.transform m' = mapMesh (affineOf m') mesh ∧
    PointCloud2D.centerOfGravity (PointCloud2D.transform pc m) = (PointCloud2D.centerOfGravity pc).map (affine2 m) ∧
    PointCloud3D.centerOfGravity (PointCloud3D.transform pc' m') = (PointCloud3D.centerOfGravity pc').map (affineOf m') ∧
    (mesh.transform m').centerOfGravity = mesh.centerOfGravity.map (affineOf m') ∧
    (mesh.verts ≠ [] → ∃ c, mesh.centerOfGravity = some c ∧ ∀ d, at3 c d = mean3 mesh.verts d) := by
  have e2 : ∀ pc : PointCloud (Point2D ℝ), PointCloud2D.transform pc m = ⟨pc.data.map (affine2 m)⟩ := fun pc => by
    rw [PointCloud2D.transform, transformed_affine2]
  have e3 : ∀ pc : PointCloud (Point3D ℝ), PointCloud3D.transform pc m' = ⟨pc.data.map (affineOf m')⟩ := fun pc => by
    rw [PointCloud3D.transform, transformed_affine3]
  refine ⟨by rw [e2], by rw [e3], by simp only [TMesh.transform, e3, mapMesh], by rw [e2]; exact mean2_affine m pc.data, by rw [e3]; exact mean3_affine m' pc'.data, ?_, ?_⟩
  · simp only [TMesh.centerOfGravity, TMesh.transform, e3]
    exact mean3_affine m' mesh.verts
  · intro h
    exact (c76_center_of_gravity_3d mesh.verts).2 h

example : ((⟨[⟨0, 0, 0⟩, ⟨2, 0, 0⟩, ⟨0, 2, 0⟩, ⟨2, 2, 4⟩], [⟨0, 1, 2⟩]⟩ : TMesh (Point3D ℝ)).transform (Matrix4.translation 1 1 1)).centerOfGravity =
    some ⟨2, 2, 2⟩ := by
  rw [(c133_clouds ⟨fun _ _ => 0⟩ ⟨[]⟩ _ ⟨[]⟩ _).2.2.2.2.2.1]
  simp [TMesh.centerOfGravity, PointCloud3D.centerOfGravity, PointCloud.len, affineOf, Matrix4.translation]
  norm_num

/-- **C133**, subdivision: a transformed mesh is subdivided like the mesh, and the result is transformed, with every matrix; meshes
that cannot be subdivided give the same error. -/
theorem c133_subdivide (m : Matrix4 ℝ) (mesh : TMesh (Point3D ℝ)) :
    TMesh.linear center3D (mesh.transform m) = (TMesh.linear center3D mesh).map (Except.map (mapMesh (affineOf m))) := by
  rw [(c133_clouds ⟨fun _ _ => 0⟩ ⟨[]⟩ m ⟨[]⟩ mesh).2.2.1]
  refine Sim.linear (affineOf m) center3D center3D (fun a b => ?_) mesh
  simp only [center3D, affineOf, Point3D.mk.injEq, Real.scalar_lit]
  refine ⟨?_, ?_, ?_⟩ <;> push_cast <;> ring

/-- **C133**, healing: if the matrix maps different points to different points, then a transformed mesh is healed like the mesh. -/
theorem c133_heal [DecidableEq (Point3D ℝ)] (m : Matrix4 ℝ) (hm : Function.Injective (affineOf m)) (mesh : TMesh (Point3D ℝ)) :
    (mesh.transform m).healMesh = mesh.healMesh.map (Except.map (mapMesh (affineOf m))) := by
  rw [(c133_clouds ⟨fun _ _ => 0⟩ ⟨[]⟩ m ⟨[]⟩ mesh).2.2.1]
  exact Sim.healMesh (affineOf m) hm mesh

example : Function.Injective (affineOf (Matrix4.scale 2 3 4)) := by
  intro p q h
  simp [affineOf, Matrix4.scale] at h
  cases p; cases q; simp_all

/-- **C133**, Bezier curves: the curve of the transformed control points is the transformed curve, point by point, with every
matrix (at most 21 control points as in C45). -/
theorem c133_bezier (m : Matrix3 ℝ) (pc : PointCloud (Point2D ℝ)) (h21 : pc.data.length ≤ 21) (n : Nat) :
    interpolateBezier (PointCloud2D.transform pc m).data n = (interpolateBezier pc.data n).map (Except.map (List.map (affine2 m))) := by
  rw [(c133_clouds m pc ⟨fun _ _ => 0⟩ ⟨[]⟩ ⟨[], []⟩).1]
  obtain ⟨l⟩ := pc
  by_cases h2 : l.length < 2
  · simp [interpolateBezier, h2, Except.map]
  have control : ∀ t, controlPolygon (l.map (affine2 m)) (l.length - 1) t = (controlPolygon l (l.length - 1) t).map (affine2 m) := by
    intro t
    obtain ⟨k, hk⟩ : ∃ k, l.length = k + 1 := ⟨l.length - 1, by omega⟩
    simp only at h21
    let c : Nat → Point2D ℝ := fun i => l[i]?.getD ⟨0, 0⟩
    have hc : ∀ i < l.length, l[i]? = some (c i) := by
      intro i hi
      simp [c, List.getElem?_eq_getElem hi]
    have hc' : ∀ i < (l.map (affine2 m)).length, (l.map (affine2 m))[i]? = some (affine2 m (c i)) := by
      intro i hi
      rw [List.length_map] at hi
      rw [List.getElem?_map, hc i hi, Option.map_some]
    have hr : ∀ j ∈ List.range (k + 1), j ≤ k ∧ j < l.length := by
      intro j hj
      have := List.mem_range.1 hj
      omega
    rw [hk, Nat.add_sub_cancel, controlPolygon, controlPolygon, controlLoop_eq l k t (by omega) c hc _ _ hr,
      controlLoop_eq (l.map (affine2 m)) k t (by omega) _ hc' _ _ (by simpa using hr)]
    have hs : ∀ (g h : Nat → ℝ) (a b e : ℝ), (∑ j ∈ Finset.range (k + 1), bernstein k j t * (a * g j + b * h j + e)) =
        a * (∑ j ∈ Finset.range (k + 1), bernstein k j t * g j) + b * (∑ j ∈ Finset.range (k + 1), bernstein k j t * h j) + e := by
      intro g h a b e
      calc _ = ∑ j ∈ Finset.range (k + 1), (a * (bernstein k j t * g j) + b * (bernstein k j t * h j) + bernstein k j t * e) :=
            Finset.sum_congr rfl fun k _ => by ring
        _ = _ := by rw [Finset.sum_add_distrib, Finset.sum_add_distrib, ← Finset.mul_sum, ← Finset.mul_sum, ← Finset.sum_mul, bernstein_sum, one_mul]
    simp only [Option.bind_eq_bind, Option.bind_some, sum_range_list, Real.scalar_zero, zero_add, Option.map_some, affine2, hs]
  simp only [interpolateBezier, List.length_map, if_neg h2, control, Sim.mapM_opt]
  cases (List.range n).mapM (fun (i : Nat) => controlPolygon l (l.length - 1) (lit (i : ℚ) * (lit 1 / lit (n : ℚ)))) <;> rfl

theorem new_moved2 (a b : Point2D ℝ) (x y : ℝ) : (BoundingBox2D.new ⟨a.x + x, a.y + y⟩ ⟨b.x + x, b.y + y⟩).toOption =
    (BoundingBox2D.new a b).toOption.map (fun r => ⟨⟨r.min.x + x, r.min.y + y⟩, ⟨r.max.x + x, r.max.y + y⟩⟩) := by
  simp only [BoundingBox2D.new, Real.scalar_lt, Real.scalar_eq, add_left_inj, add_lt_add_iff_right]
  split_ifs <;> rfl

theorem new_moved3 (a b : Point3D ℝ) (x y z : ℝ) : (BoundingBox3D.new ⟨a.x + x, a.y + y, a.z + z⟩ ⟨b.x + x, b.y + y, b.z + z⟩).toOption =
    (BoundingBox3D.new a b).toOption.map (fun r => ⟨⟨r.min.x + x, r.min.y + y, r.min.z + z⟩, ⟨r.max.x + x, r.max.y + y, r.max.z + z⟩⟩) := by
  simp only [BoundingBox3D.new, Real.scalar_lt, Real.scalar_eq, add_left_inj, add_lt_add_iff_right]
  split_ifs <;> rfl

/-- **C133**, moves: whatever a moved box does with a moved point is what the box does with the point: the filters allow it, the
bounding boxes are the moved ones. -/
theorem c133_boxes (x y z : ℝ) (b : Box2D ℝ) (c : Box3D ℝ) :
    (∀ p, filterBox2D (b.moveBy x y) ⟨p.x + x, p.y + y⟩ = filterBox2D b p) ∧
    (b.moveBy x y).boundingBox = b.boundingBox.map (fun r => ⟨⟨r.min.x + x, r.min.y + y⟩, ⟨r.max.x + x, r.max.y + y⟩⟩) ∧
    (∀ p, filterBox3D (c.moveBy x y z) ⟨p.x + x, p.y + y, p.z + z⟩ = filterBox3D c p) ∧
    (c.moveBy x y z).boundingBox =
      c.boundingBox.map (fun r => ⟨⟨r.min.x + x, r.min.y + y, r.min.z + z⟩, ⟨r.max.x + x, r.max.y + y, r.max.z + z⟩⟩) := by
  have h1 : ∀ u v w x : ℝ, u + x - v ≤ w + x ↔ u - v ≤ w := fun u v w x => by constructor <;> intro h <;> linarith
  have h2 : ∀ u v w x : ℝ, w + x ≤ u + x + v ↔ w ≤ u + v := fun u v w x => by constructor <;> intro h <;> linarith
  have h3 : ∀ u v x : ℝ, u + x - v = u - v + x := fun u v x => by ring
  have h4 : ∀ u v x : ℝ, u + x + v = u + v + x := fun u v x => add_right_comm u x v
  refine ⟨fun p => ?_, ?_, fun p => ?_, ?_⟩
  · simp only [filterBox2D, Box2D.moveBy, Box2D.x, Box2D.y, Point2D.moveBy, Real.scalar_le, h1, h2]
  · rw [Box2D.boundingBox, Box2D.boundingBox, ← new_moved2]
    congr 2 <;> simp only [Box2D.moveBy, Point2D.moveBy, h3, h4]
  · simp only [filterBox3D, Box3D.moveBy, Box3D.x, Box3D.y, Box3D.z, Point3D.moveBy, Real.scalar_le, h1, h2]
  · rw [Box3D.boundingBox, Box3D.boundingBox, ← new_moved3]
    congr 2 <;> simp only [Box3D.moveBy, Point3D.moveBy, h3, h4]

example : filterBox3D ((⟨⟨0, 0, 0⟩, ⟨2⟩, ⟨4⟩, ⟨6⟩⟩ : Box3D ℝ).moveBy 10 20 30) ⟨1 + 10, 2 + 20, 3 + 30⟩ = true := by
  rw [(c133_boxes 10 20 30 ⟨⟨0, 0⟩, ⟨1⟩, ⟨1⟩⟩ _).2.2.1 ⟨1, 2, 3⟩]
  simp [filterBox3D, Box3D.x, Box3D.y, Box3D.z]
  norm_num

namespace Spec
/-- the collider moved by a vector -/
noncomputable def moveCollider (v : Point3D ℝ) : Collider3D ℝ → Collider3D ℝ
  | .aabb b => .aabb (b.moveBy v.x v.y v.z)
  | .box3 b => .box3 (b.moveBy v.x v.y v.z)
  | .face t => .face ⟨t.a.moveBy v.x v.y v.z, t.b.moveBy v.x v.y v.z, t.c.moveBy v.x v.y v.z⟩
end Spec

theorem moveCollider_sim (v : Point3D ℝ) (c : Collider3D ℝ) : moveCollider v c = simCollider 1 v c := by
  cases c <;> simp [moveCollider, simCollider, sim3, simBox3, BoundingBox3D.moveBy, BoxUnaligned3D.moveBy, Point3D.moveBy]

/-- **C133**, boxes with any direction: the corners and the bounding box move along, and no collision appears or disappears when both
partners are moved. -/
theorem c133_colliders (v : Point3D ℝ) (b : BoxUnaligned3D ℝ) :
    (b.moveBy v.x v.y v.z).satPoints = b.satPoints.map (List.map fun p => ⟨p.x + v.x, p.y + v.y, p.z + v.z⟩) ∧
    (b.moveBy v.x v.y v.z).satAxes = b.satAxes ∧
    (b.moveBy v.x v.y v.z).boundingBox = b.boundingBox.map (fun r =>
      ⟨⟨r.min.x + v.x, r.min.y + v.y, r.min.z + v.z⟩, ⟨r.max.x + v.x, r.max.y + v.y, r.max.z + v.z⟩⟩) ∧
    ∀ a c : Collider3D ℝ, (moveCollider v a).collidesWith (moveCollider v c) = a.collidesWith c := by
  have h3 : ∀ u v x : ℝ, u + x - v = u - v + x := fun u v x => by ring
  have h4 : ∀ u v x : ℝ, u + x + v = u + v + x := fun u v x => add_right_comm u x v
  refine ⟨?_, rfl, ?_, fun a c => ?_⟩
  · simp only [BoxUnaligned3D.satPoints, BoxUnaligned3D.dX, BoxUnaligned3D.dY, BoxUnaligned3D.dZ, BoxUnaligned3D.xDir, BoxUnaligned3D.moveBy]
    cases Norm3D.newOrZ (b.zDir.cross b.yDir) with
    | none => rfl
    | some d =>
      simp only [Option.bind_eq_bind, Option.bind_some, Option.pure_def, Option.map_some, List.map_cons, List.map_nil, Point3D.moveBy, Point3D.add, Point3D.sub, h3, h4]
  · simp only [BoxUnaligned3D.boundingBox]
    rw [← new_moved3]
    congr 2
    · simp only [BoxUnaligned3D.moveBy, Point3D.moveBy, Point3D.mk.injEq]
      exact ⟨h3 _ _ _, h3 _ _ _, h3 _ _ _⟩
    · simp only [BoxUnaligned3D.moveBy, Point3D.moveBy, Point3D.mk.injEq]
      exact ⟨h4 _ _ _, h4 _ _ _, h4 _ _ _⟩
  · rw [moveCollider_sim, moveCollider_sim]
    exact c117_collide 1 one_pos v a c

example : moveCollider ⟨1, 2, 3⟩ (.aabb ⟨⟨0, 0, 0⟩, ⟨1, 1, 1⟩⟩) = .aabb ⟨⟨1, 2, 3⟩, ⟨2, 3, 4⟩⟩ := by
  simp [moveCollider, BoundingBox3D.moveBy, Point3D.moveBy]
  norm_num

/-- **C133**, views: selecting points and changing them one by one can be exchanged, for any numbers; `for_each_point` changes every
point and nothing else; a view that does not fit is refused in the same way and changes nothing. -/
theorem c133_views {P : Type} (f : P → P) (pc : PointCloud P) (v : View) :
    (pc.forEachPoint f).data = pc.data.map f ∧
    (pc.forEachPoint f).applyView v = (((pc.applyView v).1).forEachPoint f, (pc.applyView v).2) ∧
    (pc.forEachPoint f).fromView v = (pc.fromView v).map (·.forEachPoint f) ∧
    ((pc.applyView v).2 ≠ .ok () → pc.applyView v = (pc, .error .IndexOutOfBounds) ∧ pc.fromView v = none) ∧
    (∀ r, pc.fromView v = some r → pc.applyView v = (r, .ok ()) ∧ r.data.Sublist pc.data) := by
  have e : (pc.forEachPoint f).applyView v = (((pc.applyView v).1).forEachPoint f, (pc.applyView v).2) := by
    cases v with
    | full => rfl
    | restricted is =>
      simp only [PointCloud.applyView, View.apply, PointCloud.forEachPoint, List.length_map]
      split
      · rfl
      · simp only [List.zipIdx_map, List.filter_map, List.map_map]
        rfl
  have c : pc.applyView v = (pc, .error .IndexOutOfBounds) ∨ ∃ r, pc.applyView v = (r, .ok ()) ∧ r.data.Sublist pc.data := by
    cases v with
    | full => exact .inr ⟨pc, rfl, List.Sublist.refl _⟩
    | restricted is =>
      simp only [PointCloud.applyView, View.apply]
      split
      · exact .inl rfl
      · refine .inr ⟨_, rfl, ?_⟩
        have := (List.filter_sublist (p := fun pi : P × Nat => is.contains pi.2) (l := pc.data.zipIdx)).map Prod.fst
        rwa [List.zipIdx_map_fst] at this
  refine ⟨rfl, e, ?_, ?_, ?_⟩
  · simp only [PointCloud.fromView, e]
    rcases c with c | ⟨r, c, -⟩ <;> rw [c] <;> rfl
  · intro h
    rcases c with c | ⟨r, c, -⟩
    · exact ⟨c, by simp [PointCloud.fromView, c]⟩
    · rw [c] at h; exact absurd rfl h
  · intro r h
    rcases c with c | ⟨r', c, hs⟩
    · simp [PointCloud.fromView, c] at h
    · simp only [PointCloud.fromView, c, Option.some.injEq] at h
      subst h
      exact ⟨c, hs⟩

example : (PointCloud.forEachPoint (· + 10) ⟨[1, 2, 3]⟩).fromView (.restricted [2, 0]) = some ⟨[11, 13]⟩ := by decide

/-- **C133** violated by rounding: the center of gravity of two doubles moved by one is not the moved center of gravity. -/
theorem c133_violated : ∃ (pc : PointCloud (Point2D F64)) (m : Matrix3 F64), m = Matrix3.translation (F64.ofRat 1) (F64.ofRat 0) ∧
    pc = ⟨[⟨F64.ofRat (1 / 2 ^ 53), F64.ofRat 0⟩, ⟨F64.ofRat (1 / 2 ^ 53), F64.ofRat 0⟩, ⟨F64.ofRat (2 / 2 ^ 53), F64.ofRat 0⟩]⟩ ∧
    PointCloud2D.centerOfGravity (PointCloud2D.transform pc m) ≠ (PointCloud2D.centerOfGravity pc).map (·.transformed m) :=
  ⟨_, _, rfl, rfl, by decide +kernel⟩

end R3D

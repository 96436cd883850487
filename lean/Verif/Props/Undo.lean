import Verif.Model.MeshEdit
import Verif.Model.Intersect
import Verif.Model.Lines
import Verif.Props.CloudGeometry
import Verif.Props.BoundingBoxReal
import Verif.Props.Matrix
import Verif.Props.HullGrid
/-!
C141 a change can be undone by its opposite: moving back, scaling by the inverse factor, rotating back, setting
the old size (exact arithmetic; for doubles on a grid only, see the end).
-/
namespace R3D
open Scalar LawfulScalar Spec

/-! ### moving -/

/-- **C141** moving by `(x, y)` and then by `(-x, -y)` gives everything in the plane back unchanged (exact
arithmetic). -/
theorem c141_move_2d (x y : ℝ) :
    (∀ p : Point2D ℝ, (p.moveBy x y).moveBy (-x) (-y) = p) ∧
    (∀ c : PointCloud (Point2D ℝ), PointCloud2D.moveBy (PointCloud2D.moveBy c x y) (-x) (-y) = c) ∧
    (∀ s : LineSegment2D ℝ, (s.moveBy x y).moveBy (-x) (-y) = s) ∧
    (∀ l : Line2D ℝ, (l.moveBy x y).moveBy (-x) (-y) = l) ∧
    (∀ r : Ray2D ℝ, (r.moveBy x y).moveBy (-x) (-y) = r) ∧
    (∀ b : BoundingBox2D ℝ, (b.moveBy x y).moveBy (-x) (-y) = b) ∧
    ∀ b : Box2D ℝ, (b.moveBy x y).moveBy (-x) (-y) = b := by
  have h : ∀ p : Point2D ℝ, (p.moveBy x y).moveBy (-x) (-y) = p := fun p => by simp [Point2D.moveBy]
  refine ⟨h, fun c => ?_, fun s => ?_, fun l => ?_, fun r => ?_, fun b => ?_, fun b => ?_⟩
  · have e : ((fun p : Point2D ℝ => p.moveBy (-x) (-y)) ∘ fun p => p.moveBy x y) = id := funext h
    simp [PointCloud2D.moveBy, List.map_map, e]
  · simp [LineSegment2D.moveBy, h]
  · simp [Line2D.moveBy, h]
  · simp [Ray2D.moveBy, Line2D.moveBy, h]
  · simp [BoundingBox2D.moveBy, h]
  · simp [Box2D.moveBy, h]

/-- **C141** moving by `(x, y, z)` and then by `(-x, -y, -z)` gives everything in space back unchanged, meshes
with their faces (exact arithmetic). -/
theorem c141_move_3d (x y z : ℝ) :
    (∀ p : Point3D ℝ, (p.moveBy x y z).moveBy (-x) (-y) (-z) = p) ∧
    (∀ c : PointCloud (Point3D ℝ), PointCloud3D.moveBy (PointCloud3D.moveBy c x y z) (-x) (-y) (-z) = c) ∧
    (∀ m : TMesh (Point3D ℝ), (m.moveBy x y z).moveBy (-x) (-y) (-z) = m) ∧
    (∀ s : LineSegment3D ℝ, (s.moveBy x y z).moveBy (-x) (-y) (-z) = s) ∧
    (∀ l : Line3D ℝ, (l.moveBy x y z).moveBy (-x) (-y) (-z) = l) ∧
    (∀ r : Ray3D ℝ, (r.moveBy x y z).moveBy (-x) (-y) (-z) = r) ∧
    (∀ b : BoundingBox3D ℝ, (b.moveBy x y z).moveBy (-x) (-y) (-z) = b) ∧
    (∀ b : Box3D ℝ, (b.moveBy x y z).moveBy (-x) (-y) (-z) = b) ∧
    ∀ b : BoxUnaligned3D ℝ, (b.moveBy x y z).moveBy (-x) (-y) (-z) = b := by
  have h : ∀ p : Point3D ℝ, (p.moveBy x y z).moveBy (-x) (-y) (-z) = p := fun p => by simp [Point3D.moveBy]
  have hc : ∀ c : PointCloud (Point3D ℝ),
      PointCloud3D.moveBy (PointCloud3D.moveBy c x y z) (-x) (-y) (-z) = c := fun c => by
    have e : ((fun p : Point3D ℝ => p.moveBy (-x) (-y) (-z)) ∘ fun p => p.moveBy x y z) = id := funext h
    simp [PointCloud3D.moveBy, List.map_map, e]
  refine ⟨h, hc, fun m => ?_, fun s => ?_, fun l => ?_, fun r => ?_, fun b => ?_, fun b => ?_, fun b => ?_⟩
  · have := hc ⟨m.verts⟩
    simp only [TMesh.moveBy]
    rw [this]
  · simp [LineSegment3D.moveBy, h]
  · simp [Line3D.moveBy, h]
  · simp [Ray3D.moveBy, Line3D.moveBy, h]
  · simp [BoundingBox3D.moveBy, h]
  · simp [Box3D.moveBy, h]
  · simp [BoxUnaligned3D.moveBy, h]

/-! ### scaling -/

theorem undo_ext2 {p q : Point2D ℝ} (h0 : p.x = q.x) (h1 : p.y = q.y) : p = q := by
  cases p; cases q; simp only at h0 h1; rw [h0, h1]

theorem undo_ext3 {p q : Point3D ℝ} (h0 : p.x = q.x) (h1 : p.y = q.y) (h2 : p.z = q.z) : p = q := by
  cases p; cases q; simp only at h0 h1 h2; rw [h0, h1, h2]

theorem increase_undo_2d (p c : Point2D ℝ) (f g : Positive ℝ) (h : f.val * g.val = 1) :
    (p.increaseDistanceToBy c f).increaseDistanceToBy c g = p := by
  have e : ∀ d, at2 ((p.increaseDistanceToBy c f).increaseDistanceToBy c g) d = at2 p d := fun d => by
    rw [increase_at_2d, increase_at_2d]
    linear_combination (at2 p d - at2 c d) * h
  have h0 := e 0
  have h1 := e 1
  simp only [at2_zero, at2_one] at h0 h1
  exact undo_ext2 h0 h1

theorem increase_undo_3d (p c : Point3D ℝ) (f g : Positive ℝ) (h : f.val * g.val = 1) :
    (p.increaseDistanceToBy c f).increaseDistanceToBy c g = p := by
  have e : ∀ d, at3 ((p.increaseDistanceToBy c f).increaseDistanceToBy c g) d = at3 p d := fun d => by
    rw [increase_at_3d, increase_at_3d]
    linear_combination (at3 p d - at3 c d) * h
  have h0 := e 0
  have h1 := e 1
  have h2 := e 2
  simp only [at3_zero, at3_one, at3_two] at h0 h1 h2
  exact undo_ext3 h0 h1 h2

theorem scale_undo_2d (c : PointCloud (Point2D ℝ)) (f g : Positive ℝ) (hf : 0 < f.val) (h : f.val * g.val = 1) :
    PointCloud2D.scale (PointCloud2D.scale c f) g = c := by
  obtain ⟨l⟩ := c
  cases hb : PointCloud2D.boundingBoxMaybe ⟨l⟩ with
  | none => rw [c76_scale_flat_2d _ _ hb, c76_scale_flat_2d _ _ hb]
  | some b =>
    obtain ⟨l', b', e, -, -, hb', hc⟩ := c76_scale_2d_partial l f hf b hb
    have ec : b'.centerBB = b.centerBB := by
      rw [Fin.forall_fin_two] at hc
      simp only [at2_zero, at2_one] at hc
      simp only [BoundingBox2D.centerBB, Real.scalar_lit, Point2D.mk.injEq]
      push_cast
      constructor <;> linarith [hc.1.1, hc.1.2, hc.2.1, hc.2.2]
    have el : l' = l.map fun p => p.increaseDistanceToBy b.centerBB f := by
      simp only [PointCloud2D.scale, hb, PointCloud.mk.injEq] at e
      exact e.symm
    rw [e]
    simp only [PointCloud2D.scale, hb', ec, PointCloud.mk.injEq]
    rw [el, List.map_map]
    conv_rhs => rw [← List.map_id l]
    exact List.map_congr_left fun p _ => increase_undo_2d p _ f g h

theorem scale_undo_3d (c : PointCloud (Point3D ℝ)) (f g : Positive ℝ) (hf : 0 < f.val) (h : f.val * g.val = 1) :
    PointCloud3D.scale (PointCloud3D.scale c f) g = c := by
  obtain ⟨l⟩ := c
  cases hb : PointCloud3D.boundingBoxMaybe ⟨l⟩ with
  | none => rw [c76_scale_flat_3d _ _ hb, c76_scale_flat_3d _ _ hb]
  | some b =>
    obtain ⟨l', b', e, -, -, hb', hc⟩ := c76_scale_3d_partial l f hf b hb
    have ec : b'.centerBB = b.centerBB := by
      rw [forall_fin3] at hc
      simp only [at3_zero, at3_one, at3_two] at hc
      simp only [BoundingBox3D.centerBB, Real.scalar_lit, Point3D.mk.injEq]
      push_cast
      refine ⟨?_, ?_, ?_⟩ <;> linarith [hc.1.1, hc.1.2, hc.2.1.1, hc.2.1.2, hc.2.2.1, hc.2.2.2]
    have el : l' = l.map fun p => p.increaseDistanceToBy b.centerBB f := by
      simp only [PointCloud3D.scale, hb, PointCloud.mk.injEq] at e
      exact e.symm
    rw [e]
    simp only [PointCloud3D.scale, hb', ec, PointCloud.mk.injEq]
    rw [el, List.map_map]
    conv_rhs => rw [← List.map_id l]
    exact List.map_congr_left fun p _ => increase_undo_3d p _ f g h

/-- **C141** scaling by `f` and then by `1/f` gives clouds and line segments back unchanged, also the flat
ones, which are not scaled at all, and valid bounding boxes (exact arithmetic). -/
theorem c141_scale_2d (f g : Positive ℝ) (hf : 0 < f.val) (h : f.val * g.val = 1) :
    (∀ c : PointCloud (Point2D ℝ), PointCloud2D.scale (PointCloud2D.scale c f) g = c) ∧
    (∀ s : LineSegment2D ℝ, (s.scale f).scale g = s) ∧
    ∀ b : BoundingBox2D ℝ, (box2 b).Valid → ∃ b', b.scale f = some b' ∧ b'.scale g = some b := by
  refine ⟨fun c => scale_undo_2d c f g hf h, fun s => ?_, fun b hb => ?_⟩
  · have e := scale_undo_2d ⟨[s.start, s.end_]⟩ f g hf h
    rw [seg_scale_2d, seg_scale_2d] at e
    simp only [PointCloud.mk.injEq, List.cons.injEq, and_true] at e
    obtain ⟨e1, e2⟩ := e
    generalize (s.scale f).scale g = t at e1 e2
    cases t; cases s
    simp only at e1 e2
    rw [e1, e2]
  · obtain ⟨b', e, hv, hc, hs⟩ := (c21_move_scale_2d b hb).2 f.val hf
    refine ⟨b', e, ?_⟩
    obtain ⟨s1, s2⟩ := sizes_real_2d b' hv
    rw [Fin.forall_fin_two] at hs
    have hx : b'.max.x - b'.min.x = f.val * (b.max.x - b.min.x) := hs.1
    have hy : b'.max.y - b'.min.y = f.val * (b.max.y - b.min.y) := hs.2
    simp only [BoundingBox2D.scale, s1, s2, hx, hy, hc, Option.bind_eq_bind, Option.bind_some, Option.pure_def,
      Option.some.injEq]
    obtain ⟨⟨ax, ay⟩, ⟨bx, by_⟩⟩ := b
    simp only [BoundingBox2D.centerBB, Real.scalar_lit, BoundingBox2D.mk.injEq, Point2D.mk.injEq]
    push_cast
    refine ⟨⟨?_, ?_⟩, ?_, ?_⟩
    · linear_combination (-(1 / 2) * (bx - ax)) * h
    · linear_combination (-(1 / 2) * (by_ - ay)) * h
    · linear_combination ((1 / 2) * (bx - ax)) * h
    · linear_combination ((1 / 2) * (by_ - ay)) * h

/-- **C141** the same in space, for meshes too (exact arithmetic). -/
theorem c141_scale_3d (f g : Positive ℝ) (hf : 0 < f.val) (h : f.val * g.val = 1) :
    (∀ c : PointCloud (Point3D ℝ), PointCloud3D.scale (PointCloud3D.scale c f) g = c) ∧
    (∀ m : TMesh (Point3D ℝ), (m.scale f).scale g = m) ∧
    (∀ s : LineSegment3D ℝ, (s.scale f).scale g = s) ∧
    ∀ b : BoundingBox3D ℝ, (box3 b).Valid → ∃ b', b.scale f = some b' ∧ b'.scale g = some b := by
  refine ⟨fun c => scale_undo_3d c f g hf h, fun m => ?_, fun s => ?_, fun b hb => ?_⟩
  · have := scale_undo_3d ⟨m.verts⟩ f g hf h
    simp only [TMesh.scale]
    rw [this]
  · have e := scale_undo_3d ⟨[s.start, s.end_]⟩ f g hf h
    rw [seg_scale_3d, seg_scale_3d] at e
    simp only [PointCloud.mk.injEq, List.cons.injEq, and_true] at e
    obtain ⟨e1, e2⟩ := e
    generalize (s.scale f).scale g = t at e1 e2
    cases t; cases s
    simp only at e1 e2
    rw [e1, e2]
  · obtain ⟨b', e, hv, hc, hs⟩ := (c21_move_scale_3d b hb).2 f.val hf
    refine ⟨b', e, ?_⟩
    obtain ⟨s1, s2, s3⟩ := sizes_real_3d b' hv
    rw [forall_fin3] at hs
    have hx : b'.max.x - b'.min.x = f.val * (b.max.x - b.min.x) := hs.1
    have hy : b'.max.y - b'.min.y = f.val * (b.max.y - b.min.y) := hs.2.1
    have hz : b'.max.z - b'.min.z = f.val * (b.max.z - b.min.z) := hs.2.2
    simp only [BoundingBox3D.scale, s1, s2, s3, hx, hy, hz, hc, Option.bind_eq_bind, Option.bind_some,
      Option.pure_def, Option.some.injEq]
    obtain ⟨⟨ax, ay, az⟩, ⟨bx, by_, bz⟩⟩ := b
    simp only [BoundingBox3D.centerBB, Real.scalar_lit, BoundingBox3D.mk.injEq, Point3D.mk.injEq]
    push_cast
    refine ⟨⟨?_, ?_, ?_⟩, ?_, ?_, ?_⟩
    · linear_combination (-(1 / 2) * (bx - ax)) * h
    · linear_combination (-(1 / 2) * (by_ - ay)) * h
    · linear_combination (-(1 / 2) * (bz - az)) * h
    · linear_combination ((1 / 2) * (bx - ax)) * h
    · linear_combination ((1 / 2) * (by_ - ay)) * h
    · linear_combination ((1 / 2) * (bz - az)) * h

/-- the hypotheses are met: doubling and halving, a valid box -/
example : (0 : ℝ) < (Positive.mk (2 : ℝ)).val ∧ (Positive.mk (2 : ℝ)).val * (Positive.mk (1 / 2 : ℝ)).val = 1 ∧
    (box2 (⟨⟨0, 1⟩, ⟨3, 2⟩⟩ : BoundingBox2D ℝ)).Valid ∧ (box3 (⟨⟨0, 1, 0⟩, ⟨3, 2, 1⟩⟩ : BoundingBox3D ℝ)).Valid := by
  refine ⟨by norm_num, by norm_num, ?_, ?_⟩
  · rw [valid_real_2d]; norm_num
  · rw [valid_real_3d]; norm_num

/-! ### rotating -/

theorem map_undo {β : Type} {l : List β} {f g : β → β} (h : ∀ p, g (f p) = p) : (l.map f).map g = l := by
  rw [List.map_map]
  conv_rhs => rw [← List.map_id l]
  exact List.map_congr_left fun p _ => h p

/-- **C141** a cloud turned by `a` and then by `-a` is the cloud before, as are clouds translated and translated
back, or scaled by a matrix and scaled by the inverse factors (exact arithmetic). -/
theorem c141_transform_2d (c : PointCloud (Point2D ℝ)) (a x y : ℝ) :
    PointCloud2D.transform (PointCloud2D.transform c (.rotation a)) (.rotation (-a)) = c ∧
    PointCloud2D.transform (PointCloud2D.transform c (.translation x y)) (.translation (-x) (-y)) = c ∧
    (x ≠ 0 → y ≠ 0 → PointCloud2D.transform (PointCloud2D.transform c (.scale x y)) (.scale x⁻¹ y⁻¹) = c) := by
  obtain ⟨l⟩ := c
  simp only [PointCloud2D.transform, PointCloud.mk.injEq]
  refine ⟨map_undo fun p => (c40_rotation_2d a a p p).2.2.2.2, map_undo fun p => ?_, fun hx hy => map_undo fun p => ?_⟩
  · rw [(c40_action_2d p x y a).1, (c40_action_2d _ (-x) (-y) a).1]
    simp
  · rw [(c40_action_2d p x y a).2.1, (c40_action_2d _ x⁻¹ y⁻¹ a).2.1]
    simp [hx, hy]

/-- **C141** a cloud turned by `a` around a unit vector and then by `-a` around it is the cloud before; turned by
`rotation x y z` it is turned back by the single rotations in the opposite order; the same for translating
and scaling by a matrix (exact arithmetic). -/
theorem c141_transform_3d (c : PointCloud (Point3D ℝ)) (x y z : ℝ) :
    (∀ (u : Point3D ℝ) (a : ℝ), u.x ^ 2 + u.y ^ 2 + u.z ^ 2 = 1 →
      PointCloud3D.transform (PointCloud3D.transform c (.rotationAxis u a)) (.rotationAxis u (-a)) = c) ∧
    PointCloud3D.transform (PointCloud3D.transform (PointCloud3D.transform (PointCloud3D.transform c
      (.rotation x y z)) (.rotation (-x) 0 0)) (.rotation 0 (-y) 0)) (.rotation 0 0 (-z)) = c ∧
    PointCloud3D.transform (PointCloud3D.transform c (.translation x y z)) (.translation (-x) (-y) (-z)) = c ∧
    (x ≠ 0 → y ≠ 0 → z ≠ 0 →
      PointCloud3D.transform (PointCloud3D.transform c (.scale x y z)) (.scale x⁻¹ y⁻¹ z⁻¹) = c) := by
  obtain ⟨l⟩ := c
  simp only [PointCloud3D.transform, PointCloud.mk.injEq]
  refine ⟨fun u a hu => map_undo fun p => (c40_rotation_axis u p p a a hu).2.2.2.2.2, ?_, map_undo fun p => ?_,
    fun hx hy hz => map_undo fun p => ?_⟩
  · have ux : axisX.x ^ 2 + axisX.y ^ 2 + axisX.z ^ 2 = 1 := by simp [axisX]
    have uy : axisY.x ^ 2 + axisY.y ^ 2 + axisY.z ^ 2 = 1 := by simp [axisY]
    have uz : axisZ.x ^ 2 + axisZ.y ^ 2 + axisZ.z ^ 2 = 1 := by simp [axisZ]
    have id0 : ∀ (u p : Point3D ℝ), p.transformed (.rotationAxis u 0) = p := fun u p => by
      simp [Point3D.transformed, Matrix4.rotationAxis, Real.trig_cos, Real.trig_sin]
    rw [List.map_map, List.map_map]
    refine map_undo fun p => ?_
    simp only [Function.comp_apply]
    rw [(c40_rotation_3d 0 0 (-z) _ p).1, (c40_rotation_3d 0 (-y) 0 _ p).1, (c40_rotation_3d (-x) 0 0 _ p).1,
      (c40_rotation_3d x y z p p).1]
    simp only [id0]
    rw [(c40_rotation_axis axisX _ p x x ux).2.2.2.2.2, (c40_rotation_axis axisY _ p y y uy).2.2.2.2.2,
      (c40_rotation_axis axisZ _ p z z uz).2.2.2.2.2]
  · rw [(c40_action_3d p x y z).1, (c40_action_3d _ (-x) (-y) (-z)).1]
    simp
  · rw [(c40_action_3d p x y z).2, (c40_action_3d _ x⁻¹ y⁻¹ z⁻¹).2]
    simp [hx, hy, hz]

/-- the hypothesis is met by a vector along no axis -/
example : (⟨3 / 5, 0, 4 / 5⟩ : Point3D ℝ).x ^ 2 + (⟨3 / 5, 0, 4 / 5⟩ : Point3D ℝ).y ^ 2 +
    (⟨3 / 5, 0, 4 / 5⟩ : Point3D ℝ).z ^ 2 = 1 := by norm_num

/-- **C141 violated** `rotation (-x) (-y) (-z)` does not undo `rotation x y z`: the three rotations have to be undone
in the opposite order, for which there is no single function. -/
theorem c141_violated_rotation : ∃ (p : Point3D ℝ) (x y z : ℝ),
    (p.transformed (.rotation x y z)).transformed (.rotation (-x) (-y) (-z)) ≠ p := by
  refine ⟨⟨0, 0, 1⟩, Real.pi / 2, Real.pi / 2, 0, ?_⟩
  rw [(c40_rotation_3d _ _ _ _ ⟨0, 0, 0⟩).1, (c40_rotation_3d _ _ _ _ ⟨0, 0, 0⟩).1]
  simp [Point3D.transformed, Matrix4.rotationAxis, Real.trig_cos, Real.trig_sin, axisX, axisY, axisZ]

/-! ### `center` and `set_size` -/

/-- **C141** `center` is undone by moving the cloud back to the old middle of its bounding box; clouds without
one are not moved by `center` (exact arithmetic). -/
theorem c141_center (c : PointCloud (Point3D ℝ)) :
    (∀ b, PointCloud3D.boundingBoxMaybe c = some b →
      PointCloud3D.moveBy (PointCloud3D.center c) b.centerBB.x b.centerBB.y b.centerBB.z = c) ∧
    (PointCloud3D.boundingBoxMaybe c = none → PointCloud3D.center c = c) := by
  refine ⟨fun b hb => ?_, fun hb => by simp only [PointCloud3D.center, hb]⟩
  simp only [PointCloud3D.center, hb]
  have := (c141_move_3d (-b.centerBB.x) (-b.centerBB.y) (-b.centerBB.z)).2.1 c
  simpa only [neg_neg] using this

/-- **C141** after `set_size` to any positive sizes, `set_size` to the sizes before gives the cloud before
(exact arithmetic). -/
theorem c141_set_size (l : List (Point3D ℝ)) (s : Point3D ℝ) (hs : ∀ d, 0 < at3 s d) (b : BoundingBox3D ℝ)
    (hb : PointCloud3D.boundingBoxMaybe ⟨l⟩ = some b) :
    ∃ c, PointCloud3D.setSize ⟨l⟩ ⟨s.x⟩ ⟨s.y⟩ ⟨s.z⟩ = some c ∧
      PointCloud3D.setSize c ⟨b.max.x - b.min.x⟩ ⟨b.max.y - b.min.y⟩ ⟨b.max.z - b.min.z⟩ = some ⟨l⟩ := by
  obtain ⟨l', b', k, e, hk, hl, hb', -⟩ := c77_set_size_partial l s hs b hb
  have hbb := (bbm_real_3d l b).1 hb
  have hpos : ∀ d, 0 < at3 (⟨b.max.x - b.min.x, b.max.y - b.min.y, b.max.z - b.min.z⟩ : Point3D ℝ) d := by
    have h0 : b.min.x < b.max.x := hbb.1 0
    have h1 : b.min.y < b.max.y := hbb.1 1
    have h2 : b.min.z < b.max.z := hbb.1 2
    rw [forall_fin3]
    simp only [at3_zero, at3_one, at3_two, sub_pos]
    exact ⟨h0, h1, h2⟩
  obtain ⟨l'', b'', k', e', hk', hl', hb'', hsz⟩ := c77_set_size_partial l' _ hpos b' hb'
  refine ⟨⟨l'⟩, e, e'.trans (congrArg _ (congrArg _ ?_))⟩
  have hll : List.Forall₂ (fun p q => ∀ d, at3 q d = at3 k' d * at3 k d * at3 p d) l l'' := by
    clear e e' hb hb' hb'' hbb hsz
    induction hl generalizing l'' with
    | nil => cases hl'; exact .nil
    | cons h1 _ ih =>
      cases hl' with
      | cons h2 h3 => exact .cons (fun d => by rw [h2 d, h1 d, mul_assoc]) (ih _ h3)
  have hl2 : l'' = l.map fun p => ⟨k'.x * k.x * p.x, k'.y * k.y * p.y, k'.z * k.z * p.z⟩ := by
    clear hl' e' hb'' hb hbb hl e
    induction hll with
    | nil => rfl
    | @cons p q _ _ h1 _ ih =>
      have h0 := h1 0
      have h11 := h1 1
      have h12 := h1 2
      simp only [at3_zero, at3_one, at3_two] at h0 h11 h12
      rw [List.map_cons, ih]
      exact congrArg (· :: _) (undo_ext3 h0 h11 h12)
  rw [hl2, bbm_real_3d] at hb''
  have hm := hbb.map (fun d x => at3 k' d * at3 k d * x)
    (fun d x y hxy => by have := mul_pos (hk' d) (hk d); dsimp only; nlinarith)
    (fun p => ⟨k'.x * k.x * p.x, k'.y * k.y * p.y, k'.z * k.z * p.z⟩) (fun p => by
      rw [forall_fin3]; exact ⟨rfl, rfl, rfl⟩)
  have hu := Option.some.inj (((bbm_real_3d _ _).2 hb'').symm.trans ((bbm_real_3d _ _).2 hm))
  rw [hu, forall_fin3] at hsz
  obtain ⟨z0, z1, z2⟩ := hsz
  simp only [at3_zero, at3_one, at3_two] at z0 z1 z2
  have p0 := hpos 0
  have p1 := hpos 1
  have p2 := hpos 2
  simp only [at3_zero, at3_one, at3_two] at p0 p1 p2
  have k0 : k'.x * k.x = 1 := mul_right_cancel₀ p0.ne' (by linarith)
  have k1 : k'.y * k.y = 1 := mul_right_cancel₀ p1.ne' (by linarith)
  have k2 : k'.z * k.z = 1 := mul_right_cancel₀ p2.ne' (by linarith)
  rw [hl2]
  simp [k0, k1, k2]

/-- the hypotheses are met -/
example : PointCloud3D.boundingBoxMaybe (⟨[⟨0, 0, 0⟩, ⟨1, 2, 4⟩]⟩ : PointCloud (Point3D ℝ)) =
    some ⟨⟨0, 0, 0⟩, ⟨1, 2, 4⟩⟩ ∧ (∀ d, 0 < at3 (⟨3, 5, 1 / 2⟩ : Point3D ℝ) d) ∧
    PointCloud3D.boundingBoxMaybe (⟨[]⟩ : PointCloud (Point3D ℝ)) = none := by
  refine ⟨?_, ?_, rfl⟩
  · rw [bbm_real_3d]; simp [IsBB3, forall_fin3]
  · rw [forall_fin3]; norm_num [at3_zero, at3_one, at3_two]

/-! ### doubles -/

/-- **C141** (partial: for coordinates and distances on the grid of step `2^e` of at most `2^23` steps, and up to the
sign of zero; missing are all others, see `c141_violated_move`) moving doubles and moving them back. -/
theorem c141_move_grid_partial {e : ℤ} (he : -1074 ≤ e) (he' : e ≤ 970) (v : Point3D F64) (hv : Grid3 e v)
    (l : List (Point3D F64)) (hl : ∀ p ∈ l, Grid3 e p) :
    ∃ l', PointCloud3D.moveBy (PointCloud3D.moveBy ⟨l⟩ v.x v.y v.z) (-v.x) (-v.y) (-v.z) = ⟨l'⟩ ∧
      List.Forall₂ (fun p q => q.Num ∧ ∀ d, F64.toR (at3 q d) = F64.toR (at3 p d)) l l' := by
  refine ⟨_, rfl, ?_⟩
  rw [show (PointCloud3D.moveBy ⟨l⟩ v.x v.y v.z).data = l.map fun p => p.moveBy v.x v.y v.z from rfl, List.map_map,
    List.forall₂_map_right_iff, List.forall₂_same]
  intro p hp
  obtain ⟨a, b, c, ha, hb, hc, ga, gb, gc⟩ := hv.get
  obtain ⟨i, j, k, hi, hj, hk, gi, gj, gk⟩ := (hl p hp).get
  have key : ∀ {x y : F64} {n m : ℤ}, |n| ≤ 2 ^ 23 → |m| ≤ 2 ^ 23 → F64.Grid e n x → F64.Grid e m y →
      F64.Num (x + y + -y) ∧ F64.toR (x + y + -y) = F64.toR x := fun {x y n m} h1 h2 g1 g2 => by
    have h1' := abs_le.1 h1
    have h2' := abs_le.1 h2
    have g := g1.add g2 (abs_lt.2 ⟨by omega, by omega⟩) he he'
    have g' := g.add g2.neg (abs_lt.2 ⟨by omega, by omega⟩) he he'
    rw [show n + m + -m = n by ring] at g'
    exact ⟨g'.1, g'.2.trans g1.2.symm⟩
  have kx := key hi ha gi ga
  have ky := key hj hb gj gb
  have kz := key hk hc gk gc
  refine ⟨⟨kx.1, ky.1, kz.1⟩, ?_⟩
  rw [forall_fin3]
  exact ⟨kx.2, ky.2, kz.2⟩

/-- the hypotheses are met -/
example : Grid3 0 (⟨f (5:ℤ), f (-3:ℤ), f (8000000:ℤ)⟩ : Point3D F64) ∧
    ∀ p ∈ [(⟨f (1:ℤ), f (2:ℤ), f (-7:ℤ)⟩ : Point3D F64), ⟨f (0:ℤ), f (0:ℤ), f (4:ℤ)⟩], Grid3 0 p := by
  refine ⟨grid3_whole (by decide) (by decide) (by decide), ?_⟩
  simp only [List.mem_cons, List.not_mem_nil, or_false, forall_eq_or_imp, forall_eq]
  exact ⟨grid3_whole (by decide) (by decide) (by decide), grid3_whole (by decide) (by decide) (by decide)⟩

/-- **C141 violated** doubles: a point at 1/3 moved by 1 and back is not the point before (rounding), far moves and
their opposite make different points equal, and a cloud scaled by 2 and then by 1/2 is not the cloud before. -/
theorem c141_violated_move :
    (∃ (p : Point2D F64) (x y : F64), (p.moveBy x y).moveBy (-x) (-y) ≠ p ∧
      (((p.moveBy x y).moveBy (-x) (-y)).x ==. p.x) = false) ∧
    (∃ (p q : Point2D F64) (x y : F64), (p.x ==. q.x) = false ∧
      (p.moveBy x y).moveBy (-x) (-y) = (q.moveBy x y).moveBy (-x) (-y)) ∧
    ∃ (c : PointCloud (Point2D F64)) (f g : Positive F64), Positive.new f.val = some f ∧ f.val = F64.ofRat 2 ∧
      g.val = F64.ofRat (1 / 2) ∧ PointCloud2D.scale (PointCloud2D.scale c f) g ≠ c := by
  refine ⟨⟨⟨.ofRat (1 / 3), .ofRat 0⟩, .ofRat 1, .ofRat 0, by decide +kernel, by decide +kernel⟩,
    ⟨⟨.ofRat 1, .ofRat 0⟩, ⟨.ofRat 2, .ofRat 0⟩, .ofRat (2 ^ 60), .ofRat 0, by decide +kernel, by decide +kernel⟩,
    ⟨[⟨.ofRat (1 / 3), .ofRat 0⟩, ⟨.ofRat 1, .ofRat 1⟩]⟩, ⟨.ofRat 2⟩, ⟨.ofRat (1 / 2)⟩, by decide +kernel, rfl, rfl,
    by decide +kernel⟩

end R3D

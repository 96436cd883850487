import Verif.Props.SubdivideSurface
import Verif.Props.Unify
import Verif.Props.MeshEdit
import Verif.Props.Matrix
import Verif.Props.MeshAlgo
/-!
C145, other operations on meshes: healing and unifying faces keep the area of the surface, so do movements; scaling multiplies it.
-/
namespace R3D
open Scalar LawfulScalar Spec SubdivideSpec MeshAlgoSpec

/-- the value of the corners of a face -/
noncomputable def cornersValue (g : Point3D ℝ → Point3D ℝ → Point3D ℝ → ℝ) (t : Option (Point3D ℝ) × Option (Point3D ℝ) × Option (Point3D ℝ)) : ℝ :=
  match t with
  | (some a, some b, some c) => g a b c
  | _ => 0

theorem atFace_corners (g : Point3D ℝ → Point3D ℝ → Point3D ℝ → ℝ) (m : TMesh (Point3D ℝ)) (f : Face3) :
    atFace g m f = cornersValue g (m.verts[f.a]?, m.verts[f.b]?, m.verts[f.c]?) := by
  unfold atFace cornersValue
  cases m.verts[f.a]? <;> cases m.verts[f.b]? <;> cases m.verts[f.c]? <;> rfl

theorem overFaces_corners (g : Point3D ℝ → Point3D ℝ → Point3D ℝ → ℝ) (m : TMesh (Point3D ℝ)) :
    overFaces g m = ((cornerPositions m).map (cornersValue g)).sum := by
  unfold overFaces cornerPositions
  rw [List.map_map]
  congr 1
  exact List.map_congr_left fun f _ => atFace_corners g m f

theorem sum_filter_zero {T : Type} (v : T → ℝ) (p : T → Bool) (l : List T) (h : ∀ x ∈ l, p x = false → v x = 0) :
    ((l.filter p).map v).sum = (l.map v).sum := by
  induction l with
  | nil => rfl
  | cons x l ih =>
    have ih := ih fun y hy => h y (by simp [hy])
    cases hx : p x with
    | true => simp [hx, ih]
    | false => simp [hx, ih, h x (by simp) hx]

theorem area_same (a b c : Point3D ℝ) (h : a = b ∨ a = c ∨ b = c) : area a b c = 0 := by
  have : ∀ d, areaNormal a b c d = 0 := by
    rw [forall_fin3]
    simp only [areaNormal, Matrix.cons_val]
    rcases h with rfl | rfl | rfl <;> refine ⟨?_, ?_, ?_⟩ <;> ring
  simp [area, this]

theorem volume_same (a b c : Point3D ℝ) (h : a = b ∨ a = c ∨ b = c) : signedVolume a b c = 0 := by
  unfold signedVolume
  rcases h with rfl | rfl | rfl <;> ring

/-- **C145** healing a well formed mesh keeps the area of its surface and the volume it encloses. -/
theorem c145_heal [DecidableEq (Point3D ℝ)] (m : TMesh (Point3D ℝ)) (hwf : m.WellFormed) : ∃ r, m.healMesh = some (.ok r) ∧
    overFaces area r = overFaces area m ∧ overFaces signedVolume r = overFaces signedVolume m := by
  obtain ⟨r, e, -, -, hc, -⟩ := c11_heal_mesh m hwf
  have gen : ∀ g : Point3D ℝ → Point3D ℝ → Point3D ℝ → ℝ, (∀ a b c, a = b ∨ a = c ∨ b = c → g a b c = 0) → overFaces g r = overFaces g m := by
    intro g hg
    rw [overFaces_corners, overFaces_corners, hc]
    refine sum_filter_zero _ _ _ fun t _ ht => ?_
    obtain ⟨x, y, z⟩ := t
    cases x <;> cases y <;> cases z <;> try rfl
    simp only [pairwiseDistinct, decide_eq_false_iff_not, ne_eq, Option.some.injEq] at ht
    exact hg _ _ _ (by tauto)
  exact ⟨r, e, gen _ area_same, gen _ volume_same⟩

/-- twice the area, squared, from the sides -/
theorem areaNormal_sides (a b c : Point3D ℝ) : ∑ d, areaNormal a b c d ^ 2 =
    Spec.sqrDist (at3 a) (at3 b) * Spec.sqrDist (at3 a) (at3 c) -
      ((Spec.sqrDist (at3 a) (at3 b) + Spec.sqrDist (at3 a) (at3 c) - Spec.sqrDist (at3 b) (at3 c)) / 2) ^ 2 := by
  simp only [Spec.sqrDist, Fin.sum_univ_three, areaNormal, at3, Matrix.cons_val]
  ring

theorem area_flip (a b c : Point3D ℝ) : area a c b = area a b c := by
  unfold area
  rw [show ∑ d, areaNormal a c b d ^ 2 = ∑ d, areaNormal a b c d ^ 2 by
    simp only [Fin.sum_univ_three, areaNormal, Matrix.cons_val]; ring]

/-- **C145** unifying the directions of the faces of a well formed mesh keeps the area of its surface. -/
theorem c145_unify (opp : Point3D ℝ × Point3D ℝ × Point3D ℝ → Point3D ℝ × Point3D ℝ × Point3D ℝ → Bool) (m : TMesh (Point3D ℝ))
    (hwf : m.WellFormed) : ∃ r, TMesh.unifyFaces opp m = some (.ok r) ∧ overFaces area r = overFaces area m := by
  obtain ⟨r, e, hv, hn, -, hf⟩ := c14_unify_faces opp m hwf
  refine ⟨r, e, ?_⟩
  unfold overFaces
  congr 1
  refine List.ext_getElem (by simpa [TMesh.numFaces] using hn) fun i h1 h2 => ?_
  rw [List.getElem_map, List.getElem_map]
  rw [List.length_map] at h1 h2
  have flip : ∀ f, atFace area r f = atFace area m f ∧ atFace area r (UnifySpec.flipped f) = atFace area m f := by
    intro f
    simp only [atFace_corners, hv, true_and, UnifySpec.flipped]
    cases m.verts[f.a]? <;> cases m.verts[f.b]? <;> cases m.verts[f.c]? <;> simp only [cornersValue]
    rw [area_flip]
  have g := hf i m.faces[i] (List.getElem?_eq_getElem h2)
  rw [List.getElem?_eq_getElem h1] at g
  rcases g with g | g <;> rw [Option.some.inj g]
  · exact (flip _).1
  · exact (flip _).2

theorem overFaces_map (F : Point3D ℝ → Point3D ℝ) (g : Point3D ℝ → Point3D ℝ → Point3D ℝ → ℝ) (k : ℝ)
    (h : ∀ a b c, g (F a) (F b) (F c) = k * g a b c) (m : TMesh (Point3D ℝ)) : overFaces g ⟨m.verts.map F, m.faces⟩ = k * overFaces g m := by
  unfold overFaces
  rw [← List.sum_map_mul_left]
  congr 1
  refine List.map_congr_left fun f _ => ?_
  simp only [atFace_corners, List.getElem?_map]
  cases m.verts[f.a]? <;> cases m.verts[f.b]? <;> cases m.verts[f.c]? <;> simp [cornersValue, h]

/-- **C145** moving a mesh, and transforming it with a matrix that keeps all distances, keeps the area of its surface; rotations are
such matrices (C40). -/
theorem c145_rigid (m : TMesh (Point3D ℝ)) (x y z : ℝ) (mat : Matrix4 ℝ)
    (hm : ∀ p q : Point3D ℝ, (p.transformed mat).dist (q.transformed mat) = p.dist q) :
    overFaces area (m.moveBy x y z) = overFaces area m ∧ overFaces area (m.transform mat) = overFaces area m := by
  constructor
  · have := overFaces_map (fun p => p.moveBy x y z) area 1 (fun a b c => by
      rw [one_mul]; simp only [area, Point3D.moveBy, areaNormal, add_sub_add_right_eq_sub]) m
    rw [one_mul] at this
    exact this
  · have hs : ∀ p q : Point3D ℝ, Spec.sqrDist (at3 (p.transformed mat)) (at3 (q.transformed mat)) = Spec.sqrDist (at3 p) (at3 q) := by
      intro p q
      have := hm p q
      simp only [Point3D.dist, Real.scalar_sqrt, KdTree.spec_sqrDist] at this
      exact (Real.sqrt_inj (Finset.sum_nonneg fun _ _ => sq_nonneg _) (Finset.sum_nonneg fun _ _ => sq_nonneg _)).1 this
    have := overFaces_map (fun p => p.transformed mat) area 1 (fun a b c => by
      rw [one_mul]; simp only [area, areaNormal_sides, hs]) m
    rw [one_mul] at this
    exact this

/-- **C145** scaling a mesh that has a bounding box multiplies the area of its surface by the square of the factor. -/
theorem c145_scale (m : TMesh (Point3D ℝ)) (k : Positive ℝ) (b : BoundingBox3D ℝ) (hb : m.boundingBoxMaybe = some b) :
    overFaces area (m.scale k) = k.val ^ 2 * overFaces area m := by
  have e : m.scale k = ⟨m.verts.map fun p => p.increaseDistanceToBy b.centerBB k, m.faces⟩ := by
    unfold TMesh.boundingBoxMaybe at hb
    simp [TMesh.scale, PointCloud3D.scale, hb]
  rw [e]
  refine overFaces_map _ _ _ (fun p q r => ?_) m
  unfold area
  rw [show ∑ d, areaNormal (p.increaseDistanceToBy b.centerBB k) (q.increaseDistanceToBy b.centerBB k) (r.increaseDistanceToBy b.centerBB k) d ^ 2 =
      (k.val ^ 2) ^ 2 * ∑ d, areaNormal p q r d ^ 2 by
    simp only [Fin.sum_univ_three, areaNormal, Matrix.cons_val, Point3D.increaseDistanceToBy]; ring,
    Real.sqrt_mul (by positivity), Real.sqrt_sq (by positivity)]
  ring

/-- a turn of any angle about an axis keeps all distances -/
example (t : ℝ) : ∀ p q : Point3D ℝ, (p.transformed (.rotationAxis ⟨0, 0, 1⟩ t)).dist (q.transformed (.rotationAxis ⟨0, 0, 1⟩ t)) = p.dist q :=
  fun p q => (c40_rotation_axis ⟨0, 0, 1⟩ p q t 0 (by norm_num)).2.1

end R3D

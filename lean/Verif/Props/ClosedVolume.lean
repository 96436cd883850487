import Verif.Props.SurfaceKept
import Verif.Props.Affine
/-!
C145, volumes: the volume of a closed mesh does not depend on where the mesh is; transforming it multiplies the volume by the
determinant.
-/
namespace R3D
open Scalar LawfulScalar Spec

/-- the edges of all faces in the direction they are walked -/
def Spec.directedEdges {P : Type} (m : TMesh P) : List (Nat × Nat) := m.faces.flatMap fun f => [(f.a, f.b), (f.b, f.c), (f.c, f.a)]

/-- every edge is walked as often in one direction as in the other: no holes, faces of the same orientation -/
def Spec.Closed {P : Type} (m : TMesh P) : Prop := ((directedEdges m).map Prod.swap).Perm (directedEdges m)

/-- the determinant of the linear part of a matrix -/
noncomputable def Spec.det3 (m : Matrix4 ℝ) : ℝ :=
  m.data 0 0 * (m.data 1 1 * m.data 2 2 - m.data 1 2 * m.data 2 1) - m.data 0 1 * (m.data 1 0 * m.data 2 2 - m.data 1 2 * m.data 2 0) +
    m.data 0 2 * (m.data 1 0 * m.data 2 1 - m.data 1 1 * m.data 2 0)

/-- position of a vertex that exists -/
noncomputable def posOf (m : TMesh (Point3D ℝ)) (i : Nat) : Point3D ℝ := m.verts[i]?.getD ⟨0, 0, 0⟩

theorem atFace_pos (g : Point3D ℝ → Point3D ℝ → Point3D ℝ → ℝ) (m : TMesh (Point3D ℝ)) (hwf : m.WellFormed) (f : Face3) (hf : f ∈ m.faces) :
    atFace g m f = g (posOf m f.a) (posOf m f.b) (posOf m f.c) := by
  obtain ⟨h1, h2, h3, -⟩ := hwf f hf
  simp [atFace, posOf, h1, h2, h3]

theorem sum_swap_zero (w : Nat × Nat → ℝ) (hw : ∀ e, w e.swap = -w e) (l : List (Nat × Nat)) (h : (l.map Prod.swap).Perm l) : (l.map w).sum = 0 := by
  have h1 := (h.map w).sum_eq
  rw [List.map_map] at h1
  have h2 : (l.map (w ∘ Prod.swap)).sum = -(l.map w).sum := by
    clear h h1
    induction l with
    | nil => simp
    | cons e l ih => simp only [List.map_cons, List.sum_cons, ih, Function.comp_apply, hw]; ring
  linarith

/-- the area vectors of a closed mesh cancel -/
theorem closed_normals (m : TMesh (Point3D ℝ)) (hwf : m.WellFormed) (hc : Closed m) (d : Fin 3) :
    overFaces (fun a b c => areaNormal a b c d) m = 0 := by
  let w : Nat × Nat → ℝ := fun e => (![(posOf m e.1).y * (posOf m e.2).z - (posOf m e.1).z * (posOf m e.2).y,
    (posOf m e.1).z * (posOf m e.2).x - (posOf m e.1).x * (posOf m e.2).z, (posOf m e.1).x * (posOf m e.2).y - (posOf m e.1).y * (posOf m e.2).x] : Fin 3 → ℝ) d
  have hw : ∀ e, w e.swap = -w e := by
    intro e
    simp only [w, Prod.fst_swap, Prod.snd_swap]
    revert d
    rw [forall_fin3]
    simp only [Matrix.cons_val]
    refine ⟨?_, ?_, ?_⟩ <;> ring
  rw [← sum_swap_zero w hw _ hc]
  unfold overFaces directedEdges
  have : ∀ l : List Face3, (∀ f ∈ l, f ∈ m.faces) → (l.map (atFace (fun a b c => areaNormal a b c d) m)).sum =
      ((l.flatMap fun f => [(f.a, f.b), (f.b, f.c), (f.c, f.a)]).map w).sum := by
    intro l
    induction l with
    | nil => intro _; rfl
    | cons f l ih =>
      intro hl
      rw [List.map_cons, List.sum_cons, ih fun x hx => hl x (by simp [hx]), List.flatMap_cons, List.map_append, List.sum_append,
        atFace_pos _ m hwf f (hl f (by simp))]
      congr 1
      simp only [List.map_cons, List.map_nil, List.sum_cons, List.sum_nil, w]
      clear hl ih hw w
      revert d
      rw [forall_fin3]
      simp only [Matrix.cons_val, areaNormal]
      refine ⟨?_, ?_, ?_⟩ <;> ring
  exact this m.faces fun f h => h

theorem overFaces_affine (F : Point3D ℝ → Point3D ℝ) (k : ℝ) (t : Fin 3 → ℝ)
    (h : ∀ a b c, signedVolume (F a) (F b) (F c) = k * signedVolume a b c + ∑ d, t d * areaNormal a b c d) (m : TMesh (Point3D ℝ))
    (hwf : m.WellFormed) (hc : Closed m) : overFaces signedVolume ⟨m.verts.map F, m.faces⟩ = k * overFaces signedVolume m := by
  have e : overFaces signedVolume ⟨m.verts.map F, m.faces⟩ = k * overFaces signedVolume m +
      ∑ d, t d * overFaces (fun a b c => areaNormal a b c d) m := by
    unfold overFaces
    have : ∀ l : List Face3, (l.map (atFace signedVolume ⟨m.verts.map F, m.faces⟩)).sum = k * (l.map (atFace signedVolume m)).sum +
        ∑ d, t d * (l.map (atFace (fun a b c => areaNormal a b c d) m)).sum := by
      intro l
      induction l with
      | nil => simp
      | cons f l ih =>
        simp only [List.map_cons, List.sum_cons, ih, mul_add, Finset.sum_add_distrib]
        have : atFace signedVolume ⟨m.verts.map F, m.faces⟩ f = k * atFace signedVolume m f +
            ∑ d, t d * atFace (fun a b c => areaNormal a b c d) m f := by
          simp only [atFace_corners, List.getElem?_map]
          cases m.verts[f.a]? <;> cases m.verts[f.b]? <;> cases m.verts[f.c]? <;> simp [cornersValue, h]
        rw [this]
        ring
    exact this m.faces
  rw [e]
  simp only [closed_normals m hwf hc, mul_zero, Finset.sum_const_zero, add_zero]

/-- **C145** the volume of a closed mesh (every edge walked as often in both directions) stays the same when the mesh is moved, is
multiplied by the determinant when it is transformed, and by the third power of the factor when it is scaled (exact arithmetic). -/
theorem c145_volume (m : TMesh (Point3D ℝ)) (hwf : m.WellFormed) (hc : Closed m) :
    (∀ x y z, overFaces signedVolume (m.moveBy x y z) = overFaces signedVolume m) ∧
    (∀ mat, overFaces signedVolume (m.transform mat) = det3 mat * overFaces signedVolume m) ∧
    ∀ (k : Positive ℝ) b, m.boundingBoxMaybe = some b → overFaces signedVolume (m.scale k) = k.val ^ 3 * overFaces signedVolume m := by
  refine ⟨fun x y z => ?_, fun mat => ?_, fun k b hb => ?_⟩
  · have := overFaces_affine (fun p => p.moveBy x y z) 1 ![x / 6, y / 6, z / 6] (fun a b c => by
      simp only [signedVolume, Point3D.moveBy, areaNormal, Fin.sum_univ_three, Matrix.cons_val]; ring) m hwf hc
    rw [one_mul] at this
    exact this
  · rw [(c133_clouds ⟨fun _ _ => 0⟩ ⟨[]⟩ mat ⟨[]⟩ m).2.2.1]
    let C : Fin 3 → Fin 3 → ℝ := fun i j => mat.data (Fin.castSucc (i + 1)) (Fin.castSucc (j + 1)) * mat.data (Fin.castSucc (i + 2)) (Fin.castSucc (j + 2)) -
      mat.data (Fin.castSucc (i + 1)) (Fin.castSucc (j + 2)) * mat.data (Fin.castSucc (i + 2)) (Fin.castSucc (j + 1))
    refine overFaces_affine (affineOf mat) (det3 mat) (fun d => (∑ i, mat.data (Fin.castSucc i) 3 * C i d) / 6) (fun a b c => ?_) m hwf hc
    simp only [signedVolume, affineOf, areaNormal, Fin.sum_univ_three, Matrix.cons_val, det3, C]
    have c0 : Fin.castSucc (0 : Fin 3) = (0 : Fin 4) := rfl
    have c1 : Fin.castSucc (1 : Fin 3) = (1 : Fin 4) := rfl
    have c2 : Fin.castSucc (2 : Fin 3) = (2 : Fin 4) := rfl
    have d1 : (0 : Fin 3) + 1 = 1 := rfl
    have d2 : (0 : Fin 3) + 2 = 2 := rfl
    have d3 : (1 : Fin 3) + 1 = 2 := rfl
    have d4 : (1 : Fin 3) + 2 = 0 := rfl
    have d5 : (2 : Fin 3) + 1 = 0 := rfl
    have d6 : (2 : Fin 3) + 2 = 1 := rfl
    simp only [d1, d2, d3, d4, d5, d6, c0, c1, c2]
    ring
  · have e : m.scale k = ⟨m.verts.map fun p => p.increaseDistanceToBy b.centerBB k, m.faces⟩ := by
      unfold TMesh.boundingBoxMaybe at hb
      simp [TMesh.scale, PointCloud3D.scale, hb]
    rw [e]
    refine overFaces_affine _ _ ![k.val ^ 2 * (1 - k.val) * b.centerBB.x / 6, k.val ^ 2 * (1 - k.val) * b.centerBB.y / 6,
      k.val ^ 2 * (1 - k.val) * b.centerBB.z / 6] (fun p q r => ?_) m hwf hc
    simp only [signedVolume, areaNormal, Fin.sum_univ_three, Matrix.cons_val, Point3D.increaseDistanceToBy]
    ring

/-- a tetrahedron is closed, of volume 1 / 6 -/
example : Closed (⟨[⟨0, 0, 0⟩, ⟨1, 0, 0⟩, ⟨0, 1, 0⟩, ⟨0, 0, 1⟩], [⟨0, 2, 1⟩, ⟨0, 1, 3⟩, ⟨0, 3, 2⟩, ⟨1, 2, 3⟩]⟩ : TMesh (Point3D ℝ)) ∧
    overFaces signedVolume (⟨[⟨0, 0, 0⟩, ⟨1, 0, 0⟩, ⟨0, 1, 0⟩, ⟨0, 0, 1⟩], [⟨0, 2, 1⟩, ⟨0, 1, 3⟩, ⟨0, 3, 2⟩, ⟨1, 2, 3⟩]⟩ : TMesh (Point3D ℝ)) = 1 / 6 := by
  constructor
  · simp only [Closed, directedEdges]
    decide
  · simp [overFaces, atFace, signedVolume]

end R3D

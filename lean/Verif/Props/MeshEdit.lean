import Verif.Model.MeshEdit
import Verif.Model.F64
import Verif.Lemmas.Scalar
import Mathlib.Tactic.Linarith
/-!
C94: changing positions of a mesh keeps its topology and everything that was computed from it.
-/
namespace R3D
open Scalar

/-- what can be done to a `SearchableMesh` -/
inductive SearchableEdit (α : Type) where
  | addVertex (p : Point3D α)
  | changeVertex (v : Nat) (p : Point3D α)
  | scale (f : Positive α)

variable {α : Type} [Scalar α]

/-- one of these calls -/
def SearchableMesh.edit (s : SearchableMesh (Point3D α)) : SearchableEdit α → SearchableMesh (Point3D α)
  | .addVertex p => (s.addVertex p).1
  | .changeVertex v p => (s.changeVertex v p).1
  | .scale f => s.scale f

namespace Spec
/-- the three corners of face `f`: the positions of the vertices it refers to -/
def cornersOf {P : Type} (m : TMesh P) (f : Nat) : Option (List P) :=
  (m.faces[f]?).bind fun t => [t.a, t.b, t.c].mapM fun v => m.verts[v]?
/-- the affine map of a matrix -/
def affineOf (mat : Matrix4 ℝ) (p : Point3D ℝ) : Point3D ℝ :=
  ⟨mat.data 0 0 * p.x + mat.data 0 1 * p.y + mat.data 0 2 * p.z + mat.data 0 3,
   mat.data 1 0 * p.x + mat.data 1 1 * p.y + mat.data 1 2 * p.z + mat.data 1 3,
   mat.data 2 0 * p.x + mat.data 2 1 * p.y + mat.data 2 2 * p.z + mat.data 2 3⟩
end Spec
open Spec

theorem HalfEdge.new_faces {P Q : Type} (m : TMesh P) (n : TMesh Q) (h : m.faces = n.faces) : HalfEdge.new m = HalfEdge.new n := by
  unfold HalfEdge.new TMesh.numFaces
  rw [h]

theorem SearchableMesh.edit_faces (s : SearchableMesh (Point3D α)) (e : SearchableEdit α) :
    (s.edit e).mesh.faces = s.mesh.faces ∧ (s.edit e).he = s.he ∧ s.mesh.verts.length ≤ (s.edit e).mesh.verts.length := by
  cases e with
  | addVertex p => simp [SearchableMesh.edit, SearchableMesh.addVertex, TMesh.addVertex]
  | changeVertex v p =>
    simp only [SearchableMesh.edit, SearchableMesh.changeVertex, TMesh.changeVertex]
    by_cases h : v < s.mesh.verts.length <;> simp [h]
  | scale f =>
    simp only [SearchableMesh.edit, SearchableMesh.scale, TMesh.scale, PointCloud3D.scale]
    cases PointCloud3D.boundingBoxMaybe ⟨s.mesh.verts⟩ <;> simp

/-- **C94** whatever sequence of calls changes a `SearchableMesh`, it stays what `SearchableMesh::new` would build from its mesh, so that
all queries stay exact; no face changes, and what was well formed stays so. -/
theorem c94_history (m : TMesh (Point3D α)) (edits : List (SearchableEdit α)) :
    let s := edits.foldl SearchableMesh.edit (SearchableMesh.new m)
    s = SearchableMesh.new s.mesh ∧ s.mesh.faces = m.faces ∧ (m.WellFormed → s.mesh.WellFormed) := by
  have key : ∀ (edits : List (SearchableEdit α)) (s : SearchableMesh (Point3D α)),
      (edits.foldl SearchableMesh.edit s).mesh.faces = s.mesh.faces ∧ (edits.foldl SearchableMesh.edit s).he = s.he ∧
        s.mesh.verts.length ≤ (edits.foldl SearchableMesh.edit s).mesh.verts.length := by
    intro edits
    induction edits with
    | nil => exact fun s => ⟨rfl, rfl, le_refl _⟩
    | cons e es ih =>
      intro s
      obtain ⟨a1, a2, a3⟩ := s.edit_faces e
      obtain ⟨b1, b2, b3⟩ := ih (s.edit e)
      exact ⟨b1.trans a1, b2.trans a2, a3.trans b3⟩
  obtain ⟨h1, h2, h3⟩ := key edits (SearchableMesh.new m)
  refine ⟨?_, h1, ?_⟩
  · generalize edits.foldl SearchableMesh.edit (SearchableMesh.new m) = s at h1 h2
    obtain ⟨mesh, he⟩ := s
    simp only at h1 h2
    simp only [SearchableMesh.new, SearchableMesh.mk.injEq, true_and]
    rw [h2]
    exact HalfEdge.new_faces _ _ h1.symm
  · intro hw f hf
    rw [h1] at hf
    obtain ⟨w1, w2, w3, w4, w5, w6⟩ := hw f hf
    exact ⟨lt_of_lt_of_le w1 h3, lt_of_lt_of_le w2 h3, lt_of_lt_of_le w3 h3, w4, w5, w6⟩

/-- **C94** adding a vertex hands out the next id and leaves all others alone; changing one changes exactly this one or reports an
unknown id. -/
theorem c94_vertices {P : Type} (s : SearchableMesh P) (p : P) (v w : Nat) :
    (s.addVertex p).2 = s.mesh.numVertices ∧ (s.addVertex p).1.mesh.vertex s.mesh.numVertices = some p ∧
    (w < s.mesh.numVertices → (s.addVertex p).1.mesh.vertex w = s.mesh.vertex w) ∧
    (v < s.mesh.numVertices → (s.changeVertex v p).2 = .ok () ∧ (s.changeVertex v p).1.mesh.vertex v = some p ∧
      (w ≠ v → (s.changeVertex v p).1.mesh.vertex w = s.mesh.vertex w)) ∧
    (s.mesh.numVertices ≤ v → s.changeVertex v p = (s, .error .IncorrectVertexID)) := by
  refine ⟨rfl, ?_, ?_, ?_, ?_⟩
  · simp [SearchableMesh.addVertex, TMesh.addVertex, TMesh.vertex, TMesh.numVertices]
  · intro h
    simp only [SearchableMesh.addVertex, TMesh.addVertex, TMesh.vertex, TMesh.numVertices] at h ⊢
    rw [List.getElem?_append_left h]
  · intro h
    simp only [TMesh.numVertices] at h
    refine ⟨?_, ?_, fun hw => ?_⟩
    · simp [SearchableMesh.changeVertex, TMesh.changeVertex, h]
    · simp [SearchableMesh.changeVertex, TMesh.changeVertex, h, TMesh.vertex]
    · simp only [SearchableMesh.changeVertex, TMesh.changeVertex, h, if_true, TMesh.vertex]
      rw [List.getElem?_set_ne (Ne.symm hw)]
  · intro h
    simp only [TMesh.numVertices] at h
    simp [SearchableMesh.changeVertex, TMesh.changeVertex, Nat.not_lt.2 h]

theorem mapM_getElem_map {P Q : Type} (g : P → Q) (vs : List P) (is : List Nat) :
    (is.mapM fun v => (vs.map g)[v]?) = (is.mapM fun v => vs[v]?).map (List.map g) := by
  induction is with
  | nil => rfl
  | cons i is ih =>
    rw [List.mapM_cons, List.mapM_cons, ih, List.getElem?_map]
    cases vs[i]? with
    | none => rfl
    | some a => cases (is.mapM fun v => vs[v]?) <;> rfl

/-- the vertices are mapped, so are the corners of every face -/
theorem cornersOf_map {P Q : Type} (g : P → Q) (m : TMesh P) (f : Nat) :
    cornersOf ⟨m.verts.map g, m.faces⟩ f = (cornersOf m f).map (List.map g) := by
  unfold cornersOf
  simp only
  cases m.faces[f]? with
  | none => rfl
  | some t => simp only [Option.bind_some]; exact mapM_getElem_map g m.verts _

/-- **C94** `move_by` and `transform` move the corners of every face and keep the number of faces and vertices and the topology. -/
theorem c94_transform (m : TMesh (Point3D ℝ)) (v : Point3D ℝ) (mat : Matrix4 ℝ) (f : Nat) :
    (m.moveBy v.x v.y v.z).faces = m.faces ∧ (m.transform mat).faces = m.faces ∧
    (m.moveBy v.x v.y v.z).numVertices = m.numVertices ∧ (m.transform mat).numVertices = m.numVertices ∧
    cornersOf (m.moveBy v.x v.y v.z) f = (cornersOf m f).map (List.map fun p => ⟨p.x + v.x, p.y + v.y, p.z + v.z⟩) ∧
    cornersOf (m.transform mat) f = (cornersOf m f).map (List.map (affineOf mat)) := by
  have e1 : m.moveBy v.x v.y v.z = ⟨m.verts.map fun p => ⟨p.x + v.x, p.y + v.y, p.z + v.z⟩, m.faces⟩ := rfl
  have e2 : m.transform mat = ⟨m.verts.map (affineOf mat), m.faces⟩ := by
    simp only [TMesh.transform, PointCloud3D.transform, TMesh.mk.injEq, and_true]
    apply List.map_congr_left
    intro p _
    simp [Point3D.transformed, affineOf, mul_comm]
  refine ⟨rfl, rfl, by simp [TMesh.numVertices, e1], by simp [TMesh.numVertices, e2], ?_, ?_⟩
  · rw [e1]; exact cornersOf_map _ m f
  · rw [e2]; exact cornersOf_map _ m f

/-- **C94** scaling with exact numbers: the topology stays and, when the mesh has a bounding box, all distances between corners are
multiplied by the factor around its center; otherwise nothing changes. -/
theorem c94_scale (m : TMesh (Point3D ℝ)) (k : Positive ℝ) (f : Nat) :
    (m.scale k).faces = m.faces ∧ (m.scale k).numVertices = m.numVertices ∧
    (m.boundingBoxMaybe = none → m.scale k = m) ∧
    ∀ b, m.boundingBoxMaybe = some b → cornersOf (m.scale k) f = (cornersOf m f).map (List.map fun p =>
      ⟨(1 - k.val) * ((b.min.x + b.max.x) / 2) + k.val * p.x, (1 - k.val) * ((b.min.y + b.max.y) / 2) + k.val * p.y,
       (1 - k.val) * ((b.min.z + b.max.z) / 2) + k.val * p.z⟩) := by
  refine ⟨rfl, ?_, ?_, ?_⟩
  · unfold TMesh.scale PointCloud3D.scale TMesh.numVertices
    split <;> simp
  · intro h
    unfold TMesh.boundingBoxMaybe at h
    simp [TMesh.scale, PointCloud3D.scale, h]
  · intro b h
    unfold TMesh.boundingBoxMaybe at h
    rw [← cornersOf_map]
    congr 1
    simp only [TMesh.scale, PointCloud3D.scale, h, TMesh.mk.injEq, and_true]
    apply List.map_congr_left
    intro p _
    simp only [Point3D.increaseDistanceToBy, BoundingBox3D.centerBB, Point3D.mk.injEq]
    refine ⟨?_, ?_, ?_⟩ <;> rw [Real.scalar_lit] <;> push_cast <;> ring

/-- **C94** taking apart and putting together again is the identity -/
theorem c94_parts {P : Type} (s : SearchableMesh P) : SearchableMesh.fromParts s.intoParts = s := rfl

/-- **C94** violated by `From<(M, HalfEdge)>`: the parts need not belong together; here the mesh has one face, the edges of which are
unknown -/
theorem c94_violated : ∃ (m : TMesh Nat) (h : HalfEdge), let s := SearchableMesh.fromParts (m, h)
    s.mesh.WellFormed ∧ s ≠ SearchableMesh.new s.mesh ∧ s.edgesOfFace 0 = some (0, 1, 2) ∧ s.edgeTail 0 = none := by
  refine ⟨⟨[0, 1, 2], [⟨0, 1, 2⟩]⟩, HalfEdge.new (⟨[], []⟩ : TMesh Nat), ?_, ?_, ?_, ?_⟩
  · intro f hf
    simp only [SearchableMesh.fromParts, List.mem_singleton] at hf
    subst hf
    decide
  · intro h
    have := congrArg (fun s => s.he.tails.length) h
    revert this
    decide
  · decide
  · decide

/-- non-vacuity -/
example : cornersOf (⟨[10, 11, 12, 13], [⟨0, 1, 2⟩, ⟨3, 2, 1⟩]⟩ : TMesh Nat) 1 = some [13, 12, 11] := by decide

example : (SearchableMesh.new (⟨[⟨.ofRat 0, .ofRat 0, .ofRat 0⟩, ⟨.ofRat 1, .ofRat 0, .ofRat 1⟩, ⟨.ofRat 0, .ofRat 1, .ofRat 0⟩], [⟨0, 1, 2⟩]⟩ :
    TMesh (Point3D F64))).edgeHead 2 = some 0 := by decide +kernel

end R3D

import Verif.Model.IndexVec
/-
`/repo/src/mesh_3d.rs`: `Mesh3D<P, ID, IC>`, generic in the index container `IC`.
Simplification: the data container `ID` is a list with `Vec` semantics
(`/repo/src/impls/vec.rs` L55-74; `PointCloud3D` forwards to its `Vec`).
-/
namespace R3D

/-- `/repo/src/face3.rs` L33-44 (ids are the `usize` inside `VId`). -/
structure Face3 where
  a : Nat
  b : Nat
  c : Nat
deriving DecidableEq, Repr

/-- mesh_3d.rs L33-42 -/
structure Mesh3D (P IC : Type) where
  pc : List P
  topology : IC
deriving Repr

namespace Mesh3D
variable {P IC : Type} [IndexContainer IC]
open IndexContainer (len get push)

/-- mesh_3d.rs L31 (`derive(Default)`). -/
def empty : Mesh3D P IC := ⟨[], IndexContainer.default⟩

/-- mesh_3d.rs L50-52 -/
def numFaces (m : Mesh3D P IC) : Nat := len m.topology / 3
/-- mesh_3d.rs L54-56 -/
def numVertices (m : Mesh3D P IC) : Nat := m.pc.length

/-- mesh_3d.rs L58-72 (outer `none` = panic inside `topology.get`). -/
def faceVertexIds (m : Mesh3D P IC) (f : Nat) : Panics (Option Face3) :=
  let id1 := 3 * f + 0
  let id2 := 3 * f + 1
  let id3 := 3 * f + 2
  if id3 ≥ len m.topology then some none
  else do
    let a ← get m.topology id1
    let b ← get m.topology id2
    let c ← get m.topology id3
    return some ⟨a, b, c⟩

/-- mesh_3d.rs L83-85 -/
def vertex (m : Mesh3D P IC) (v : Nat) : Option P := m.pc[v]?

/-- mesh_3d.rs L74-81 -/
def faceVertices (m : Mesh3D P IC) (f : Nat) : Panics (Option (P × P × P)) := do
  match ← m.faceVertexIds f with
  | none => return none
  | some face =>
    match m.vertex face.a, m.vertex face.b, m.vertex face.c with
    | some v1, some v2, some v3 => return some (v1, v2, v3)
    | _, _, _ => return none

/-- mesh_3d.rs L128-131: new mesh and id of the new vertex. -/
def addVertex (m : Mesh3D P IC) (v : P) : Mesh3D P IC × Nat :=
  let pc := m.pc ++ [v]
  ({ m with pc := pc }, pc.length - 1)

/-- mesh_3d.rs L94-102 -/
def addFace (m : Mesh3D P IC) (v1 v2 v3 : P) : Mesh3D P IC × Nat :=
  let (m, vid1) := m.addVertex v1
  let (m, vid2) := m.addVertex v2
  let (m, vid3) := m.addVertex v3
  let t := push (push (push m.topology vid1) vid2) vid3
  ({ m with topology := t }, len t / 3 - 1)

/-- mesh_3d.rs L104-115: the mesh afterwards and the result. -/
def tryAddConnection (m : Mesh3D P IC) (v1 v2 v3 : Nat) : Mesh3D P IC × Res Nat :=
  if v1 ≥ m.pc.length ∨ v2 ≥ m.pc.length ∨ v3 ≥ m.pc.length then
    (m, .error .IncorrectVertexID)
  else if v1 = v2 ∨ v1 = v3 ∨ v2 = v3 then
    (m, .error .FaceIDsNotUnique)
  else
    let t := push (push (push m.topology v1) v2) v3
    ({ m with topology := t }, .ok (len t / 3 - 1))

/-- mesh_3d.rs L117-119 -/
def reserveFaces (m : Mesh3D P IC) (n : Nat) : Mesh3D P IC :=
  { m with topology := IndexContainer.reserve m.topology (3 * n) }

/-- mesh_3d.rs L133-140 (`set_d` is only called in range, so it cannot panic). -/
def changeVertex (m : Mesh3D P IC) (v : Nat) (p : P) : Mesh3D P IC × Res Unit :=
  if v < m.pc.length then ({ m with pc := m.pc.set v p }, .ok ())
  else (m, .error .IncorrectVertexID)

/-- mesh_3d.rs L142-144 -/
def reserveVertices (m : Mesh3D P IC) (_ : Nat) : Mesh3D P IC := m

end Mesh3D

/-! ### The mesh interface

The generic algorithms of the library (`HalfEdge`, `heal_mesh`, `subdivide`, IO, ...) access a
mesh only through the traits `IsMesh`, `IsFaceEditableMesh`, `IsVertexEditableMesh`
(`/repo/src/is_mesh.rs` L30-44, `/repo/src/is_face_editable_mesh.rs` L30-40,
`/repo/src/is_vertex_editable_mesh.rs` L30-40). `TMesh` is the observable state of such a mesh;
`Props/Mesh.lean` proves that `Mesh3D` over every faithful index container is such a mesh. -/

/-- Observable state of a mesh: its vertices and faces in id order. Seen through `/repo/src/is_mesh.rs` L30-44 -/
structure TMesh (P : Type) where
  verts : List P
  faces : List Face3
deriving DecidableEq, Repr

namespace TMesh
variable {P : Type}

/-- a default constructed mesh; `Default`, required e.g. at `/repo/src/cluster_vertices.rs` L75 -/
def empty : TMesh P := ⟨[], []⟩
/-- `/repo/src/is_mesh.rs` L35: `num_faces` -/
def numFaces (m : TMesh P) : Nat := m.faces.length
/-- `/repo/src/is_mesh.rs` L37: `num_vertices` -/
def numVertices (m : TMesh P) : Nat := m.verts.length
/-- `/repo/src/is_mesh.rs` L39: `face_vertex_ids` -/
def faceVertexIds (m : TMesh P) (f : Nat) : Option Face3 := m.faces[f]?
/-- `/repo/src/is_mesh.rs` L43: `vertex` -/
def vertex (m : TMesh P) (v : Nat) : Option P := m.verts[v]?
/-- `/repo/src/is_mesh.rs` L41: `face_vertices` -/
def faceVertices (m : TMesh P) (f : Nat) : Option (P × P × P) := do
  let face ← m.faceVertexIds f
  let v1 ← m.vertex face.a
  let v2 ← m.vertex face.b
  let v3 ← m.vertex face.c
  return (v1, v2, v3)
/-- `/repo/src/is_vertex_editable_mesh.rs` L35: `add_vertex` -/
def addVertex (m : TMesh P) (v : P) : TMesh P × Nat :=
  ({ m with verts := m.verts ++ [v] }, m.verts.length)
/-- `/repo/src/is_face_editable_mesh.rs` L35: `add_face` -/
def addFace (m : TMesh P) (v1 v2 v3 : P) : TMesh P × Nat :=
  (⟨m.verts ++ [v1, v2, v3],
    m.faces ++ [⟨m.verts.length, m.verts.length + 1, m.verts.length + 2⟩]⟩, m.faces.length)
/-- `/repo/src/is_face_editable_mesh.rs` L37: `try_add_connection` -/
def tryAddConnection (m : TMesh P) (v1 v2 v3 : Nat) : TMesh P × Res Nat :=
  if v1 ≥ m.verts.length ∨ v2 ≥ m.verts.length ∨ v3 ≥ m.verts.length then
    (m, .error .IncorrectVertexID)
  else if v1 = v2 ∨ v1 = v3 ∨ v2 = v3 then
    (m, .error .FaceIDsNotUnique)
  else ({ m with faces := m.faces ++ [⟨v1, v2, v3⟩] }, .ok m.faces.length)
/-- `/repo/src/is_vertex_editable_mesh.rs` L37: `change_vertex` -/
def changeVertex (m : TMesh P) (v : Nat) (p : P) : TMesh P × Res Unit :=
  if v < m.verts.length then ({ m with verts := m.verts.set v p }, .ok ())
  else (m, .error .IncorrectVertexID)

/-- Every face refers to three different existing vertices: what `try_add_connection` and
`add_face` guarantee (proved in `Props/Mesh.lean`). `/repo/src/mesh_3d.rs` L88-115 -/
def WellFormed (m : TMesh P) : Prop :=
  ∀ f ∈ m.faces, f.a < m.verts.length ∧ f.b < m.verts.length ∧ f.c < m.verts.length ∧
    f.a ≠ f.b ∧ f.a ≠ f.c ∧ f.b ≠ f.c

end TMesh
end R3D

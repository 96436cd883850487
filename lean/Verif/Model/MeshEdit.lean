import Verif.Model.HalfEdge
import Verif.Model.PointCloud
/-
Changing the positions of a mesh: `/repo/src/mesh_3d.rs` L146-L206, `/repo/src/searchable_mesh.rs` L100-L117, L185-L250.
As elsewhere a mesh is its observable state `TMesh`; the data container is the `PointCloud3D` of its vertices.
-/
namespace R3D
open Scalar
variable {α : Type} [Scalar α]

namespace TMesh

/-- `bounding_box_maybe`, `/repo/src/mesh_3d.rs` L153-155 -/
def boundingBoxMaybe (m : TMesh (Point3D α)) : Option (BoundingBox3D α) := PointCloud3D.boundingBoxMaybe ⟨m.verts⟩
/-- `center_of_gravity`, `/repo/src/mesh_3d.rs` L164-166 -/
def centerOfGravity (m : TMesh (Point3D α)) : Option (Point3D α) := PointCloud3D.centerOfGravity ⟨m.verts⟩
/-- `scale`, `/repo/src/mesh_3d.rs` L175-177 -/
def scale (m : TMesh (Point3D α)) (factor : Positive α) : TMesh (Point3D α) :=
  { m with verts := (PointCloud3D.scale ⟨m.verts⟩ factor).data }
/-- `transform` / `transformed`, `/repo/src/mesh_3d.rs` L186-194 -/
def transform (m : TMesh (Point3D α)) (mat : Matrix4 α) : TMesh (Point3D α) :=
  { m with verts := (PointCloud3D.transform ⟨m.verts⟩ mat).data }
/-- `move_by`, `/repo/src/mesh_3d.rs` L203-205 -/
def moveBy (m : TMesh (Point3D α)) (x y z : α) : TMesh (Point3D α) :=
  { m with verts := (PointCloud3D.moveBy ⟨m.verts⟩ x y z).data }

end TMesh

namespace SearchableMesh

/-- `add_vertex`, `/repo/src/searchable_mesh.rs` L107-109 -/
def addVertex {P : Type} (s : SearchableMesh P) (v : P) : SearchableMesh P × Nat :=
  let (m, id) := s.mesh.addVertex v
  ({ s with mesh := m }, id)
/-- `change_vertex`, `/repo/src/searchable_mesh.rs` L111-113 -/
def changeVertex {P : Type} (s : SearchableMesh P) (v : Nat) (p : P) : SearchableMesh P × Res Unit :=
  let (m, r) := s.mesh.changeVertex v p
  ({ s with mesh := m }, r)
/-- `scale`, `/repo/src/searchable_mesh.rs` L210-212 -/
def scale (s : SearchableMesh (Point3D α)) (factor : Positive α) : SearchableMesh (Point3D α) :=
  { s with mesh := s.mesh.scale factor }
/-- `into`, `/repo/src/searchable_mesh.rs` L230-232 -/
def intoParts {P : Type} (s : SearchableMesh P) : TMesh P × HalfEdge := (s.mesh, s.he)
/-- `from`, `/repo/src/searchable_mesh.rs` L240-246: no check that the two belong together -/
def fromParts {P : Type} (me : TMesh P × HalfEdge) : SearchableMesh P := ⟨me.1, me.2⟩

end SearchableMesh
end R3D

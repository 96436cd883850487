import Verif.Model.Intersect
/-
Operators of normals, infinite lines, rays, planes and changes of dimension. A `Norm2D` / `Norm3D` is represented by its
coordinates, as in `Model/Intersect.lean`.
-/
namespace R3D
open Scalar
variable {α : Type} [Scalar α]

/-- `/repo/src/norm_2d.rs` L61-81, both `Mul<f64>` -/
def Norm2D.mul (n : Point2D α) (f : α) : Point2D α := ⟨f * n.x, f * n.y⟩
/-- `/repo/src/norm_2d.rs` L83-103, both `Neg` -/
def Norm2D.neg (n : Point2D α) : Point2D α := ⟨-n.x, -n.y⟩
/-- `/repo/src/norm_3d.rs` L63-85, both `Mul<f64>` -/
def Norm3D.mul (n : Point3D α) (f : α) : Point3D α := ⟨f * n.x, f * n.y, f * n.z⟩
/-- `/repo/src/norm_3d.rs` L87-109, both `Neg` -/
def Norm3D.neg (n : Point3D α) : Point3D α := ⟨-n.x, -n.y, -n.z⟩

/-- `/repo/src/line_2d.rs` L33-43 -/
structure Line2D (α : Type) where
  anchor : Point2D α
  dir : Point2D α
/-- `/repo/src/line_3d.rs` L33-43 -/
structure Line3D (α : Type) where
  anchor : Point3D α
  dir : Point3D α
/-- `/repo/src/ray_2d.rs` L33-42 -/
structure Ray2D (α : Type) where
  line : Line2D α
/-- `/repo/src/ray_3d.rs` L33-42 -/
structure Ray3D (α : Type) where
  line : Line3D α
/-- `/repo/src/plane_3d.rs` L31-39, `new`, `origin`, `u`, `v` L60-74 -/
structure Plane3D (α : Type) where
  origin : Point3D α
  u : Point3D α
  v : Point3D α

/-- `/repo/src/line_2d.rs` L45-49 -/
def Line2D.moveBy (l : Line2D α) (x y : α) : Line2D α := { l with anchor := l.anchor.moveBy x y }
/-- `/repo/src/line_3d.rs` L45-49 -/
def Line3D.moveBy (l : Line3D α) (x y z : α) : Line3D α := { l with anchor := l.anchor.moveBy x y z }
/-- `/repo/src/ray_2d.rs` L44-48 -/
def Ray2D.moveBy (r : Ray2D α) (x y : α) : Ray2D α := { r with line := r.line.moveBy x y }
/-- `/repo/src/ray_3d.rs` L44-48 -/
def Ray3D.moveBy (r : Ray3D α) (x y z : α) : Ray3D α := { r with line := r.line.moveBy x y z }
/-- `/repo/src/plane_3d.rs` L41-53 -/
def Plane3D.default : Plane3D α := ⟨Point3D.default, Norm3D.normX, Norm3D.normY⟩

/-- `/repo/src/point_3d.rs` L340-347 -/
def Point3D.transformTo2D (p : Point3D α) : Point2D α := ⟨p.x, p.y⟩
/-- `/repo/src/point_2d.rs` L312-317 -/
def Point2D.transformTo3D (p : Point2D α) (z : α) : Point3D α := ⟨p.x, p.y, z⟩

end R3D

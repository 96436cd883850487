import Verif.Model.BoundingBox
/-
Sphere, Circle, Box2D, Box3D.
-/
namespace R3D
open Scalar

/-- `/repo/src/sphere.rs` L33-36 -/
structure Sphere (α : Type) where
  center : Point3D α
  radius : Positive α
deriving DecidableEq, Repr

/-- `/repo/src/circle.rs` L33-36 -/
structure Circle (α : Type) where
  center : Point2D α
  radius : Positive α
deriving DecidableEq, Repr

/-- `/repo/src/box_2d.rs` L33-37 -/
structure Box2D (α : Type) where
  center : Point2D α
  sizeX : Positive α
  sizeY : Positive α
deriving DecidableEq, Repr

/-- `/repo/src/box_3d.rs` L33-38 -/
structure Box3D (α : Type) where
  center : Point3D α
  sizeX : Positive α
  sizeY : Positive α
  sizeZ : Positive α
deriving DecidableEq, Repr

/-- `/repo/src/sphere.rs` L64-67 -/
def Sphere.x {α : Type} (s : Sphere α) : α := s.center.x
/-- `/repo/src/sphere.rs` L69-72 -/
def Sphere.y {α : Type} (s : Sphere α) : α := s.center.y
/-- `/repo/src/sphere.rs` L74-77: returns the y coordinate of the center -/
def Sphere.z {α : Type} (s : Sphere α) : α := s.center.y
/-- `/repo/src/box_3d.rs` L97-100 -/
def Box3D.x {α : Type} (b : Box3D α) : α := b.center.x
/-- `/repo/src/box_3d.rs` L102-105 -/
def Box3D.y {α : Type} (b : Box3D α) : α := b.center.y
/-- `/repo/src/box_3d.rs` L107-110 -/
def Box3D.z {α : Type} (b : Box3D α) : α := b.center.z
/-- `/repo/src/box_2d.rs` L91-94 -/
def Box2D.x {α : Type} (b : Box2D α) : α := b.center.x
/-- `/repo/src/box_2d.rs` L96-99 -/
def Box2D.y {α : Type} (b : Box2D α) : α := b.center.y
/-- `/repo/src/circle.rs` L64-67 -/
def Circle.x {α : Type} (c : Circle α) : α := c.center.x
/-- `/repo/src/circle.rs` L69-72 -/
def Circle.y {α : Type} (c : Circle α) : α := c.center.y

end R3D

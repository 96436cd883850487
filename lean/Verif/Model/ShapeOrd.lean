import Verif.Model.PointOrd
import Verif.Model.Shapes
/-
Equality, ordering and hashing of circles, spheres and boxes. `Positive` is compared by its only field
(`/repo/src/positive.rs` L35, derived) and hashed by it (L65-70); the derived implementations of the shapes go through the
fields in order.
-/
namespace R3D
open Scalar
variable {α : Type} [Scalar α]

namespace Circle
/-- `/repo/src/circle.rs` L31 derived `PartialEq` -/
def beq (a b : Circle α) : Bool := a.center.beq b.center && a.radius.val ==. b.radius.val
/-- `/repo/src/circle.rs` L41-50 `Ord::cmp` -/
def cmp (a b : Circle α) : Ordering :=
  match partialCmp ((Point2D.default : Point2D α).sqrDist a.center) ((Point2D.default : Point2D α).sqrDist b.center) with
  | some x => x
  | none => unwrapEq (partialCmp a.radius.val b.radius.val)
/-- `/repo/src/circle.rs` L31 derived `PartialOrd` -/
def partialCmpDerived (a b : Circle α) : Option Ordering :=
  match a.center.partialCmpDerived b.center with
  | some .eq => partialCmp a.radius.val b.radius.val
  | o => o
/-- `/repo/src/circle.rs` L31 derived `Hash`: the words fed to the hasher -/
def hashWords (a : Circle F64) : List F64 := a.center.hashWords ++ [a.radius.val]
end Circle

namespace Sphere
/-- `/repo/src/sphere.rs` L31 derived `PartialEq` -/
def beq (a b : Sphere α) : Bool := a.center.beq b.center && a.radius.val ==. b.radius.val
/-- `/repo/src/sphere.rs` L41-50 `Ord::cmp` -/
def cmp (a b : Sphere α) : Ordering :=
  match partialCmp ((Point3D.default : Point3D α).sqrDist a.center) ((Point3D.default : Point3D α).sqrDist b.center) with
  | some x => x
  | none => unwrapEq (partialCmp a.radius.val b.radius.val)
/-- `/repo/src/sphere.rs` L31 derived `PartialOrd` -/
def partialCmpDerived (a b : Sphere α) : Option Ordering :=
  match a.center.partialCmpDerived b.center with
  | some .eq => partialCmp a.radius.val b.radius.val
  | o => o
/-- `/repo/src/sphere.rs` L31 derived `Hash`: the words fed to the hasher -/
def hashWords (a : Sphere F64) : List F64 := a.center.hashWords ++ [a.radius.val]
end Sphere

namespace Box2D
/-- `/repo/src/box_2d.rs` L31 derived `PartialEq` -/
def beq (a b : Box2D α) : Bool := a.center.beq b.center && a.sizeX.val ==. b.sizeX.val && a.sizeY.val ==. b.sizeY.val
/-- `/repo/src/box_2d.rs` L65-77 `Ord::cmp` -/
def cmp (a b : Box2D α) : Ordering :=
  match partialCmp ((Point2D.default : Point2D α).sqrDist a.center) ((Point2D.default : Point2D α).sqrDist b.center) with
  | some x => x
  | none =>
    match partialCmp a.sizeX.val b.sizeX.val with
    | some x => x
    | none => unwrapEq (partialCmp a.sizeY.val b.sizeY.val)
/-- `/repo/src/box_2d.rs` L31 derived `Hash`: the words fed to the hasher -/
def hashWords (a : Box2D F64) : List F64 := a.center.hashWords ++ [a.sizeX.val, a.sizeY.val]
end Box2D

namespace Box3D
/-- `/repo/src/box_3d.rs` L31 derived `PartialEq` -/
def beq (a b : Box3D α) : Bool :=
  a.center.beq b.center && a.sizeX.val ==. b.sizeX.val && a.sizeY.val ==. b.sizeY.val && a.sizeZ.val ==. b.sizeZ.val
/-- `/repo/src/box_3d.rs` L68-83 `Ord::cmp` -/
def cmp (a b : Box3D α) : Ordering :=
  match partialCmp ((Point3D.default : Point3D α).sqrDist a.center) ((Point3D.default : Point3D α).sqrDist b.center) with
  | some x => x
  | none =>
    match partialCmp a.sizeX.val b.sizeX.val with
    | some x => x
    | none =>
      match partialCmp a.sizeY.val b.sizeY.val with
      | some x => x
      | none => unwrapEq (partialCmp a.sizeZ.val b.sizeZ.val)
/-- `/repo/src/box_3d.rs` L31 derived `Hash`: the words fed to the hasher -/
def hashWords (a : Box3D F64) : List F64 := a.center.hashWords ++ [a.sizeX.val, a.sizeY.val, a.sizeZ.val]
end Box3D
end R3D

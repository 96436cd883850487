import Verif.Model.Point
import Verif.Model.F64
/-
Ordering and hashing of points. `Norm2D` / `Norm3D` carry the same code on the same fields
(`/repo/src/norm_2d.rs` L42-59, `/repo/src/norm_3d.rs` L43-61), they are covered by the definitions for
points. `hash_f64` (`/repo/src/utils.rs` L72-77) feeds the bit pattern of a number to the hasher; a
binary64 number other than NaN is identified with its bit pattern (NaN payloads are not modelled).
-/
namespace R3D
open Scalar

/-- `Option::unwrap_or(Ordering::Equal)`; `/repo/src/point_3d.rs` L58 -/
def unwrapEq : Option Ordering → Ordering
  | some o => o
  | none => .eq

namespace Point2D
variable {α : Type} [Scalar α]
/-- `/repo/src/point_2d.rs` L52-57 `Ord::cmp` -/
def cmp (a b : Point2D α) : Ordering :=
  unwrapEq (partialCmp ((default : Point2D α).sqrDist a) ((default : Point2D α).sqrDist b))
/-- `/repo/src/point_2d.rs` L36 derived `PartialOrd::partial_cmp`: lexicographic in x, y -/
def partialCmpDerived (a b : Point2D α) : Option Ordering :=
  match Scalar.partialCmp a.x b.x with
  | some .eq => Scalar.partialCmp a.y b.y
  | o => o
/-- `/repo/src/point_2d.rs` L62-65: the words fed to the hasher -/
def hashWords (a : Point2D F64) : List F64 := [a.x, a.y]
end Point2D

namespace Point3D
variable {α : Type} [Scalar α]
/-- `/repo/src/point_3d.rs` L54-59 `Ord::cmp` -/
def cmp (a b : Point3D α) : Ordering :=
  unwrapEq (partialCmp ((default : Point3D α).sqrDist a) ((default : Point3D α).sqrDist b))
/-- `/repo/src/point_3d.rs` L37 derived `PartialOrd::partial_cmp`: lexicographic in x, y, z -/
def partialCmpDerived (a b : Point3D α) : Option Ordering :=
  match Scalar.partialCmp a.x b.x with
  | some .eq =>
    match Scalar.partialCmp a.y b.y with
    | some .eq => Scalar.partialCmp a.z b.z
    | o => o
  | o => o
/-- `/repo/src/point_3d.rs` L64-68: the words fed to the hasher -/
def hashWords (a : Point3D F64) : List F64 := [a.x, a.y, a.z]
end Point3D
end R3D

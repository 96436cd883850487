import Verif.Model.BoundingBox
/-
Compressed point clouds. The integer type `T` (any unsigned primitive integer) is given by its number of bits.
`T::from(f64)` and `to_f64` are functions of the `num` crate (not part of `/repo`): the conversion gives `None`
unless `-1 < x < limit` and truncates otherwise; `limit` is `MAX + 1` for types of less than 64 bits and
`MAX as f64` for the others. `to_f64` of an unsigned integer always succeeds.
-/
namespace R3D
open Scalar

variable {α : Type} [Scalar α]

/-- `T::max_value()`; `/repo/src/compressed_point_cloud_3d.rs` L61 -/
def maxValue (bits : Nat) : Nat := 2 ^ bits - 1

/-- `T::from(x)` (`num::NumCast`); `/repo/src/compressed_point_cloud_3d.rs` L75-77 -/
def castTo (bits : Nat) (x : α) : Option Nat :=
  let limit : α := if bits < 64 then lit (maxValue bits) + lit 1 else lit (maxValue bits)
  if x >. lit (-1) && x <. limit then some (toNatSat (maxValue bits) x) else none

/-- `/repo/src/compressed_point_3d.rs` L31-38 -/
structure CompressedPoint3D where
  unitsx : Nat
  unitsy : Nat
  unitsz : Nat
deriving DecidableEq, Repr

/-- `/repo/src/compressed_point_cloud_3d.rs` L33-42 -/
structure CompressedPointCloud3D (α : Type) where
  start : Point3D α
  unitsizex : α
  unitsizey : α
  unitsizez : α
  data : List CompressedPoint3D

namespace CompressedPointCloud3D

/-- body of the loop `/repo/src/compressed_point_cloud_3d.rs` L71-83 -/
def compressPoint (bits : Nat) (mn : Point3D α) (ux uy uz : α) (p : Point3D α) : Res CompressedPoint3D :=
  match castTo bits ((p.x - mn.x) / ux) with
  | none => .error .NumberConversionError
  | some x =>
    match castTo bits ((p.y - mn.y) / uy) with
    | none => .error .NumberConversionError
    | some y =>
      match castTo bits ((p.z - mn.z) / uz) with
      | none => .error .NumberConversionError
      | some z => .ok ⟨x, y, z⟩

/-- `/repo/src/compressed_point_cloud_3d.rs` L49-92; the bounding box is the one of `PointCloud3D`,
`/repo/src/point_cloud_3d.rs` L207-209 -/
def compress (bits : Nat) (pc : List (Point3D α)) : Res (CompressedPointCloud3D α) :=
  match BoundingBox3D.fromIterator pc with
  | .error _ => .error .BoundingBoxMissing
  | .ok bb =>
    let maxval : α := lit (maxValue bits)
    let ux := Scalar.abs (bb.max.x - bb.min.x) / maxval
    let uy := Scalar.abs (bb.max.y - bb.min.y) / maxval
    let uz := Scalar.abs (bb.max.z - bb.min.z) / maxval
    match pc.mapM (compressPoint bits bb.min ux uy uz) with
    | .error e => .error e
    | .ok data => .ok ⟨bb.min, ux, uy, uz, data⟩

/-- `/repo/src/compressed_point_cloud_3d.rs` L95-113 -/
def decompress (c : CompressedPointCloud3D α) : List (Point3D α) :=
  c.data.map fun p =>
    ⟨c.start.x + c.unitsizex * lit p.unitsx, c.start.y + c.unitsizey * lit p.unitsy,
     c.start.z + c.unitsizez * lit p.unitsz⟩

end CompressedPointCloud3D
end R3D

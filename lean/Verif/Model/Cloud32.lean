import Verif.Model.ByteCodec
import Verif.Model.BoundingBox
/-
`/repo/src/point_cloud_3d_f32.rs`: `PointCloud3Df32`. The state is its `data: Vec<f32>`; an `f32` is the `f64` of the same value.
-/
namespace R3D
open Scalar

/-- `+` of `f32` (standard library): the exact sum, rounded once; `/repo/src/point_cloud_3d_f32.rs` L118-120 -/
def F64.add32 : F64 → F64 → F64
  | .fin s m, .fin t n =>
    let q := F64.val s m + F64.val t n
    if q = 0 then .fin (s && t) 0 else if q < 0 then (F64.fin true (-q)).toF32 else (F64.fin false q).toF32
  | a, b => F64.add a b

namespace Cloud32

/-- `len_d`, `/repo/src/point_cloud_3d_f32.rs` L87-89 -/
def lenD (d : List F64) : Nat := d.length / 3

/-- `push` `/repo/src/point_cloud_3d_f32.rs` L69-73, `push_d` L91-95 -/
def pushD (d : List F64) (p : Point3D F64) : List F64 := d ++ [p.x.toF32] ++ [p.y.toF32] ++ [p.z.toF32]

/-- `get_d`, `/repo/src/point_cloud_3d_f32.rs` L97-103 -/
def getD (d : List F64) (index : Nat) : Option (Point3D F64) := do
  let x ← d[3 * index + 0]?
  let y ← d[3 * index + 1]?
  let z ← d[3 * index + 2]?
  return ⟨x, y, z⟩

/-- `set_d`, `/repo/src/point_cloud_3d_f32.rs` L105-109 -/
def setD (d : List F64) (index : Nat) (p : Point3D F64) : Panics (List F64) := do
  let d ← vecSet d (3 * index + 0) p.x.toF32
  let d ← vecSet d (3 * index + 1) p.y.toF32
  vecSet d (3 * index + 2) p.z.toF32

/-- `data[i] += v as f32`; `/repo/src/point_cloud_3d_f32.rs` L118-120 -/
def addAt (d : List F64) (i : Nat) (v : F64) : Panics (List F64) := do
  let old ← d[i]?
  vecSet d i (old.add32 v.toF32)

/-- `move_by`, `/repo/src/point_cloud_3d_f32.rs` L116-122 -/
def moveBy (d : List F64) (x y z : F64) : Panics (List F64) :=
  (List.range (d.length / 3)).foldlM (fun d index => do
    let d ← addAt d (3 * index + 0) x
    let d ← addAt d (3 * index + 1) y
    addAt d (3 * index + 2) z) d

/-- one round of the loop `/repo/src/point_cloud_3d_f32.rs` L144-164; the state is the minima and maxima -/
def bbStep (d : List F64) (s : Point3D F64 × Point3D F64) (i : Nat) : Panics (Point3D F64 × Point3D F64) := do
  let x ← d[3 * i + 0]?
  let y ← d[3 * i + 1]?
  let z ← d[3 * i + 2]?
  let minx := if x <. s.1.x then x else s.1.x
  let miny := if y <. s.1.y then y else s.1.y
  let minz := if z <. s.1.z then z else s.1.z
  let maxx := if x >. s.2.x then x else s.2.x
  let maxy := if y >. s.2.y then y else s.2.y
  let maxz := if z >. s.2.z then z else s.2.z
  return (⟨minx, miny, minz⟩, ⟨maxx, maxy, maxz⟩)

/-- `bounding_box_maybe`, `/repo/src/point_cloud_3d_f32.rs` L129-179 -/
def boundingBoxMaybe (d : List F64) : Panics (Option (BoundingBox3D F64)) :=
  let n := d.length / 3
  if n ≤ 2 then some none
  else do
    let x ← d[0]?
    let y ← d[1]?
    let z ← d[2]?
    let s ← (List.range' 1 (n - 1)).foldlM (bbStep d) (⟨x, y, z⟩, ⟨x, y, z⟩)
    return (BoundingBox3D.new s.1 s.2).toOption

end Cloud32
end R3D

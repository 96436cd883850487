import Verif.Model.BoundingBox
import Verif.Model.Matrix
import Verif.Model.Sort
import Verif.Model.Filter
/-
Point clouds, the sort helpers, the free functions `center`, `set_size`, `extrude`, polygons and
line segments.
`PointCloud2D` and `PointCloud3D` share their list operations, so that one structure serves both.
`reserve` / `with_capacity` have no observable effect and are not modelled. `&mut self` methods
return the new value; where an error is possible the value after the call is returned as well.
-/
namespace R3D
open Scalar

/-- `/repo/src/point_cloud_2d.rs` L36-41, `/repo/src/point_cloud_3d.rs` L36-41 -/
structure PointCloud (P : Type) where
  data : List P
deriving DecidableEq, Repr

namespace PointCloud
variable {P : Type}

/-- `/repo/src/point_cloud_2d.rs` L48-50, `/repo/src/point_cloud_3d.rs` L48-50 -/
def new : PointCloud P := ⟨[]⟩
/-- `/repo/src/point_cloud_2d.rs` L161-163 (and L121-123 `len_d`), same lines in 3D -/
abbrev len (pc : PointCloud P) : Nat := pc.data.length
/-- `/repo/src/point_cloud_2d.rs` L184-186 (and L125-127 `push_d`), same lines in 3D -/
def push (pc : PointCloud P) (p : P) : PointCloud P := ⟨pc.data ++ [p]⟩
/-- `/repo/src/point_cloud_2d.rs` L129-131 `get_d`, same lines in 3D -/
def get (pc : PointCloud P) (i : Nat) : Option P := pc.data[i]?
/-- `/repo/src/point_cloud_2d.rs` L143-145 `Index` (panics out of range), same lines in 3D -/
def index (pc : PointCloud P) (i : Nat) : Panics P := pc.data[i]?
/-- `/repo/src/point_cloud_2d.rs` L133-135 `set_d`, L152-154 `IndexMut` (panics out of range),
same lines in 3D -/
def set (pc : PointCloud P) (i : Nat) (p : P) : Panics (PointCloud P) := do
  let d ← vecSet pc.data i p
  some ⟨d⟩
/-- `/repo/src/point_cloud_2d.rs` L170-177, same lines in 3D. `Vec::insert` keeps the elements before
`index` and shifts the others by one. -/
def insert (pc : PointCloud P) (index : Nat) (p : P) : PointCloud P × Res Unit :=
  if index > pc.len then (pc, .error .IncorrectVertexID)
  else (⟨pc.data.take index ++ p :: pc.data.drop index⟩, .ok ())
/-- loop of `/repo/src/point_cloud_2d.rs` L105-107 over the indices -/
def appendLoop (ra : List P) : List Nat → PointCloud P → Panics (PointCloud P)
  | [], pc => some pc
  | i :: is, pc => do
    let p ← ra[i]?
    appendLoop ra is (pc.push p)
/-- `/repo/src/point_cloud_2d.rs` L98-108 `append_ra`, same lines in 3D -/
def appendRa (pc : PointCloud P) (ra : List P) : Panics (PointCloud P) :=
  appendLoop ra (List.range ra.length) pc
/-- `/repo/src/point_cloud_2d.rs` L314-318, `/repo/src/point_cloud_3d.rs` L324-328 -/
def consume (pc other : PointCloud P) : PointCloud P := other.data.foldl push pc
/-- `/repo/src/point_cloud_2d.rs` L320-324, `/repo/src/point_cloud_3d.rs` L330-334 -/
def combine (pc other : PointCloud P) : PointCloud P := consume pc other
/-- `/repo/src/point_cloud_2d.rs` L66-73 `for_each_point`, same lines in 3D -/
def forEachPoint (f : P → P) (pc : PointCloud P) : PointCloud P := ⟨pc.data.map f⟩
/-- `/repo/src/point_cloud_2d.rs` L261-264, `/repo/src/point_cloud_3d.rs` L264-267 -/
def applyView (pc : PointCloud P) (v : View) : PointCloud P × Res Unit :=
  let (d, r) := v.apply pc.data
  (⟨d⟩, r)
/-- `/repo/src/point_cloud_2d.rs` L266-271, `/repo/src/point_cloud_3d.rs` L269-273 -/
def fromView (pc : PointCloud P) (v : View) : Option (PointCloud P) :=
  match pc.applyView v with
  | (pc', .ok ()) => some pc'
  | (_, .error _) => none

end PointCloud

/-- `/repo/src/impls/vec.rs` L36-42, `/repo/src/impls/vec_deque.rs` L38-44: `IsRandomInsertible::insert`
for `Vec` and `VecDeque` -/
def vecInsert {T : Type} (v : List T) (index : Nat) (x : T) : List T × Res Unit :=
  if index ≥ v.length then (v, .error .IndexOutOfBounds)
  else (v.take index ++ x :: v.drop index, .ok ())

section
variable {α : Type} [Scalar α]

/-- `Option::or_else` on `partial_cmp` results and the final `unwrap_or(Ordering::Equal)`: the first
comparison that succeeds decides. `/repo/src/functions.rs` L113-118, L126-131 -/
def firstCmp : List (Option Ordering) → Ordering
  | [] => .eq
  | some o :: _ => o
  | none :: l => firstCmp l

/-- `/repo/src/functions.rs` L109-119 `sort_vec_2d_x` -/
def sortVec2DX (xs : List (Point2D α)) : List (Point2D α) :=
  stableSort (fun a b => firstCmp [partialCmp a.x b.x, partialCmp a.y b.y] != .gt) xs
/-- `/repo/src/functions.rs` L122-132 `sort_vec_2d_y` -/
def sortVec2DY (xs : List (Point2D α)) : List (Point2D α) :=
  stableSort (fun a b => firstCmp [partialCmp a.y b.y, partialCmp a.x b.x] != .gt) xs
/-- `/repo/src/functions.rs` L135-146 `sort_vec_3d_x` -/
def sortVec3DX (xs : List (Point3D α)) : List (Point3D α) :=
  stableSort (fun a b => firstCmp [partialCmp a.x b.x, partialCmp a.y b.y, partialCmp a.z b.z] != .gt) xs
/-- `/repo/src/functions.rs` L149-160 `sort_vec_3d_y` -/
def sortVec3DY (xs : List (Point3D α)) : List (Point3D α) :=
  stableSort (fun a b => firstCmp [partialCmp a.y b.y, partialCmp a.z b.z, partialCmp a.x b.x] != .gt) xs
/-- `/repo/src/functions.rs` L163-174 `sort_vec_3d_z` -/
def sortVec3DZ (xs : List (Point3D α)) : List (Point3D α) :=
  stableSort (fun a b => firstCmp [partialCmp a.z b.z, partialCmp a.x b.x, partialCmp a.y b.y] != .gt) xs

/-- `/repo/src/is_editable_2d.rs` L44-52 -/
def Point2D.increaseDistanceToBy (p other : Point2D α) (factor : Positive α) : Point2D α :=
  ⟨other.x + factor.val * (p.x - other.x), other.y + factor.val * (p.y - other.y)⟩
/-- `/repo/src/is_editable_3d.rs` L64-73 -/
def Point3D.increaseDistanceToBy (p other : Point3D α) (factor : Positive α) : Point3D α :=
  ⟨other.x + factor.val * (p.x - other.x), other.y + factor.val * (p.y - other.y),
   other.z + factor.val * (p.z - other.z)⟩

namespace PointCloud2D

/-- `/repo/src/point_cloud_2d.rs` L282-294, L301-307 `sort_dim`, `sort_x`, `sort_y` -/
def sortDim (pc : PointCloud (Point2D α)) (dimension : Nat) : PointCloud (Point2D α) × Res Unit :=
  match dimension with
  | 0 => (⟨sortVec2DX pc.data⟩, .ok ())
  | 1 => (⟨sortVec2DY pc.data⟩, .ok ())
  | _ => (pc, .error .IncorrectDimension)
/-- `/repo/src/point_cloud_2d.rs` L196-200 -/
def moveBy (pc : PointCloud (Point2D α)) (x y : α) : PointCloud (Point2D α) :=
  ⟨pc.data.map (fun p => p.moveBy x y)⟩
/-- `/repo/src/point_cloud_2d.rs` L207-209 -/
def boundingBoxMaybe (pc : PointCloud (Point2D α)) : Option (BoundingBox2D α) :=
  (BoundingBox2D.fromIterator pc.data).toOption
/-- `/repo/src/point_cloud_2d.rs` L216-237 -/
def centerOfGravity (pc : PointCloud (Point2D α)) : Option (Point2D α) :=
  if pc.len < 1 then none
  else
    let sizef : α := lit pc.len
    let sum := pc.data.foldl (fun (s : α × α) p => (s.1 + p.x, s.2 + p.y)) (zero, zero)
    some ⟨sum.1 / sizef, sum.2 / sizef⟩
/-- loop of `/repo/src/point_cloud_2d.rs` L250-252 -/
def lengthLoop : α → List (Point2D α) → α
  | acc, a :: b :: l => lengthLoop (acc + b.dist a) (b :: l)
  | acc, _ => acc
/-- `/repo/src/point_cloud_2d.rs` L244-254 -/
def length (pc : PointCloud (Point2D α)) : α :=
  if pc.len < 2 then zero else lengthLoop zero pc.data
/-- `/repo/src/point_cloud_2d.rs` L331-338 -/
def scale (pc : PointCloud (Point2D α)) (factor : Positive α) : PointCloud (Point2D α) :=
  match boundingBoxMaybe pc with
  | some bb => ⟨pc.data.map (fun p => p.increaseDistanceToBy bb.centerBB factor)⟩
  | none => pc
/-- `/repo/src/point_cloud_2d.rs` L345-355 -/
def transform (pc : PointCloud (Point2D α)) (m : Matrix3 α) : PointCloud (Point2D α) :=
  ⟨pc.data.map (fun p => p.transformed m)⟩

end PointCloud2D

namespace PointCloud3D

/-- `/repo/src/point_cloud_3d.rs` L284-300, L307-317 `sort_dim`, `sort_x`, `sort_y`, `sort_z` -/
def sortDim (pc : PointCloud (Point3D α)) (dimension : Nat) : PointCloud (Point3D α) × Res Unit :=
  match dimension with
  | 0 => (⟨sortVec3DX pc.data⟩, .ok ())
  | 1 => (⟨sortVec3DY pc.data⟩, .ok ())
  | 2 => (⟨sortVec3DZ pc.data⟩, .ok ())
  | _ => (pc, .error .IncorrectDimension)
/-- `/repo/src/point_cloud_3d.rs` L196-200 -/
def moveBy (pc : PointCloud (Point3D α)) (x y z : α) : PointCloud (Point3D α) :=
  ⟨pc.data.map (fun p => p.moveBy x y z)⟩
/-- `/repo/src/point_cloud_3d.rs` L207-209 -/
def boundingBoxMaybe (pc : PointCloud (Point3D α)) : Option (BoundingBox3D α) :=
  (BoundingBox3D.fromIterator pc.data).toOption
/-- `/repo/src/point_cloud_3d.rs` L216-240 -/
def centerOfGravity (pc : PointCloud (Point3D α)) : Option (Point3D α) :=
  if pc.len < 1 then none
  else
    let sizef : α := lit pc.len
    let sum := pc.data.foldl (fun (s : α × α × α) p => (s.1 + p.x, s.2.1 + p.y, s.2.2 + p.z))
      (zero, zero, zero)
    some ⟨sum.1 / sizef, sum.2.1 / sizef, sum.2.2 / sizef⟩
/-- loop of `/repo/src/point_cloud_3d.rs` L253-255 -/
def lengthLoop : α → List (Point3D α) → α
  | acc, a :: b :: l => lengthLoop (acc + b.dist a) (b :: l)
  | acc, _ => acc
/-- `/repo/src/point_cloud_3d.rs` L247-257 -/
def length (pc : PointCloud (Point3D α)) : α :=
  if pc.len < 2 then zero else lengthLoop zero pc.data
/-- `/repo/src/point_cloud_3d.rs` L341-348 -/
def scale (pc : PointCloud (Point3D α)) (factor : Positive α) : PointCloud (Point3D α) :=
  match boundingBoxMaybe pc with
  | some bb => ⟨pc.data.map (fun p => p.increaseDistanceToBy bb.centerBB factor)⟩
  | none => pc
/-- `/repo/src/point_cloud_3d.rs` L355-365 -/
def transform (pc : PointCloud (Point3D α)) (m : Matrix4 α) : PointCloud (Point3D α) :=
  ⟨pc.data.map (fun p => p.transformed m)⟩

/-- `/repo/src/functions.rs` L212-220 `center`, for `T = PointCloud3D` -/
def center (pc : PointCloud (Point3D α)) : PointCloud (Point3D α) :=
  match boundingBoxMaybe pc with
  | some bb => let c := bb.centerBB; moveBy pc (-c.x) (-c.y) (-c.z)
  | none => pc
/-- `/repo/src/functions.rs` L223-235 `set_size`, for `T = PointCloud3D` (the size accessors may panic) -/
def setSize (pc : PointCloud (Point3D α)) (sx sy sz : Positive α) : Panics (PointCloud (Point3D α)) :=
  match boundingBoxMaybe pc with
  | some bb => do
    let bx ← bb.sizeX
    let by_ ← bb.sizeY
    let bz ← bb.sizeZ
    some (transform pc (Matrix4.scale (sx.val / bx.val) (sy.val / by_.val) (sz.val / bz.val)))
  | none => some pc

end PointCloud3D

/-- `/repo/src/functions.rs` L178-194 `extrude`; `transform_to_3d(z)` of `Point2D`
(`/repo/src/point_2d.rs` L312-317) keeps x and y and sets z. -/
def extrude (pc2d : List (Point2D α)) (dir : Point3D α) :
    PointCloud (Point3D α) × PointCloud (Point3D α) :=
  let pcs := pc2d.foldl (fun (s : PointCloud (Point3D α) × PointCloud (Point3D α)) p =>
    let t : Point3D α := ⟨p.x, p.y, zero⟩
    (s.1.push t, s.2.push t)) (.new, .new)
  (pcs.1, PointCloud3D.moveBy pcs.2 dir.x dir.y dir.z)

end

/-- `/repo/src/polygon_2d.rs` L33-38, `/repo/src/polygon_3d.rs` L33-38 -/
structure Polygon (P : Type) where
  pc : PointCloud P

namespace Polygon
variable {P : Type}

/-- `/repo/src/polygon_2d.rs` L44-46, same lines in 3D -/
def numSegments (p : Polygon P) : Nat := p.pc.len
/-- `/repo/src/is_polygon.rs` L41-43 -/
def numVertices (p : Polygon P) : Nat := p.numSegments
/-- `/repo/src/polygon_2d.rs` L48-56, same lines in 3D -/
def segmentVertexIds (p : Polygon P) (s : Nat) : Option (Nat × Nat) :=
  if s ≥ p.pc.len then none
  else if s == p.pc.len - 1 then some (s, 0)
  else some (s, s + 1)
/-- `/repo/src/polygon_2d.rs` L58-61, same lines in 3D (indexing panics out of range) -/
def segmentVertices (p : Polygon P) (s : Nat) : Panics (Option (P × P)) :=
  match p.segmentVertexIds s with
  | none => some none
  | some (a, b) => do
    let pa ← p.pc.index a
    let pb ← p.pc.index b
    some (some (pa, pb))
/-- `/repo/src/polygon_2d.rs` L63-65, same lines in 3D -/
def vertex (p : Polygon P) (v : Nat) : Option P := p.pc.get v
/-- `/repo/src/polygon_2d.rs` L72-75, same lines in 3D -/
def addVertex (p : Polygon P) (v : P) : Polygon P × Nat :=
  let pc := p.pc.push v
  (⟨pc⟩, pc.len - 1)
/-- `/repo/src/polygon_2d.rs` L77-84, same lines in 3D -/
def changeVertex (p : Polygon P) (i : Nat) (v : P) : Panics (Polygon P × Res Unit) :=
  if i ≥ p.pc.len then some (p, .error .IncorrectVertexID)
  else do
    let pc ← p.pc.set i v
    some (⟨pc⟩, .ok ())

variable {α : Type} [Scalar α]

/-- `/repo/src/polygon_2d.rs` L118-126 -/
def length2D (p : Polygon (Point2D α)) : Panics α :=
  let length := PointCloud2D.length p.pc
  if p.pc.len > 0 then do
    let l ← p.pc.index (p.pc.len - 1)
    let f ← p.pc.index 0
    some (length + l.dist f)
  else some length
/-- `/repo/src/polygon_3d.rs` L118-126 -/
def length3D (p : Polygon (Point3D α)) : Panics α :=
  let length := PointCloud3D.length p.pc
  if p.pc.len > 0 then do
    let l ← p.pc.index (p.pc.len - 1)
    let f ← p.pc.index 0
    some (length + l.dist f)
  else some length

end Polygon

/-- `/repo/src/line_segment_2d.rs` L33-36 -/
structure LineSegment2D (α : Type) where
  start : Point2D α
  end_ : Point2D α

/-- `/repo/src/line_segment_3d.rs` L33-36 -/
structure LineSegment3D (α : Type) where
  start : Point3D α
  end_ : Point3D α

section
variable {α : Type} [Scalar α]

/-- `/repo/src/functions.rs` L35-43 `center_2d` -/
def center2D (p1 p2 : Point2D α) : Point2D α :=
  ⟨p1.x + (p2.x - p1.x) / lit 2, p1.y + (p2.y - p1.y) / lit 2⟩
/-- `/repo/src/functions.rs` L46-56 `center_3d` -/
def center3D (p1 p2 : Point3D α) : Point3D α :=
  ⟨p1.x + (p2.x - p1.x) / lit 2, p1.y + (p2.y - p1.y) / lit 2, p1.z + (p2.z - p1.z) / lit 2⟩

namespace LineSegment2D
/-- `/repo/src/line_segment_2d.rs` L46-49 -/
def moveBy (s : LineSegment2D α) (x y : α) : LineSegment2D α := ⟨s.start.moveBy x y, s.end_.moveBy x y⟩
/-- `/repo/src/line_segment_2d.rs` L53-55 -/
def length (s : LineSegment2D α) : α := s.start.dist s.end_
/-- `/repo/src/line_segment_2d.rs` L59-61 -/
def boundingBoxMaybe (s : LineSegment2D α) : Option (BoundingBox2D α) :=
  (BoundingBox2D.fromIterator [s.start, s.end_]).toOption
/-- `/repo/src/line_segment_2d.rs` L65-67 -/
def centerOfGravity (s : LineSegment2D α) : Option (Point2D α) := some (center2D s.start s.end_)
/-- `/repo/src/line_segment_2d.rs` L71-76 -/
def scale (s : LineSegment2D α) (factor : Positive α) : LineSegment2D α :=
  match s.boundingBoxMaybe.map (fun b => b.centerBB) with
  | some c => ⟨s.start.increaseDistanceToBy c factor, s.end_.increaseDistanceToBy c factor⟩
  | none => s
/-- `/repo/src/line_segment_2d.rs` L80-89 -/
def transform (s : LineSegment2D α) (m : Matrix3 α) : LineSegment2D α :=
  ⟨s.start.transformed m, s.end_.transformed m⟩
end LineSegment2D

namespace LineSegment3D
/-- `/repo/src/line_segment_3d.rs` L46-49 -/
def moveBy (s : LineSegment3D α) (x y z : α) : LineSegment3D α := ⟨s.start.moveBy x y z, s.end_.moveBy x y z⟩
/-- `/repo/src/line_segment_3d.rs` L53-55 -/
def length (s : LineSegment3D α) : α := s.start.dist s.end_
/-- `/repo/src/line_segment_3d.rs` L59-61 -/
def boundingBoxMaybe (s : LineSegment3D α) : Option (BoundingBox3D α) :=
  (BoundingBox3D.fromIterator [s.start, s.end_]).toOption
/-- `/repo/src/line_segment_3d.rs` L65-67 -/
def centerOfGravity (s : LineSegment3D α) : Option (Point3D α) := some (center3D s.start s.end_)
/-- `/repo/src/line_segment_3d.rs` L71-76 -/
def scale (s : LineSegment3D α) (factor : Positive α) : LineSegment3D α :=
  match s.boundingBoxMaybe.map (fun b => b.centerBB) with
  | some c => ⟨s.start.increaseDistanceToBy c factor, s.end_.increaseDistanceToBy c factor⟩
  | none => s
/-- `/repo/src/line_segment_3d.rs` L80-89 -/
def transform (s : LineSegment3D α) (m : Matrix4 α) : LineSegment3D α :=
  ⟨s.start.transformed m, s.end_.transformed m⟩
end LineSegment3D

end
end R3D

import Verif.Model.Mesh
import Verif.Model.AABBTree
import Verif.Model.Shapes
import Verif.Model.Matrix
/-
Ray intersections, the separating axis test, colliders and the bounding boxes of shapes.
A `Norm3D` is represented by its coordinates (`/repo/src/norm_3d.rs` L36-40), a `Line3D` / `Ray3D` by its
anchor and direction (`/repo/src/line_3d.rs` L33-36, `/repo/src/ray_3d.rs` L32-34). `for_each_point` and
`for_each_axis` are the lists of their arguments in call order.
-/
namespace R3D
open Scalar
variable {α : Type} [Scalar α]

/-- `/repo/src/norm_3d.rs` L143-161 `Norm3D::new`; the outer `Option` is the panic of `abs` -/
def Norm3D.new (p : Point3D α) : Panics (Res (Point3D α)) := do
  let l ← p.abs
  return if l.val ==. zero then .error .NormalizeVecWithoutLength
    else
      let f := lit 1 / l.val
      .ok ⟨f * p.x, f * p.y, f * p.z⟩

/-- `/repo/src/norm_2d.rs` L131-149 `Norm2D::new`; the outer `Option` is the panic of `abs` -/
def Norm2D.new (p : Point2D α) : Panics (Res (Point2D α)) := do
  let l ← p.abs
  return if l.val ==. zero then .error .NormalizeVecWithoutLength
    else
      let f := lit 1 / l.val
      .ok ⟨f * p.x, f * p.y⟩

/-- `Self::new(..).unwrap()` with the axis as argument, `/repo/src/is_normalized_3d.rs` L36-59 -/
def Norm3D.ofAxis (p : Point3D α) : Panics (Point3D α) := do
  match ← Norm3D.new p with
  | .ok n => some n
  | .error _ => none

/-- `/repo/src/is_normalized_2d.rs` L36-51 -/
def Norm2D.ofAxis (p : Point2D α) : Panics (Point2D α) := do
  match ← Norm2D.new p with
  | .ok n => some n
  | .error _ => none

/-- `/repo/src/is_normalized_3d.rs` L37-39, i.e. `new(1, 0, 0)`, evaluated in `Props/RayTriangle.lean` -/
def Norm3D.normX : Point3D α := ⟨lit 1, lit 0, lit 0⟩
/-- `/repo/src/is_normalized_3d.rs` L41-47, see `normX` -/
def Norm3D.normY : Point3D α := ⟨lit 0, lit 1, lit 0⟩
/-- `/repo/src/is_normalized_3d.rs` L41-47, see `normX` -/
def Norm3D.normZ : Point3D α := ⟨lit 0, lit 0, lit 1⟩

/-- the idiom `Norm3D::new(p).unwrap_or(Norm3D::norm_z())`, `/repo/src/functions.rs` L401,
`/repo/src/tri_face_3d.rs` L79-82, `/repo/src/box_unaligned_3d.rs` L83 -/
def Norm3D.newOrZ (p : Point3D α) : Panics (Point3D α) := do
  match ← Norm3D.new p with
  | .ok n => return n
  | .error _ => return Norm3D.normZ

/-- `/repo/src/functions.rs` L200-209 -/
def conn (p q : Point3D α) : Point3D α := ⟨q.x - p.x, q.y - p.y, q.z - p.z⟩

/-- `/repo/src/functions.rs` L395-402 -/
def normalOfFace (v1 v2 v3 : Point3D α) : Panics (Point3D α) :=
  Norm3D.newOrZ ((conn v1 v2).cross (conn v2 v3))

/-- `/repo/src/functions.rs` L256-299; `anchor` and `dir` are those of the line of the ray -/
def intersectionRayTriangle (anchor dir v1 v2 v3 : Point3D α) : Panics (Option (Point3D α)) := do
  let n ← normalOfFace v1 v2 v3
  let w1 := anchor.sub v1
  let a := -(n.dot w1)
  let b := n.dot dir
  return if b ==. zero then none
    else
      let r := a / b
      if r <=. zero then none
      else
        let p := anchor.add (dir.smul r)
        if n.dot ((v2.sub v1).cross (p.sub v1)) <=. zero then none
        else if n.dot ((v3.sub v2).cross (p.sub v2)) <=. zero then none
        else if n.dot ((v1.sub v3).cross (p.sub v3)) <=. zero then none
        else some p

/-- the loop of `/repo/src/functions.rs` L245-251 over the face ids still to come -/
def collectRayMeshLoop (anchor dir : Point3D α) (mesh : TMesh (Point3D α)) :
    List Nat → List (Point3D α) → Panics (List (Point3D α))
  | [], acc => some acc
  | i :: rest, acc => do
    let (v1, v2, v3) ← mesh.faceVertices i
    match ← intersectionRayTriangle anchor dir v1 v2 v3 with
    | some p => collectRayMeshLoop anchor dir mesh rest (acc ++ [p])
    | none => collectRayMeshLoop anchor dir mesh rest acc

/-- `/repo/src/functions.rs` L238-252: the content of `intersections` afterwards -/
def collectIntersectionsRayMesh (anchor dir : Point3D α) (mesh : TMesh (Point3D α))
    (intersections : List (Point3D α)) : Panics (List (Point3D α)) :=
  collectRayMeshLoop anchor dir mesh (List.range mesh.numFaces) intersections

section Closest
variable {HB : Type} (bb : HB → Option (BoundingBox3D α))

/-- `/repo/src/functions.rs` L302-317: the arguments `f` is called with, in order -/
def forEachIntersecting (anchor dir : Point3D α) (hbs : List HB) : List (Point3D α × HB) :=
  hbs.filterMap (fun hb => do
    let b ← bb hb
    let i ← AABBTree3D.lineIntersection anchor dir b
    return (i, hb))

/-- one round of the loops `/repo/src/functions.rs` L327-339, L352-364 -/
def closestStep (anchor dir : Point3D α) (result : Option (Point3D α × HB)) (hb : HB) :
    Option (Point3D α × HB) :=
  match bb hb with
  | none => result
  | some b =>
    match AABBTree3D.lineIntersection anchor dir b with
    | none => result
    | some i =>
      match result with
      | some r => if anchor.sqrDist i <. anchor.sqrDist r.1 then some (i, hb) else result
      | none => some (i, hb)

/-- `/repo/src/functions.rs` L345-367 `closest_intersecting`, L320-342 `closest_intersecting_mut` -/
def closestIntersecting (anchor dir : Point3D α) (hbs : List HB) : Option (Point3D α × HB) :=
  hbs.foldl (closestStep bb anchor dir) none

/-- one round of the loop `/repo/src/functions.rs` L377-389, with the index of the element -/
def indexClosestStep (anchor dir : Point3D α) (s : Nat × Option (Point3D α × Nat)) (hb : HB) :
    Nat × Option (Point3D α × Nat) :=
  (s.1 + 1,
   match bb hb with
   | none => s.2
   | some b =>
     match AABBTree3D.lineIntersection anchor dir b with
     | none => s.2
     | some inter =>
       match s.2 with
       | some r => if anchor.sqrDist inter <. anchor.sqrDist r.1 then some (inter, s.1) else s.2
       | none => some (inter, s.1))

/-- `/repo/src/functions.rs` L370-392 -/
def indexClosestIntersecting (anchor dir : Point3D α) (hbs : List HB) : Option (Point3D α × Nat) :=
  (hbs.foldl (indexClosestStep bb anchor dir) (0, none)).2
end Closest

/-! ### separating axis test -/

/-- one projection in `/repo/src/sat_collider.rs` L45-63 / L64-82 -/
def Sat.step (axis : Point3D α) (s : Option α × Option α) (p : Point3D α) : Option α × Option α :=
  let x := p.dot axis
  (match s.1 with
    | none => some x
    | some min => if x <. min then some x else some min,
   match s.2 with
    | none => some x
    | some max => if x >. max then some x else some max)

/-- the projections of one object, `/repo/src/sat_collider.rs` L45-82 -/
def Sat.range (axis : Point3D α) (pts : List (Point3D α)) : Option α × Option α :=
  pts.foldl (Sat.step axis) (none, none)

/-- the closure `f`, `/repo/src/sat_collider.rs` L42-93: the new value of `all_overlap` -/
def Sat.onAxis (ptsA ptsB : List (Point3D α)) (allOverlap : Bool) (axis : Point3D α) : Bool :=
  if allOverlap then
    match Sat.range axis ptsA, Sat.range axis ptsB with
    | (some mina, some maxa), (some minb, some maxb) =>
      let notOverlap := maxa <. minb || maxb <. mina
      if notOverlap then false else allOverlap
    | _, _ => allOverlap
  else allOverlap

/-- `/repo/src/sat_collider.rs` L35-98 `SATCollider::collide` -/
def Sat.collide (ptsA axesA ptsB axesB : List (Point3D α)) : Bool :=
  axesB.foldl (Sat.onAxis ptsA ptsB) (axesA.foldl (Sat.onAxis ptsA ptsB) true)

namespace BoundingBox3D
/-- `/repo/src/bounding_box_3d.rs` L485-500 -/
def satPoints (b : BoundingBox3D α) : List (Point3D α) :=
  [⟨b.min.x, b.min.y, b.min.z⟩, ⟨b.min.x, b.min.y, b.max.z⟩, ⟨b.min.x, b.max.y, b.min.z⟩,
   ⟨b.min.x, b.max.y, b.max.z⟩, ⟨b.max.x, b.min.y, b.min.z⟩, ⟨b.max.x, b.min.y, b.max.z⟩,
   ⟨b.max.x, b.max.y, b.min.z⟩, ⟨b.max.x, b.max.y, b.max.z⟩]
/-- `/repo/src/bounding_box_3d.rs` L502-509 -/
def satAxes (_ : BoundingBox3D α) : List (Point3D α) := [Norm3D.normX, Norm3D.normY, Norm3D.normZ]
end BoundingBox3D

/-- `/repo/src/box_unaligned_3d.rs` L31-37 -/
structure BoxUnaligned3D (α : Type) where
  center : Point3D α
  yDir : Point3D α
  zDir : Point3D α
  sizeX : Positive α
  sizeY : Positive α
  sizeZ : Positive α
deriving DecidableEq, Repr

/-- `/repo/src/box_unaligned_3d.rs` L164-172 -/
def rot2d [Trig α] (p : Point3D α) (phi : α) : Point3D α :=
  let s := Trig.sin (-phi)
  let c := Trig.cos (-phi)
  ⟨p.x * c - p.y * s, p.x * s + p.y * c, p.z⟩

namespace BoxUnaligned3D
/-- `/repo/src/box_unaligned_3d.rs` L42-54 -/
def newFromBB (bb : BoundingBox3D α) : Panics (BoxUnaligned3D α) := do
  return ⟨bb.centerBB, Norm3D.normY, Norm3D.normZ, ← bb.sizeX, ← bb.sizeY, ← bb.sizeZ⟩
/-- `/repo/src/box_unaligned_3d.rs` L55-69; the `unwrap` of `Norm3D::new` is a panic -/
def newFromZRotation [Trig α] (center : Point3D α) (sx sy sz : Positive α) (rotation : α) :
    Panics (BoxUnaligned3D α) := do
  let yDir ← (← Norm3D.new (rot2d ⟨lit 0, lit 1, lit 0⟩ rotation)).toOption
  return ⟨center, yDir, Norm3D.normZ, sx, sy, sz⟩
/-- `/repo/src/box_unaligned_3d.rs` L82-84 -/
def xDir (b : BoxUnaligned3D α) : Panics (Point3D α) := Norm3D.newOrZ (b.zDir.cross b.yDir)
/-- `/repo/src/box_unaligned_3d.rs` L70-73 -/
def dX (b : BoxUnaligned3D α) : Panics (Point3D α) := do return (← b.xDir).smul b.sizeX.val
/-- `/repo/src/box_unaligned_3d.rs` L74-77 -/
def dY (b : BoxUnaligned3D α) : Point3D α := b.yDir.smul b.sizeY.val
/-- `/repo/src/box_unaligned_3d.rs` L78-81 -/
def dZ (b : BoxUnaligned3D α) : Point3D α := b.zDir.smul b.sizeZ.val
/-- `/repo/src/box_unaligned_3d.rs` L89-93 -/
def moveBy (b : BoxUnaligned3D α) (x y z : α) : BoxUnaligned3D α := { b with center := b.center.moveBy x y z }
/-- `/repo/src/box_unaligned_3d.rs` L99-116 -/
def satPoints (b : BoxUnaligned3D α) : Panics (List (Point3D α)) := do
  let c := b.center
  let dx ← b.dX
  let dy := b.dY
  let dz := b.dZ
  return [(c.sub dx).sub (dy.sub dz), (c.sub dx).sub (dy.add dz), (c.sub dx).add (dy.sub dz),
    (c.sub dx).add (dy.add dz), (c.add dx).sub (dy.sub dz), (c.add dx).sub (dy.add dz),
    (c.add dx).add (dy.sub dz), (c.add dx).add (dy.add dz)]
/-- `/repo/src/box_unaligned_3d.rs` L118-125 -/
def satAxes (b : BoxUnaligned3D α) : Panics (List (Point3D α)) := do
  return [← b.xDir, b.yDir, b.zDir]
/-- `/repo/src/box_unaligned_3d.rs` L130-154 -/
def boundingBox (b : BoxUnaligned3D α) : Panics (BoundingBox3D α) :=
  let m := b.sizeX.val
  let m := if b.sizeY.val >. m then b.sizeY.val else m
  let m := if b.sizeZ.val >. m then b.sizeZ.val else m
  (BoundingBox3D.new
    ⟨b.center.x - lit (1/2) * m, b.center.y - lit (1/2) * m, b.center.z - lit (1/2) * m⟩
    ⟨b.center.x + lit (1/2) * m, b.center.y + lit (1/2) * m, b.center.z + lit (1/2) * m⟩).toOption
end BoxUnaligned3D

/-- `/repo/src/tri_face_3d.rs` L30-34 -/
structure TriFace3D (α : Type) where
  a : Point3D α
  b : Point3D α
  c : Point3D α
deriving DecidableEq, Repr

namespace TriFace3D
/-- `/repo/src/tri_face_3d.rs` L39-44 -/
def new (a b c : Point3D α) : Res (TriFace3D α) :=
  match BoundingBox3D.fromIterator [a, b, c] with
  | .error _ => .error .TriFace3DNotSpanningVolume
  | .ok _ => .ok ⟨a, b, c⟩
/-- `/repo/src/tri_face_3d.rs` L62-69 -/
def satPoints (t : TriFace3D α) : List (Point3D α) := [t.a, t.b, t.c]
/-- `/repo/src/tri_face_3d.rs` L71-88 -/
def satAxes (t : TriFace3D α) : Panics (List (Point3D α)) := do
  let vab := conn t.a t.b
  let vbc := conn t.b t.c
  let vca := conn t.c t.a
  let n ← Norm3D.newOrZ (vab.cross vbc)
  let e1 ← Norm3D.newOrZ (n.cross vab)
  let e2 ← Norm3D.newOrZ (n.cross vbc)
  let e3 ← Norm3D.newOrZ (n.cross vca)
  return [n, e1, e2, e3]
/-- `/repo/src/tri_face_3d.rs` L93-98 -/
def boundingBox (t : TriFace3D α) : Panics (BoundingBox3D α) :=
  (BoundingBox3D.fromIterator [t.a, t.b, t.c]).toOption
end TriFace3D

/-- `/repo/src/collider_3d.rs` L30-35 -/
inductive Collider3D (α : Type) where
  | aabb (b : BoundingBox3D α)
  | box3 (b : BoxUnaligned3D α)
  | face (f : TriFace3D α)
deriving DecidableEq, Repr

namespace Collider3D
/-- points and axes of a collider, `/repo/src/is_sat_object.rs` L30-38 -/
def satObject : Collider3D α → Panics (List (Point3D α) × List (Point3D α))
  | .aabb b => some (b.satPoints, b.satAxes)
  | .box3 b => do return (← b.satPoints, ← b.satAxes)
  | .face f => do return (f.satPoints, ← f.satAxes)

/-- `SATCollider::collide(a, b)` on two colliders; `/repo/src/sat_collider.rs` L35-98 -/
def sat (a b : Collider3D α) : Panics Bool := do
  let (pa, xa) ← a.satObject
  let (pb, xb) ← b.satObject
  return Sat.collide pa xa pb xb

/-- `/repo/src/collider_3d.rs` L40-57 -/
def collidesWith (self other : Collider3D α) : Panics Bool :=
  match self, other with
  | .aabb a, .aabb b => a.collidesWith b
  | .aabb _, .box3 _ => sat self other
  | .box3 _, .aabb _ => sat other self
  | .aabb _, .face _ => sat self other
  | .face _, .aabb _ => sat other self
  | .box3 _, .box3 _ => sat self other
  | .box3 _, .face _ => sat self other
  | .face _, .box3 _ => sat other self
  | .face _, .face _ => sat self other

/-- `/repo/src/collider_3d.rs` L62-70 -/
def boundingBox : Collider3D α → Panics (BoundingBox3D α)
  | .aabb x => some x
  | .box3 x => x.boundingBox
  | .face x => x.boundingBox

/-- `/repo/src/collider_3d.rs` L81-88 -/
def hasAdditionalColliders : Collider3D α → Bool
  | .aabb _ => false
  | .box3 _ => true
  | .face _ => true
end Collider3D

/-- a `HasColliders3D` object (`/repo/src/has_colliders_3d.rs` L30-34): its bounding box, whether it has
additional colliders, and the colliders `with_colliders` enumerates -/
structure HasColliders (α : Type) where
  boundingBox : Panics (BoundingBox3D α)
  hasAdditional : Bool
  colliders : List (Collider3D α)

/-- `/repo/src/collider_3d.rs` L81-91: a collider as `HasColliders3D` -/
def Collider3D.asHasColliders (c : Collider3D α) : HasColliders α :=
  ⟨c.boundingBox, c.hasAdditionalColliders, [c]⟩

namespace HasColliders
/-- `/repo/src/has_colliders_3d.rs` L36-49 -/
def collidesWithCollider (s : HasColliders α) (other : Collider3D α) : Panics Bool :=
  if s.hasAdditional then
    s.colliders.foldlM (fun result c => if !result then c.collidesWith other else some result) false
  else do
    (Collider3D.aabb (← s.boundingBox)).collidesWith other
/-- `/repo/src/has_colliders_3d.rs` L51-64 -/
def collidesWith (s other : HasColliders α) : Panics Bool :=
  if other.hasAdditional then
    other.colliders.foldlM (fun result c => if !result then s.collidesWithCollider c else some result) false
  else do
    s.collidesWithCollider (.aabb (← other.boundingBox))
end HasColliders

/-- `/repo/src/sphere.rs` L139-153 -/
def Sphere.boundingBox (s : Sphere α) : Panics (BoundingBox3D α) :=
  (BoundingBox3D.new
    ⟨s.center.x - s.radius.val, s.center.y - s.radius.val, s.center.z - s.radius.val⟩
    ⟨s.center.x + s.radius.val, s.center.y + s.radius.val, s.center.z + s.radius.val⟩).toOption
/-- `/repo/src/circle.rs` L129-141 -/
def Circle.boundingBox (c : Circle α) : Panics (BoundingBox2D α) :=
  (BoundingBox2D.new
    ⟨c.center.x - c.radius.val, c.center.y - c.radius.val⟩
    ⟨c.center.x + c.radius.val, c.center.y + c.radius.val⟩).toOption
/-- `/repo/src/box_2d.rs` L158-170 -/
def Box2D.boundingBox (b : Box2D α) : Panics (BoundingBox2D α) :=
  (BoundingBox2D.new
    ⟨b.center.x - b.sizeX.val / lit 2, b.center.y - b.sizeY.val / lit 2⟩
    ⟨b.center.x + b.sizeX.val / lit 2, b.center.y + b.sizeY.val / lit 2⟩).toOption
/-- `/repo/src/box_3d.rs` L176-190 -/
def Box3D.boundingBox (b : Box3D α) : Panics (BoundingBox3D α) :=
  (BoundingBox3D.new
    ⟨b.center.x - b.sizeX.val / lit 2, b.center.y - b.sizeY.val / lit 2, b.center.z - b.sizeZ.val / lit 2⟩
    ⟨b.center.x + b.sizeX.val / lit 2, b.center.y + b.sizeY.val / lit 2, b.center.z + b.sizeZ.val / lit 2⟩).toOption

/-- `/repo/src/sphere.rs` L161-165 -/
def Sphere.scale (s : Sphere α) (f : Positive α) : Sphere α := { s with radius := s.radius.mul f }
/-- `/repo/src/circle.rs` L149-153 -/
def Circle.scale (s : Circle α) (f : Positive α) : Circle α := { s with radius := s.radius.mul f }
/-- `/repo/src/box_2d.rs` L178-183 -/
def Box2D.scale (b : Box2D α) (f : Positive α) : Box2D α :=
  { b with sizeX := b.sizeX.mul f, sizeY := b.sizeY.mul f }
/-- `/repo/src/box_3d.rs` L198-204 -/
def Box3D.scale (b : Box3D α) (f : Positive α) : Box3D α :=
  { b with sizeX := b.sizeX.mul f, sizeY := b.sizeY.mul f, sizeZ := b.sizeZ.mul f }
/-- `/repo/src/box_2d.rs` L185-189 -/
def Box2D.moveBy (b : Box2D α) (x y : α) : Box2D α := { b with center := b.center.moveBy x y }
/-- `/repo/src/box_3d.rs` L206-210 -/
def Box3D.moveBy (b : Box3D α) (x y z : α) : Box3D α := { b with center := b.center.moveBy x y z }

/-- `/repo/src/functions.rs` L405-421; the plane is `origin`, `u`, `v` -/
def projectPointOnPlane (origin u v point : Point3D α) : Point2D α :=
  let relative := conn origin point
  ⟨u.dot relative, v.dot relative⟩

end R3D

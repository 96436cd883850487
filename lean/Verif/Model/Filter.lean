import Verif.Model.Shapes
import Verif.Model.KdTree
/-
Filters, views and `apply_view`.

Simplifications: a filter (`dyn IsFilter<T>`) is the function `is_allowed`; `HashSet<usize>` is a list of
indices (the iteration order of the hash set is the order of the list, which every theorem leaves open);
a random accessible collection is a list, indexing it out of range is a panic.
-/
namespace R3D
open Scalar

/-- `/repo/src/is_filter.rs` L26-29 -/
abbrev Filter (T : Type) := T → Bool

namespace Filter
variable {T : Type}

/-- `/repo/src/filter_allow.rs` L40-42 -/
def allow : Filter T := fun _ => true
/-- `/repo/src/filter_deny.rs` L40-42 -/
def deny : Filter T := fun _ => false
/-- `/repo/src/filter_negate.rs` L56-58 -/
def negate (f : Filter T) : Filter T := fun x => !f x
/-- `/repo/src/filter_and.rs` L61-63 -/
def and (f g : Filter T) : Filter T := fun x => f x && g x
/-- `/repo/src/filter_or.rs` L61-63 -/
def or (f g : Filter T) : Filter T := fun x => f x || g x
/-- `/repo/src/filter_xor.rs` L61-63 -/
def xor (f g : Filter T) : Filter T := fun x => Bool.xor (f x) (g x)
/-- `/repo/src/filter_outer_inner.rs` L44-58 -/
def outerInner (outer inner : Filter T) : Filter T := and outer (negate inner)
/-- `/repo/src/filter_all.rs` L47-54, the loop over `self.filters` -/
def all : List (Filter T) → Filter T
  | [], _ => true
  | f :: fs, x => if !f x then false else all fs x
/-- `/repo/src/filter_any.rs` L47-54 -/
def any : List (Filter T) → Filter T
  | [], _ => false
  | f :: fs, x => if f x then true else any fs x

end Filter

/-- `/repo/src/view.rs` L31-34 -/
inductive View where
  | full
  | restricted (indices : List Nat)
deriving DecidableEq, Repr

/-- `HashSet::insert`; `/repo/src/filter_random_accessible.rs` L68 -/
def hsInsert (s : List Nat) (i : Nat) : List Nat := if s.contains i then s else s ++ [i]
/-- `HashSet::remove`; `/repo/src/filter_random_accessible.rs` L87 -/
def hsRemove (s : List Nat) (i : Nat) : List Nat := s.filter (· != i)

namespace View

/-- `/repo/src/view.rs` L38-48 -/
def union (v other : View) : View :=
  match other with
  | .full => .full
  | .restricted o =>
    match v with
    | .full => .full
    | .restricted s => .restricted (o.foldl hsInsert s)

/-- `/repo/src/impls/vec.rs` L80-98, `/repo/src/impls/vec_deque.rs` L81-99,
`/repo/src/impls/linked_list.rs` L35-53 (the same code), `/repo/src/point_cloud_3d.rs` L264-267,
`/repo/src/point_cloud_2d.rs` L261-264: the container afterwards and the result -/
def apply {T : Type} (v : View) (data : List T) : List T × Res Unit :=
  match v with
  | .full => (data, .ok ())
  | .restricted indices =>
    if indices.any fun x => decide (x ≥ data.length) then (data, .error .IndexOutOfBounds)
    else ((data.zipIdx.filter fun pi => indices.contains pi.2).map Prod.fst, .ok ())

/-- `/repo/src/impls/vec.rs` L100-104 -/
def fromView {T : Type} (v : View) (data : List T) : Option (List T) :=
  match v.apply data with
  | (r, .ok ()) => some r
  | (_, .error _) => none

end View

/-- `/repo/src/is_filter_random_accessible.rs` L30-36: the view afterwards -/
abbrev FilterRA (T : Type) := List T → View → Panics View

namespace FilterRA
variable {T : Type}

/-- loop of `/repo/src/filter_random_accessible.rs` L66-70 -/
def collectAllowed (f : Filter T) (ra : List T) : List Nat → List Nat → Panics (List Nat)
  | [], acc => some acc
  | i :: is, acc => do
    let x ← ra[i]?
    collectAllowed f ra is (if f x then hsInsert acc i else acc)

/-- loop of `/repo/src/filter_random_accessible.rs` L76-84 -/
def collectRemoved (f : Filter T) (ra : List T) (max : Nat) : List Nat → List Nat → Panics (List Nat)
  | [], acc => some acc
  | i :: is, acc =>
    if i > max then collectRemoved f ra max is (acc ++ [i])
    else do
      let x ← ra[i]?
      collectRemoved f ra max is (if !f x then acc ++ [i] else acc)

/-- `/repo/src/filter_random_accessible.rs` L57-91 -/
def ofFilter (f : Filter T) : FilterRA T := fun ra view =>
  if ra.length = 0 then some .full
  else match view with
    | .full => (collectAllowed f ra (List.range ra.length) []).map .restricted
    | .restricted indices =>
      (collectRemoved f ra (ra.length - 1) indices []).map fun toRemove =>
        .restricted (toRemove.foldl hsRemove indices)

/-- `/repo/src/filter_all_random_accessible.rs` L42-46 -/
def all : List (FilterRA T) → FilterRA T
  | [], _, view => some view
  | f :: fs, ra, view => do
    let view ← f ra view
    all fs ra view

/-- loop of `/repo/src/filter_any_random_accessible.rs` L44-48 -/
def anyLoop (ra : List T) (initial : View) : List (FilterRA T) → View → Panics View
  | [], view => some view
  | f :: fs, view => do
    let now ← f ra initial
    anyLoop ra initial fs (view.union now)

/-- `/repo/src/filter_any_random_accessible.rs` L42-49 -/
def any (fs : List (FilterRA T)) : FilterRA T := fun ra view => anyLoop ra view fs view

end FilterRA

section
variable {α : Type} [Scalar α]

/-- `/repo/src/filter_box_2d.rs` L130-135 -/
def filterBox2D (b : Box2D α) : Filter (Point2D α) := fun p =>
  p.x >=. b.x - b.sizeX.val / lit 2 && p.x <=. b.x + b.sizeX.val / lit 2 &&
  p.y >=. b.y - b.sizeY.val / lit 2 && p.y <=. b.y + b.sizeY.val / lit 2

/-- `/repo/src/filter_box_3d.rs` L140-147 -/
def filterBox3D (b : Box3D α) : Filter (Point3D α) := fun p =>
  p.x >=. b.x - b.sizeX.val / lit 2 && p.x <=. b.x + b.sizeX.val / lit 2 &&
  p.y >=. b.y - b.sizeY.val / lit 2 && p.y <=. b.y + b.sizeY.val / lit 2 &&
  p.z >=. b.z - b.sizeZ.val / lit 2 && p.z <=. b.z + b.sizeZ.val / lit 2

/-- `/repo/src/filter_circle.rs` L129-131 -/
def filterCircle (c : Circle α) : Filter (Point2D α) := fun p => p.dist c.center <=. c.radius.val

/-- `/repo/src/filter_sphere.rs` L138-140 -/
def filterSphere (s : Sphere α) : Filter (Point3D α) := fun p => p.dist s.center <=. s.radius.val

/-- `/repo/src/filter_sphere.rs` L53-56 -/
def filterSphereX (s : Sphere α) : α := s.x
/-- `/repo/src/filter_sphere.rs` L58-61 -/
def filterSphereY (s : Sphere α) : α := s.y
/-- `/repo/src/filter_sphere.rs` L63-66: `self.sphere.y()` -/
def filterSphereZ (s : Sphere α) : α := s.y

/-- `/repo/src/box_2d.rs` L191-199, `/repo/src/filter_box_2d.rs` L144-152: `From<BoundingBox2D>` -/
def Box2D.ofBB (b : BoundingBox2D α) : Panics (Box2D α) := do
  let sx ← b.sizeX
  let sy ← b.sizeY
  return ⟨b.centerBB, sx, sy⟩

/-- `/repo/src/box_3d.rs` L212-221, `/repo/src/filter_box_3d.rs` L156-165 -/
def Box3D.ofBB (b : BoundingBox3D α) : Panics (Box3D α) := do
  let sx ← b.sizeX
  let sy ← b.sizeY
  let sz ← b.sizeZ
  return ⟨b.centerBB, sx, sy, sz⟩

/-- `/repo/src/filter_outlier_3d.rs` L80-95 with the k-d tree as searchable -/
def filterOutlier3D {P : Type} (pos : P → Point3D α) (t : KdTree P) (searchDistance : Positive α)
    (minNeighbours : Nat) : Filter (Point3D α) := fun p =>
  decide ((t.inSphere pos ⟨p, searchDistance⟩ []).length ≥ minNeighbours)

end
end R3D

import Verif.Model.BoundingBox
/-
AABBTree2D / AABBTree3D. The two source files have the same bodies up to the box type, the choice of
the split dimension and the additional z / line queries, so the tree is modelled once, generic in
`BoxOps`, and instantiated twice.
Simplification: callbacks `f` and result vectors are modelled by the list of visited elements.
-/
namespace R3D
open Scalar

/-- the dimension specific parts of the tree construction;
`/repo/src/aa_bb_tree_2d.rs` L105-118, L143-157; `/repo/src/aa_bb_tree_3d.rs` L121-139, L163-177 -/
structure BoxOps (B P : Type) where
  consume : B → B → B
  center : B → P
  isLeftOf : Nat → B → P → Bool
  isRightOf : Nat → B → P → Bool

/-- `/repo/src/aa_bb_tree_2d.rs` L33-40, L176-183, L253-261;
`/repo/src/aa_bb_tree_3d.rs` L33-40, L202-209, L300-308 -/
inductive AABBTree (B HB : Type) where
  | empty
  | leaf (data : List HB) (bb : B)
  | branch (left right : AABBTree B HB) (bb : B)

namespace AABBTree
variable {B P HB : Type}

/-- `/repo/src/aa_bb_tree_2d.rs` L159-169, `/repo/src/aa_bb_tree_3d.rs` L179-189 (`none` is the
panic of the callers' `unwrap`) -/
def bbOf (ops : BoxOps B P) (bb : HB → B) : List HB → Panics B
  | [] => none
  | d :: ds => some ((d :: ds).foldl (fun r x => ops.consume r (bb x)) (bb d))

/-- `/repo/src/aa_bb_tree_2d.rs` L93-141, `/repo/src/aa_bb_tree_3d.rs` L109-161.
`rem` is `maxdepth - depth`, so `rem = 0` is `depth >= maxdepth`. -/
def newRec (ops : BoxOps B P) (bb : HB → B) (bucket : Nat) :
    (rem depth : Nat) → List HB → Panics (AABBTree B HB)
  | _, _, [] => some .empty
  | _, _, [d] => do
    let b ← bbOf ops bb [d]
    return .leaf [d] b
  | 0, _, data => do
    let b ← bbOf ops bb data
    return .leaf data b
  | rem + 1, depth, data => do
    if data.length ≤ bucket then
      let b ← bbOf ops bb data
      return .leaf data b
    else
      let b ← bbOf ops bb data
      let c := ops.center b
      let dleft := data.filter (fun x => ops.isLeftOf depth (bb x) c)
      let dright := data.filter (fun x => ops.isRightOf depth (bb x) c)
      if dleft.length = dright.length ∧ dleft.length = data.length then
        return .leaf data b
      else
        let l ← newRec ops bb bucket rem (depth + 1) dleft
        let r ← newRec ops bb bucket rem (depth + 1) dright
        return .branch l r b

/-- `/repo/src/aa_bb_tree_2d.rs` L49-51, `/repo/src/aa_bb_tree_3d.rs` L49-51 -/
def new (ops : BoxOps B P) (bb : HB → B) (data : List HB) (maxdepth bucket : Nat) :
    Panics (AABBTree B HB) :=
  newRec ops bb bucket maxdepth 0 data

/-- `/repo/src/aa_bb_tree_2d.rs` L53-59, L197-205, L276-278;
`/repo/src/aa_bb_tree_3d.rs` L53-59, L223-231, L323-325 -/
def any (f : HB → Bool) : AABBTree B HB → Bool
  | .empty => false
  | .leaf data _ => data.any f
  | .branch l r _ => l.any f || r.any f

/-- the loop over the elements of a leaf; `test` may panic; `/repo/src/aa_bb_tree_2d.rs` L211-215; `/repo/src/aa_bb_tree_3d.rs` L237-241, L248-252 -/
def visitData (bb : HB → B) (test : B → Panics Bool) : List HB → Panics (List HB)
  | [] => some []
  | x :: xs => do
    let t ← test (bb x)
    let r ← visitData bb test xs
    return if t then x :: r else r

/-- the common shape of `for_each_collision_candidate`, `bb_colliding`, `bb_crossing_*_value`,
`for_each_intersection_candidate`: prune by the box of the node, test every element of a leaf.
`/repo/src/aa_bb_tree_2d.rs` L61-91, L207-246, L280-308;
`/repo/src/aa_bb_tree_3d.rs` L61-107, L233-293, L327-371 -/
def visit (bb : HB → B) (test : B → Panics Bool) : AABBTree B HB → Panics (List HB)
  | .empty => some []
  | .leaf data b => do
    if ← test b then visitData bb test data else return []
  | .branch l r b => do
    if ← test b then
      let x ← visit bb test l
      let y ← visit bb test r
      return x ++ y
    else return []

end AABBTree

section
variable {α : Type} [Scalar α] {HB : Type}

/-- `/repo/src/aa_bb_tree_2d.rs` L105, L107, L143-157: split along x when the depth is odd -/
def boxOps2 : BoxOps (BoundingBox2D α) (Point2D α) where
  consume := BoundingBox2D.consume
  center := BoundingBox2D.centerBB
  isLeftOf depth b c := if depth % 2 ≠ 0 then b.min.x <. c.x else b.min.y <. c.y
  isRightOf depth b c := if depth % 2 ≠ 0 then b.max.x >=. c.x else b.max.y >=. c.y

/-- `/repo/src/aa_bb_tree_3d.rs` L121-127, L163-177 -/
def boxOps3 : BoxOps (BoundingBox3D α) (Point3D α) where
  consume := BoundingBox3D.consume
  center := BoundingBox3D.centerBB
  isLeftOf depth b c :=
    match depth % 3 with
    | 0 => b.min.x <. c.x
    | 1 => b.min.y <. c.y
    | _ => b.min.z <. c.z
  isRightOf depth b c :=
    match depth % 3 with
    | 0 => b.max.x >=. c.x
    | 1 => b.max.y >=. c.y
    | _ => b.max.z >=. c.z

/-- `/repo/src/aa_bb_tree_2d.rs` L33-40 -/
abbrev AABBTree2D (α HB : Type) := AABBTree (BoundingBox2D α) HB
/-- `/repo/src/aa_bb_tree_3d.rs` L33-40 -/
abbrev AABBTree3D (α HB : Type) := AABBTree (BoundingBox3D α) HB

namespace AABBTree2D
variable (bb : HB → BoundingBox2D α)

/-- `/repo/src/aa_bb_tree_2d.rs` L49-51 -/
def new (data : List HB) (maxdepth bucket : Nat) : Panics (AABBTree2D α HB) :=
  AABBTree.new boxOps2 bb data maxdepth bucket
/-- elements passed to `f` in order, `/repo/src/aa_bb_tree_2d.rs` L61-67, L207-216, L280-287 -/
def forEachCollisionCandidate (t : AABBTree2D α HB) (b : BoundingBox2D α) : Panics (List HB) :=
  t.visit bb (fun x => x.collidesWith b)
/-- `/repo/src/aa_bb_tree_2d.rs` L69-75, L218-226, L289-294 -/
def bbColliding (t : AABBTree2D α HB) (b : BoundingBox2D α) (result : List HB) : Panics (List HB) :=
  (t.visit bb (fun x => x.collidesWith b)).map (result ++ ·)
/-- `/repo/src/aa_bb_tree_2d.rs` L77-83, L228-236, L296-301 -/
def bbCrossingXValue (t : AABBTree2D α HB) (x : α) (result : List HB) : Panics (List HB) :=
  (t.visit bb (fun b => some (b.crossingXValue x))).map (result ++ ·)
/-- `/repo/src/aa_bb_tree_2d.rs` L85-91, L238-246, L303-308 -/
def bbCrossingYValue (t : AABBTree2D α HB) (y : α) (result : List HB) : Panics (List HB) :=
  (t.visit bb (fun b => some (b.crossingYValue y))).map (result ++ ·)
end AABBTree2D

namespace AABBTree3D
variable (bb : HB → BoundingBox3D α)

/-- `/repo/src/aa_bb_tree_3d.rs` L49-51 -/
def new (data : List HB) (maxdepth bucket : Nat) : Panics (AABBTree3D α HB) :=
  AABBTree.new boxOps3 bb data maxdepth bucket
/-- `/repo/src/aa_bb_tree_3d.rs` L69-75, L244-253, L336-343 -/
def forEachCollisionCandidate (t : AABBTree3D α HB) (b : BoundingBox3D α) : Panics (List HB) :=
  t.visit bb (fun x => x.collidesWith b)
/-- `/repo/src/aa_bb_tree_3d.rs` L77-83, L255-263, L345-350 -/
def bbColliding (t : AABBTree3D α HB) (b : BoundingBox3D α) (result : List HB) : Panics (List HB) :=
  (t.visit bb (fun x => x.collidesWith b)).map (result ++ ·)
/-- `/repo/src/aa_bb_tree_3d.rs` L85-91, L265-273, L352-357 -/
def bbCrossingXValue (t : AABBTree3D α HB) (x : α) (result : List HB) : Panics (List HB) :=
  (t.visit bb (fun b => some (b.crossingXValue x))).map (result ++ ·)
/-- `/repo/src/aa_bb_tree_3d.rs` L93-99, L275-283, L359-364 -/
def bbCrossingYValue (t : AABBTree3D α HB) (y : α) (result : List HB) : Panics (List HB) :=
  (t.visit bb (fun b => some (b.crossingYValue y))).map (result ++ ·)
/-- `/repo/src/aa_bb_tree_3d.rs` L101-107, L285-293, L366-371 -/
def bbCrossingZValue (t : AABBTree3D α HB) (z : α) (result : List HB) : Panics (List HB) :=
  (t.visit bb (fun b => some (b.crossingZValue z))).map (result ++ ·)

/-- `/repo/src/functions.rs` L424-430 `min64` -/
def min64 (a b : α) : α := if a <. b then a else b
/-- `/repo/src/functions.rs` L433-439 `max64` -/
def max64 (a b : α) : α := if a >. b then a else b
/-- one dimension of `/repo/src/functions.rs` L448-464 -/
def slab (lo hi anchor inv : α) : α × α :=
  let t1 := (lo - anchor) * inv
  let t2 := (hi - anchor) * inv
  (min64 t1 t2, max64 t1 t2)
/-- `/repo/src/functions.rs` L443-471 `intersection(line, box)`; the line is its anchor and direction
(`/repo/src/line_3d.rs` L33-36) -/
def lineIntersection (anchor dir : Point3D α) (b : BoundingBox3D α) : Option (Point3D α) :=
  let sx := slab b.min.x b.max.x anchor.x (lit 1 / dir.x)
  let sy := slab b.min.y b.max.y anchor.y (lit 1 / dir.y)
  let sz := slab b.min.z b.max.z anchor.z (lit 1 / dir.z)
  let tmin := max64 (max64 sx.1 sy.1) sz.1
  let tmax := min64 (min64 sx.2 sy.2) sz.2
  if tmax >=. tmin && tmax >=. zero then some (anchor.add (dir.smul tmin)) else none

/-- elements passed to `f`, `/repo/src/aa_bb_tree_3d.rs` L61-67, L233-242, L327-334 -/
def forEachIntersectionCandidate (t : AABBTree3D α HB) (anchor dir : Point3D α) : Panics (List HB) :=
  t.visit bb (fun b => some (lineIntersection anchor dir b).isSome)

/-- `/repo/src/aa_bb_tree_3d.rs` L391-398 -/
def anyElementCollidesWithBounding (t : AABBTree3D α HB) (b : BoundingBox3D α) : Panics Bool :=
  (forEachCollisionCandidate bb t b).map (fun l => !l.isEmpty)
/-- `/repo/src/aa_bb_tree_3d.rs` L380-389; `collides` is the candidate's own `collides_with` -/
def anyElementCollidesWithCollider (collides : HB → Bool) (t : AABBTree3D α HB)
    (b : BoundingBox3D α) : Panics Bool :=
  (forEachCollisionCandidate bb t b).map (fun l => l.foldl (fun acc c => if !acc then collides c else acc) false)
end AABBTree3D
end
end R3D

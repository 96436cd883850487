import Verif.Model.BoundingBox
/-
`/repo/src/oc_tree.rs`. Simplifications: points are `Point3D`; a missing child (`None`) is `nil`; the
eight children are a function of the direction. `OcNode::new` recurses without bound, here on `fuel`;
`diverged` marks a place where the fuel ran out (C29 shows that enough fuel exists, and that more fuel
does not change the tree). Iterating over a `HashSet` (L61-66) has an unspecified order, which is the
parameter `uniq` of `build`.
-/
namespace R3D
open Scalar
variable {α : Type} [Scalar α]

/-- `/repo/src/oc_tree.rs` L113-122 -/
inductive OcDir where
  | PPP | PPN | PNP | PNN | NPP | NPN | NNP | NNN
deriving DecidableEq, Repr

/-- the directions in the order of the code; `/repo/src/oc_tree.rs` L207-214 -/
def OcDir.all : List OcDir := [.PPP, .PPN, .PNP, .PNN, .NPP, .NPN, .NNP, .NNN]

/-- `/repo/src/oc_tree.rs` L89-111 -/
inductive OcNode (α : Type) where
  | nil
  | diverged
  | leaf (p : Point3D α)
  | node (child : OcDir → OcNode α)

/-- `/repo/src/functions.rs` L47-56 `center_3d` -/
def center3d (p q : Point3D α) : Point3D α :=
  ⟨p.x + (q.x - p.x) / lit 2, p.y + (q.y - p.y) / lit 2, p.z + (q.z - p.z) / lit 2⟩

/-- `/repo/src/point_cloud_3d.rs` L216-240 `center_of_gravity` -/
def centerOfGravity3d (ps : List (Point3D α)) : Option (Point3D α) :=
  if ps.length < 1 then none
  else
    let s := ps.foldl (fun (s : Point3D α) p => ⟨s.x + p.x, s.y + p.y, s.z + p.z⟩) ⟨zero, zero, zero⟩
    let n : α := lit (ps.length : ℚ)
    some ⟨s.x / n, s.y / n, s.z / n⟩

namespace OcNode

/-- `/repo/src/oc_tree.rs` L45-50, L154-186 -/
def size : OcNode α → Nat
  | nil => 0
  | diverged => 0
  | leaf _ => 1
  | node c => (OcDir.all.map fun d => (c d).size).sum

/-- `/repo/src/oc_tree.rs` L259-295 -/
def calcSubMinMax (dir : OcDir) (bb : BoundingBox3D α) : Res (BoundingBox3D α) :=
  let min := bb.min
  let max := bb.max
  let middle := center3d min max
  match dir with
  | .PPP => BoundingBox3D.new middle max
  | .PPN => BoundingBox3D.new ⟨middle.x, middle.y, min.z⟩ ⟨max.x, max.y, middle.z⟩
  | .PNP => BoundingBox3D.new ⟨middle.x, min.y, middle.z⟩ ⟨max.x, middle.y, max.z⟩
  | .PNN => BoundingBox3D.new ⟨middle.x, min.y, min.z⟩ ⟨max.x, middle.y, middle.z⟩
  | .NPP => BoundingBox3D.new ⟨min.x, middle.y, middle.z⟩ ⟨middle.x, max.y, max.z⟩
  | .NPN => BoundingBox3D.new ⟨min.x, middle.y, min.z⟩ ⟨middle.x, max.y, middle.z⟩
  | .NNP => BoundingBox3D.new ⟨min.x, min.y, middle.z⟩ ⟨middle.x, middle.y, max.z⟩
  | .NNN => BoundingBox3D.new min middle

/-- `/repo/src/oc_tree.rs` L207-214: all eight boxes or the first error -/
def subBoxes (bb : BoundingBox3D α) : Res (OcDir → BoundingBox3D α) := do
  let ppp ← calcSubMinMax .PPP bb
  let ppn ← calcSubMinMax .PPN bb
  let pnp ← calcSubMinMax .PNP bb
  let pnn ← calcSubMinMax .PNN bb
  let npp ← calcSubMinMax .NPP bb
  let npn ← calcSubMinMax .NPN bb
  let nnp ← calcSubMinMax .NNP bb
  let nnn ← calcSubMinMax .NNN bb
  return fun
    | .PPP => ppp | .PPN => ppn | .PNP => pnp | .PNN => pnn
    | .NPP => npp | .NPN => npn | .NNP => nnp | .NNN => nnn

/-- `/repo/src/oc_tree.rs` L216-234: the first box (in code order) containing the point -/
def cellOf (bbs : OcDir → BoundingBox3D α) (p : Point3D α) : Option OcDir :=
  OcDir.all.find? fun d => (bbs d).contains p

/-- `/repo/src/oc_tree.rs` L194-257 `OcNode::new` and L297-305 `build_subnode` -/
def newNode : (fuel : Nat) → BoundingBox3D α → List (Point3D α) → Res (OcNode α)
  | 0, _, _ => .ok diverged
  | fuel + 1, bb, pc =>
    match pc with
    | [p] => .ok (leaf p)
    | pc =>
      match subBoxes bb with
      | .error e => .error e
      | .ok bbs => .ok (node fun d =>
          let sub := pc.filter fun p => decide (cellOf bbs p = some d)
          match sub.length with
          | 0 => nil
          | _ => match newNode fuel (bbs d) sub with
            | .error _ => nil
            | .ok x => x)

/-- `None` of an `Option<Box<OcNode>>`; `/repo/src/oc_tree.rs` L89-111 -/
def isNil : OcNode α → Bool
  | nil => true
  | _ => false

/-- `/repo/src/oc_tree.rs` L313-365 `collect`, `collect_center_or_all`: the points pushed. `depth` is an
`i8`: computing `depth + 1` panics above 127 (debug build; release builds wrap). -/
def collectNode (maxdepth : Int) : OcNode α → (depth : Nat) → Panics (List (Point3D α))
  | nil, _ => some []
  | diverged, _ => some []
  | leaf p, _ => some [p]
  | node c, depth =>
    let onlyCollectCenters := decide (maxdepth ≥ 0) && decide ((depth : Int) > maxdepth)
    (OcDir.all.mapM fun d =>
      if (c d).isNil then some []
      else if depth + 1 > 127 then none
      else if onlyCollectCenters then
        (collectNode maxdepth (c d) (depth + 1)).map fun sub => (centerOfGravity3d sub).toList
      else collectNode maxdepth (c d) (depth + 1)).map List.flatten

end OcNode

/-- `/repo/src/oc_tree.rs` L33-39 -/
structure OcTree (α : Type) where
  root : OcNode α
  bb : BoundingBox3D α

namespace OcTree

/-- `/repo/src/oc_tree.rs` L45-50 -/
def size (t : OcTree α) : Nat := t.root.size

/-- `/repo/src/oc_tree.rs` L78-84 -/
def collect (t : OcTree α) (maxdepth : Int) : Panics (List (Point3D α)) := t.root.collectNode maxdepth 0

/-- `/repo/src/oc_tree.rs` L52-54 -/
def toPointcloud (t : OcTree α) : Panics (List (Point3D α)) := t.collect (-1)

/-- `/repo/src/oc_tree.rs` L56-70: the tree afterwards and the result. `uniq` enumerates the hash set
of the points. -/
def build (fuel : Nat) (uniq : List (Point3D α) → List (Point3D α)) (t : OcTree α)
    (pc : List (Point3D α)) : OcTree α × Res Unit :=
  match (BoundingBox3D.fromIterator pc).toOption with
  | none => (t, .error .BoundingBoxMissing)
  | some bb =>
    match OcNode.newNode fuel bb (uniq pc) with
    | .error e => (⟨t.root, bb⟩, .error e)
    | .ok r => (⟨r, bb⟩, .ok ())

end OcTree
end R3D

import Verif.Model.Shapes
import Verif.Model.Sort
/-
`/repo/src/kd_tree.rs` and the two functions of `/repo/src/functions.rs` it uses.
Points are of any type `P` with a position (`Is3D`). The scalar type is generic.
-/
namespace R3D
open Scalar
variable {α : Type} [Scalar α] {P : Type}

/-- `/repo/src/functions.rs` L72-92 `dimension_compare` (`none` = `Err`, which error is never looked at
by the callers) -/
def dimensionCompare (l r : Point3D α) (dim : Nat) : Option Ordering :=
  match dim with
  | 0 => partialCmp l.x r.x
  | 1 => partialCmp l.y r.y
  | 2 => partialCmp l.z r.z
  | _ => none

/-- `/repo/src/functions.rs` L95-106 `dimension_dist` -/
def dimensionDist (l r : Point3D α) (dim : Nat) : Res α :=
  match dim with
  | 0 => .ok (Scalar.abs (l.x - r.x))
  | 1 => .ok (Scalar.abs (l.y - r.y))
  | 2 => .ok (Scalar.abs (l.z - r.z))
  | _ => .error .DimensionsDontMatch

/-- `/repo/src/kd_tree.rs` L33-51; `None` (no node) is `nil` -/
inductive KdTree (P : Type) where
  | nil
  | node (left right : KdTree P) (val : P) (dimension : Nat)
deriving Repr

namespace KdTree

/-- `/repo/src/kd_tree.rs` L59-64, L135-145 -/
def size : KdTree P → Nat
  | nil => 0
  | node l r _ _ => l.size + 1 + r.size

/-- `/repo/src/kd_tree.rs` L66-72, L156-164: the points appended in order -/
def toPointcloud : KdTree P → List P
  | nil => []
  | node l r v _ => l.toPointcloud ++ [v] ++ r.toPointcloud

/-- `/repo/src/kd_tree.rs` L147-149 -/
def isLeaf : KdTree P → Bool
  | node nil nil _ _ => true
  | _ => false

/-- comparator of `/repo/src/kd_tree.rs` L177-182: "not greater" -/
def leDim (pos : P → Point3D α) (dimension : Nat) (a b : P) : Bool :=
  match dimension with
  | 0 => (partialCmp (pos a).x (pos b).x).getD .eq != .gt
  | 1 => (partialCmp (pos a).y (pos b).y).getD .eq != .gt
  | 2 => (partialCmp (pos a).z (pos b).z).getD .eq != .gt
  | _ => true

/-- `/repo/src/kd_tree.rs` L166-213 `KdNode::new`. The recursion is on `fuel`; `build` starts it with the
number of points, which is enough (`C24` shows that no point is lost). An empty list gives `nil`
(L197-205; the code never calls `new` with an empty list, where it would panic). -/
def newNode (pos : P → Point3D α) : (fuel dim : Nat) → List P → KdTree P
  | 0, _, _ => nil
  | fuel + 1, dim, pc =>
    let dimension := dim % 2
    match pc with
    | [] => nil
    | [p] => node nil nil p dimension
    | _ =>
      let pc := stableSort (leDim pos dimension) pc
      let median := pc.length / 2
      match pc[median]? with
      | none => nil
      | some val =>
        node (newNode pos fuel (dimension + 1) (pc.take median))
          (newNode pos fuel (dimension + 1) (pc.drop (median + 1))) val dimension

/-- `/repo/src/kd_tree.rs` L74-82: the tree afterwards and the result -/
def build (pos : P → Point3D α) (t : KdTree P) (pc : List P) : KdTree P × Res Unit :=
  match pc.length with
  | 0 => (t, .error .TooFewPoints)
  | _ => (newNode pos pc.length 0 pc, .ok ())

/-- `/repo/src/kd_tree.rs` L405-423 -/
def sortAndLimit (pos : P → Point3D α) (search : Point3D α) (maxSize : Nat) (pc : List P) : List P :=
  if pc.length > maxSize then
    (stableSort (fun a b =>
      (partialCmp (search.sqrDist (pos a)) (search.sqrDist (pos b))).getD .eq != .gt) pc).take maxSize
  else pc

/-- `/repo/src/kd_tree.rs` L249-253, L309-313, L374-378: coordinate used for the borders -/
def coordOf (dimension : Nat) (p : Point3D α) : α :=
  match dimension with
  | 0 => p.x
  | 1 => p.y
  | _ => p.z

/-- `/repo/src/kd_tree.rs` L224-227 -/
def pushCandidate (pos : P → Point3D α) (search : Point3D α) (n : Nat) (v : P) (pc : List P) :
    Panics (List P) :=
  if pc.length < n then some (pc ++ [v])
  else pc.getLast?.map fun last =>
    if search.sqrDist (pos v) <. search.sqrDist (pos last) then pc ++ [v] else pc

/-- `/repo/src/kd_tree.rs` L220-280 (`none`: the index `pc.len() - 1` of an empty vector) -/
def knearestNode (pos : P → Point3D α) (search : Point3D α) (n : Nat) : KdTree P → List P → Panics (List P)
  | nil, pc => some pc
  | node l r v d, pc => do
    let pc ← pushCandidate pos search n v pc
    let comp := dimensionCompare search (pos v) d
    let pc ← (match comp with
      | some .lt => knearestNode pos search n l pc
      | some _ => knearestNode pos search n r pc
      | none => some pc : Panics (List P))
    let pc := sortAndLimit pos search n pc
    let currentSearch := coordOf d search
    let currentVal := coordOf d (pos v)
    let last ← pc.getLast?
    let distanceBest := search.dist (pos last)
    let borderLeft := currentSearch - distanceBest
    let borderRight := currentSearch + distanceBest
    let pc ← (match comp with
      | some .lt =>
        if decide (pc.length < n) || borderRight >=. currentVal then knearestNode pos search n r pc
        else some pc
      | some _ =>
        if decide (pc.length < n) || borderLeft <=. currentVal then knearestNode pos search n l pc
        else some pc
      | none => some pc : Panics (List P))
    return sortAndLimit pos search n pc

/-- `/repo/src/kd_tree.rs` L92-99 -/
def knearest (pos : P → Point3D α) (t : KdTree P) (search : Point3D α) (n : Nat) (result : List P) :
    Panics (List P) :=
  if n < 1 then some result else knearestNode pos search n t result

/-- `/repo/src/kd_tree.rs` L101-106 -/
def nearest (pos : P → Point3D α) (t : KdTree P) (search : Point3D α) : Panics (Option P) := do
  let result ← t.knearest pos search 1 []
  return result[0]?

/-- `/repo/src/kd_tree.rs` L113-117, L282-337; for a node of dimension 2 the code reads `sphere.z()`,
which is the y coordinate of the center (no node has dimension 2, L167). -/
def inSphere (pos : P → Point3D α) (s : Sphere α) : KdTree P → List P → List P
  | nil, pc => pc
  | node l r v d, pc =>
    let pc := if s.center.dist (pos v) <=. s.radius.val then pc ++ [v] else pc
    if (node l r v d).isLeaf then pc
    else
      let comp := dimensionCompare s.center (pos v) d
      let pc := match comp with
        | some .lt => inSphere pos s l pc
        | some _ => inSphere pos s r pc
        | none => pc
      let currentSearch := coordOf d ⟨s.x, s.y, s.z⟩
      let currentVal := coordOf d (pos v)
      let borderLeft := currentSearch - s.radius.val
      let borderRight := currentSearch + s.radius.val
      match comp with
        | some .lt => if borderRight >=. currentVal then inSphere pos s r pc else pc
        | some _ => if borderLeft <=. currentVal then inSphere pos s l pc else pc
        | none => pc

/-- `/repo/src/kd_tree.rs` L124-128, L339-403 -/
def inBox (pos : P → Point3D α) (b : Box3D α) : KdTree P → List P → List P
  | nil, pc => pc
  | node l r v d, pc =>
    match dimensionDist b.center (pos v) 0, dimensionDist b.center (pos v) 1,
        dimensionDist b.center (pos v) 2 with
    | .ok distX, .ok distY, .ok distZ =>
      let pc :=
        if distX <=. lit (1/2) * b.sizeX.val && distY <=. lit (1/2) * b.sizeY.val
            && distZ <=. lit (1/2) * b.sizeZ.val then pc ++ [v] else pc
      if (node l r v d).isLeaf then pc
      else
        let comp := dimensionCompare b.center (pos v) d
        let pc := match comp with
          | some .lt => inBox pos b l pc
          | some _ => inBox pos b r pc
          | none => pc
        let currentSearch := coordOf d ⟨b.x, b.y, b.z⟩
        let currentVal := coordOf d (pos v)
        let currentSize := coordOf d ⟨b.sizeX.val, b.sizeY.val, b.sizeZ.val⟩
        let borderLeft := currentSearch - lit (1/2) * currentSize
        let borderRight := currentSearch + lit (1/2) * currentSize
        match comp with
          | some .lt => if borderRight >=. currentVal then inBox pos b r pc else pc
          | some _ => if borderLeft <=. currentVal then inBox pos b l pc else pc
          | none => pc
    | _, _, _ => pc

end KdTree
end R3D

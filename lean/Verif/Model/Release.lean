import Verif.Model.Mesh
import Verif.Model.Cloud32
import Verif.Model.TextLoad
import Verif.Model.Curves2D
import Verif.Model.OcTree
/-
Arithmetic of 64 bit (and 8 bit) integers which leaves the range of the type. A build with overflow checks (the default of debug builds)
panics, one without (the default of release builds) wraps around. Here are the functions in which a caller or a file can provoke
that; everywhere else the numbers are bounded by the lengths of containers in memory.
-/
namespace R3D
open Scalar
variable {α : Type}

/-- the two ways of compiling the arithmetic, `/repo/Cargo.toml` (which sets no profile) -/
inductive Build where
  | debug
  | release
deriving DecidableEq, Repr

/-- the value of a `usize` operation whose exact result is `n`; for `/repo/src/mesh_3d.rs` L59-61 -/
def Build.fit : Build → Nat → Panics Nat
  | .debug, n => if n < 2 ^ 64 then some n else none
  | .release, n => some (n % 2 ^ 64)

/-- `3 * id + k` of `usize`; `/repo/src/mesh_3d.rs` L59-61, `/repo/src/point_cloud_3d_f32.rs` L99-101 -/
def Build.index (b : Build) (id k : Nat) : Panics Nat := do
  let t ← b.fit (3 * id)
  b.fit (t + k)

/-- `face_vertex_ids`, `/repo/src/mesh_3d.rs` L58-72 -/
def Mesh3D.faceVertexIdsB {P IC : Type} [IndexContainer IC] (b : Build) (m : Mesh3D P IC) (f : Nat) : Panics (Option Face3) := do
  let id1 ← b.index f 0
  let id2 ← b.index f 1
  let id3 ← b.index f 2
  if id3 ≥ IndexContainer.len m.topology then some none
  else do
    let x ← IndexContainer.get m.topology id1
    let y ← IndexContainer.get m.topology id2
    let z ← IndexContainer.get m.topology id3
    return some ⟨x, y, z⟩

/-- `get_d`, `/repo/src/point_cloud_3d_f32.rs` L97-103; each `?` leaves before the next index is computed -/
def Cloud32.getB (b : Build) (d : List F64) (index : Nat) : Panics (Option (Point3D F64)) := do
  let i ← b.index index 0
  match d[i]? with
  | none => return none
  | some x =>
    let j ← b.index index 1
    match d[j]? with
    | none => return none
    | some y =>
      let k ← b.index index 2
      return (d[k]?).map fun z => ⟨x, y, z⟩

/-- `set_d`, `/repo/src/point_cloud_3d_f32.rs` L105-109 -/
def Cloud32.setB (b : Build) (d : List F64) (index : Nat) (p : Point3D F64) : Panics (List F64) := do
  let i ← b.index index 0
  let d ← vecSet d i p.x.toF32
  let j ← b.index index 1
  let d ← vecSet d j p.y.toF32
  let k ← b.index index 2
  vecSet d k p.z.toF32

/-- `a - 1` of `usize` in a release build, `/repo/src/io/obj.rs` L311 -/
def predW (a : Nat) : Nat := (a + (2 ^ 64 - 1)) % 2 ^ 64

/-- `/repo/src/io/obj.rs` L294-312 in a release build -/
def objFetchFaceW (line : Bytes) : Except ObjError (Nat × Nat × Nat) :=
  match toWords line with
  | [] => .error .Face
  | _ :: words =>
    match objCorner words 0, objCorner words 1, objCorner words 2 with
    | some a, some b, some c => .ok (predW a, predW b, predW c)
    | _, _, _ => .error .Face

/-- the `while` loop of `/repo/src/io/obj.rs` L144-168 in a release build -/
def objMeshLoopW (T : FloatText α) : List Bytes → Nat → Option (Except (LineInfo ObjError) (Item (Point3D α))) × LineIter
  | [], i => (none, ⟨[], true, i⟩)
  | line :: rest, i =>
    if startsWith line b!"v " then
      match objFetchVertex T line with
      | .ok p => (some (.ok (.data p)), ⟨rest, false, i + 1⟩)
      | .error e => (some (.error (.line (i + 1) line e)), ⟨rest, true, i + 1⟩)
    else if startsWith line b!"f " then
      match objFetchFaceW line with
      | .ok (a, b, c) => (some (.ok (.face a b c)), ⟨rest, false, i + 1⟩)
      | .error e => (some (.error (.line (i + 1) line e)), ⟨rest, true, i + 1⟩)
    else objMeshLoopW T rest (i + 1)

/-- `/repo/src/io/obj.rs` L140-173 in a release build -/
def objMeshNextW (T : FloatText α) (s : LineIter) : Panics (Option (Except (LineInfo ObjError) (Item (Point3D α))) × LineIter) :=
  if s.isDone then some (none, s) else some (objMeshLoopW T s.lines s.iLine)

/-- `/repo/src/io/obj.rs` L186-208 in a release build -/
def loadObjMeshW (T : FloatText α) (input : Bytes) (m : TMesh (Point3D α)) :
    Panics (TMesh (Point3D α) × Except (LineInfo ObjError) Unit) :=
  forEach (objMeshNextW T) objPush ((lines input).length + 1) ⟨lines input, false, 0⟩ m

/-- `/repo/src/interpolate_2d.rs` L31-38 in a release build -/
def factorialW (number : Nat) : Nat := (List.range' 1 number).foldl (fun r i => r * i % 2 ^ 64) 1

/-- `/repo/src/interpolate_2d.rs` L40-42 in a release build; a division by zero panics -/
def binominalCoefficientW (n k : Nat) : Panics Nat :=
  let d := factorialW k * factorialW (n - k) % 2 ^ 64
  if d = 0 then none else some (factorialW n / d)

/-- `/repo/src/interpolate_2d.rs` L44-46 in a release build -/
def bernsteinPolynomialW [Scalar α] [Powi α] (n i : Nat) (t : α) : Panics α := do
  let b ← binominalCoefficientW n i
  some (lit b * Powi.powi t i * Powi.powi (lit 1 - t) (n - i))

/-- loop of `/repo/src/interpolate_2d.rs` L55-59 in a release build -/
def controlLoopW [Scalar α] [Powi α] (path : List (Point2D α)) (nPoints : Nat) (t : α) : List Nat → α × α → Panics (α × α)
  | [], s => some s
  | i :: is, (x, y) => do
    let bp ← bernsteinPolynomialW nPoints i t
    let p ← path[i]?
    controlLoopW path nPoints t is (x + bp * p.x, y + bp * p.y)

/-- `/repo/src/interpolate_2d.rs` L48-61 in a release build -/
def controlPolygonW [Scalar α] [Powi α] (path : List (Point2D α)) (nPoints : Nat) (t : α) : Panics (Point2D α) := do
  let (x, y) ← controlLoopW path nPoints t (List.range (nPoints + 1)) (zero, zero)
  some ⟨x, y⟩

/-- `/repo/src/interpolate_2d.rs` L64-86 in a release build -/
def interpolateBezierW [Scalar α] [Powi α] (base : List (Point2D α)) (nPoints : Nat) : Panics (Res (List (Point2D α))) :=
  if base.length < 2 then some (.error .TooFewPoints)
  else do
    let pDist : α := lit 1 / lit nPoints
    let pts ← (List.range nPoints).mapM fun (i : Nat) => controlPolygonW base (base.length - 1) (lit (i : Nat) * pDist)
    some (.ok pts)

/-- an `i8` operation in a release build whose exact result is `z`; for `/repo/src/oc_tree.rs` L356 and L363 -/
def wrap8 (z : Int) : Int := (z + 128) % 256 - 128

/-- `/repo/src/oc_tree.rs` L313-365 in a release build -/
def OcNode.collectNodeW [Scalar α] (maxdepth : Int) : OcNode α → (depth : Int) → List (Point3D α)
  | .nil, _ => []
  | .diverged, _ => []
  | .leaf p, _ => [p]
  | .node c, depth =>
    let onlyCollectCenters := decide (maxdepth ≥ 0) && decide (depth > maxdepth)
    OcDir.all.flatMap fun d =>
      if (c d).isNil then []
      else if onlyCollectCenters then (centerOfGravity3d (collectNodeW maxdepth (c d) (wrap8 (depth + 1)))).toList
      else collectNodeW maxdepth (c d) (wrap8 (depth + 1))

/-- `/repo/src/oc_tree.rs` L78-84 in a release build -/
def OcTree.collectW [Scalar α] (t : OcTree α) (maxdepth : Int) : List (Point3D α) := t.root.collectNodeW maxdepth 0

/-- `/repo/src/oc_tree.rs` L52-54 in a release build -/
def OcTree.toPointcloudW [Scalar α] (t : OcTree α) : List (Point3D α) := t.collectW (-1)

end R3D

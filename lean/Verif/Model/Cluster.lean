import Verif.Model.Intersect
import Verif.Model.MeshAlgo
/-
Clustering: `/repo/src/cluster.rs`, `/repo/src/cluster_vertices.rs`, and the vertex normals of
`/repo/src/utils.rs` L101-L125.
Hash maps are association lists with the equality of the keys.
-/
namespace R3D
open Scalar
variable {α : Type} [Scalar α]

/-! ### `/repo/src/cluster.rs` -/

/-- `/repo/src/cluster.rs` L32-42 -/
structure Cluster (T α : Type) where
  data : List T
  map : List ((Nat × Nat) × List Nat)
  startX : α
  startY : α
  incrX : α
  incrY : α

namespace Cluster
variable {T : Type}

/-- `((x - start) / incr) as u16`, `/repo/src/cluster.rs` L72-76, L97-98 -/
def cell (start incr x : α) : Nat := toNatSat 65535 ((x - start) / incr)

/-- `map.entry(k).and_modify(|e| e.push(i)).or_insert(vec![i])`, `/repo/src/cluster.rs` L80-82 -/
def pushAt (k : Nat × Nat) (i : Nat) : List ((Nat × Nat) × List Nat) → List ((Nat × Nat) × List Nat)
  | [] => [(k, [i])]
  | e :: m => if k = e.1 then (e.1, e.2 ++ [i]) :: m else e :: pushAt k i m

/-- the numbers of `a..=b`; `/repo/src/cluster.rs` L78-79 -/
def inclusive (a b : Nat) : List Nat := List.range' a (b + 1 - a)

/-- one round of the loop `/repo/src/cluster.rs` L67-85 -/
def addElement (startX startY incrX incrY : α) (map : List ((Nat × Nat) × List Nat)) (i : Nat) (b : BoundingBox3D α) :
    List ((Nat × Nat) × List Nat) :=
  let cMinX := cell startX incrX b.min.x
  let cMinY := cell startY incrY b.min.y
  let cMaxX := cell startX incrX b.max.x
  let cMaxY := cell startY incrY b.max.y
  (inclusive cMinX cMaxX).foldl (fun map cx => (inclusive cMinY cMaxY).foldl (fun map cy => pushAt (cx, cy) i map) map) map

/-- one round of the loop `/repo/src/cluster.rs` L53-60; `none` is the initial error -/
def boundStep (bb : T → BoundingBox3D α) (all : Option (BoundingBox3D α)) (x : T) : Option (BoundingBox3D α) :=
  match all with
  | some a => some (a.combine (bb x))
  | none => some (bb x)

/-- the loop `/repo/src/cluster.rs` L53-60 -/
def boundAll (bb : T → BoundingBox3D α) (data : List T) : Option (BoundingBox3D α) := data.foldl (boundStep bb) none

/-- `/repo/src/cluster.rs` L50-L94; `bb` is `bounding_box` of the elements, which must not panic; the outer `Option` is the
panic of the size accessors -/
def new (bb : T → BoundingBox3D α) (data : List T) (countX countY : Nat) : Panics (Res (Cluster T α)) :=
  match boundAll bb data with
  | none => some (.error .BoundingBoxMissing)
  | some b => do
    let sizeX ← b.sizeX
    let sizeY ← b.sizeY
    let incrX := sizeX.val / lit countX
    let incrY := sizeY.val / lit countY
    let map := data.zipIdx.foldl (fun map x => addElement b.min.x b.min.y incrX incrY map x.2 (bb x.1)) []
    return .ok ⟨data, map, b.min.x, b.min.y, incrX, incrY⟩

/-- `/repo/src/cluster.rs` L96-L105 `for_each_candidate`: the arguments `f` is called with, in order -/
def candidates (c : Cluster T α) (x y : α) : Panics (List T) :=
  match c.map.lookup (cell c.startX c.incrX x, cell c.startY c.incrY y) with
  | none => some []
  | some is => is.mapM fun i => c.data[i]?

end Cluster

/-! ### `/repo/src/cluster_vertices.rs` -/

/-- `cluster_of`, `/repo/src/cluster_vertices.rs` L55-62 (`as usize` of a 64 bit target) -/
def clusterOf (min : Point3D α) (clusterSize : α) (p : Point3D α) : Nat × Nat × Nat :=
  let v := conn min p
  (toNatSat (2 ^ 64 - 1) (v.x / clusterSize), toNatSat (2 ^ 64 - 1) (v.y / clusterSize),
   toNatSat (2 ^ 64 - 1) (v.z / clusterSize))

/-- the loop `/repo/src/cluster_vertices.rs` L68-73: `cluster_map.insert` replaces the value of a present key (the newest entry is found first) -/
def clusterMap (clusters : List (Nat × Nat × Nat)) : List ((Nat × Nat × Nat) × Nat) :=
  clusters.zipIdx.foldl (fun map c => c :: map) []

/-- `new_vertex`, `/repo/src/cluster_vertices.rs` L77-83 -/
def newVertex (m : TMesh (Point3D α)) (clusters : List (Nat × Nat × Nat)) (oldIndex : Nat) : Panics (Point3D α) := do
  let cluster ← clusters[oldIndex]?
  let i ← (clusterMap clusters).lookup cluster
  m.vertex i

/-- the loop `/repo/src/cluster_vertices.rs` L88-92 -/
def clusterFaces (m : TMesh (Point3D α)) (clusters : List (Nat × Nat × Nat)) :
    List Face3 → TMesh (Point3D α) → Panics (TMesh (Point3D α))
  | [], r => some r
  | f :: fs, r => do
    let a ← newVertex m clusters f.a
    let b ← newVertex m clusters f.b
    let c ← newVertex m clusters f.c
    clusterFaces m clusters fs (r.addFace a b c).1

/-- `/repo/src/cluster_vertices.rs` L33-L97; the bounding box is the one of the vertices
(`/repo/src/mesh_3d.rs` L153-155, `/repo/src/point_cloud_3d.rs` L207-209) -/
def clusterVertices [DecidableEq α] (m : TMesh (Point3D α)) (clusterSize : α) : Panics (Res (TMesh (Point3D α))) :=
  match BoundingBox3D.fromIterator m.verts with
  | .error _ => some (.error .BoundingBoxMissing)
  | .ok bb => do
    let sx ← bb.sizeX
    let sy ← bb.sizeY
    let sz ← bb.sizeZ
    let nx := toNatSat (2 ^ 64 - 1) (sx.val / clusterSize)
    let ny := toNatSat (2 ^ 64 - 1) (sy.val / clusterSize)
    let nz := toNatSat (2 ^ 64 - 1) (sz.val / clusterSize)
    if nx < 2 ∨ ny < 2 ∨ nz < 2 then some (.error .ClusterTooBig)
    else
      let clusters := m.verts.map (clusterOf bb.min clusterSize)
      let result ← clusterFaces m clusters m.faces TMesh.empty
      result.healMesh

/-! ### `/repo/src/utils.rs` L101-L125 -/

/-- `ns[v] = add(&ns[v], &n)`, `/repo/src/utils.rs` L117-118 -/
def addNormal (n : Point3D α) (ns : List (Point3D α)) (v : Nat) : Panics (List (Point3D α)) := do
  let old ← ns[v]?
  vecSet ns v (old.add n)

/-- one round of the loop `/repo/src/utils.rs` L110-120 -/
def faceNormalStep (m : TMesh (Point3D α)) (ns : List (Point3D α)) (i : Nat) : Panics (List (Point3D α)) := do
  let face ← m.faceVertexIds i
  let vs ← m.faceVertices i
  let v12 := conn vs.1 vs.2.1
  let v13 := conn vs.1 vs.2.2
  let n ← Norm3D.newOrZ (v12.cross v13)
  let ns ← addNormal n ns face.a
  let ns ← addNormal n ns face.b
  addNormal n ns face.c

/-- `/repo/src/utils.rs` L101-L125 -/
def normalsOfMesh (m : TMesh (Point3D α)) : Panics (List (Point3D α)) := do
  let ns ← (List.range m.numFaces).foldlM (faceNormalStep m) (List.replicate m.numVertices Point3D.default)
  ns.mapM Norm3D.newOrZ

end R3D

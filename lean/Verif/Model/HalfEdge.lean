import Verif.Model.Mesh
import Verif.Model.Sort
/-
`/repo/src/half_edge.rs`, `/repo/src/searchable_mesh.rs`, `/repo/src/is_searchable_mesh.rs`.
Simplifications: index containers are lists (C01 justifies this); `with_capacity_and_support_for`
only reserves; the scratch `cache` arguments are cleared by the code before use and are therefore
internal here; `&mut Vec` result arguments are returned (the appended list), errors leave them
untouched except where noted.
-/
namespace R3D

/-- half_edge.rs L31-38 -/
structure HalfEdge where
  tails : List Nat
  twins : List (Option Nat)
  startEdges : List (List Nat)
deriving DecidableEq, Repr

namespace HalfEdge

/-- half_edge.rs L264-273: `vec.resize(i+1, empty)` when too short, then push at `i`. -/
def safeAppendAt (vec : List (List Nat)) (i val : Nat) : List (List Nat) :=
  let vec := if i ≥ vec.length then vec ++ List.replicate (i + 1 - vec.length) [] else vec
  vec.modify i (· ++ [val])

/-- half_edge.rs L61-92: the loop over the faces; `i` is the id of the first face of the list. -/
def collect (i : Nat) : List Face3 → List Nat × List (List Nat) → List Nat × List (List Nat)
  | [], acc => acc
  | f :: fs, (tails, se) =>
    let tails := tails ++ [f.a] ++ [f.b] ++ [f.c]
    let se := safeAppendAt se f.a (i * 3 + 0)
    let se := safeAppendAt se f.b (i * 3 + 1)
    let se := safeAppendAt se f.c (i * 3 + 2)
    collect (i + 1) fs (tails, se)

/-- half_edge.rs L205-210 -/
def ensureEdgeId (h : HalfEdge) (e : Nat) : Res Unit :=
  if e ≥ h.tails.length then .error .IncorrectEdgeID else .ok ()

/-- half_edge.rs L212-217 -/
def ensureVertexId (h : HalfEdge) (v : Nat) : Res Unit :=
  if v ≥ h.startEdges.length then .error .IncorrectVertexID else .ok ()

/-- half_edge.rs L123-126 -/
def tail (h : HalfEdge) (e : Nat) : Option Nat :=
  match h.ensureEdgeId e with
  | .error _ => none
  | .ok _ => h.tails[e]?

/-- half_edge.rs L128-131 -/
def face (h : HalfEdge) (e : Nat) : Option Nat :=
  match h.ensureEdgeId e with
  | .error _ => none
  | .ok _ => some (e / 3)

/-- half_edge.rs L133-136 -/
def twin (h : HalfEdge) (e : Nat) : Option Nat :=
  match h.ensureEdgeId e with
  | .error _ => none
  | .ok _ => (h.twins[e]?).join

/-- half_edge.rs L138-144, L201-203 -/
def next (h : HalfEdge) (e : Nat) : Option Nat :=
  match h.ensureEdgeId e with
  | .error _ => none
  | .ok _ => if e % 3 = 2 then some (e - 2) else some (e + 1)

/-- half_edge.rs L146-152, L197-199 -/
def prev (h : HalfEdge) (e : Nat) : Option Nat :=
  match h.ensureEdgeId e with
  | .error _ => none
  | .ok _ => if e % 3 = 0 then some (e + 2) else some (e - 1)

/-- half_edge.rs L154-158: what is appended to `result`. -/
def edgesOriginating (h : HalfEdge) (v : Nat) : Res (List Nat) :=
  match h.ensureVertexId v with
  | .error e => .error e
  | .ok _ => match h.startEdges[v]? with
    | some l => .ok l
    | none => .error .IncorrectVertexID -- unreachable, index was checked

/-- half_edge.rs L161-170 -/
def edgesEnding (h : HalfEdge) (v : Nat) : Res (List Nat) :=
  match h.edgesOriginating v with
  | .error e => .error e
  | .ok cache => .ok (cache.filterMap h.prev)

/-- half_edge.rs L173-183 -/
def edgesAll (h : HalfEdge) (v : Nat) : Res (List Nat) :=
  match h.edgesOriginating v with
  | .error e => .error e
  | .ok cache => .ok (cache.flatMap fun e => e :: (h.prev e).toList)

/-- half_edge.rs L186-195 -/
def faces (h : HalfEdge) (v : Nat) : Res (List Nat) :=
  match h.edgesOriginating v with
  | .error e => .error e
  | .ok cache => .ok (cache.filterMap h.face)

/-- half_edge.rs L112-118: the inner loop over the originating edges for edge `i`; the last
candidate found is the one kept. -/
def twinLoop (h : HalfEdge) (i : Nat) : List Nat → Option Nat → Option Nat
  | [], acc => acc
  | o :: os, acc =>
    let acc := match h.next o with
      | none => acc
      | some candidate => if h.tails[candidate]? = h.tails[i]? then some candidate else acc
    twinLoop h i os acc

/-- half_edge.rs L105-119: the value stored as twin of edge `i` (initially `None`). -/
def findTwin (h : HalfEdge) (i : Nat) : Option Nat :=
  let cache := match h.next i with
    | none => []
    | some n => match h.tails[n]? with
      | none => []
      | some v => match h.edgesOriginating v with
        | .ok l => l
        | .error _ => []
  twinLoop h i cache none

/-- half_edge.rs L47-121 -/
def new {P : Type} (m : TMesh P) : HalfEdge :=
  let r := collect 0 m.faces ([], [])
  let h : HalfEdge := ⟨r.1, List.replicate (3 * m.numFaces) none, r.2⟩
  { h with twins := (List.range h.tails.length).map h.findTwin }

end HalfEdge

/-- searchable_mesh.rs L33-41 -/
structure SearchableMesh (P : Type) where
  mesh : TMesh P
  he : HalfEdge

namespace SearchableMesh
variable {P : Type}

/-- searchable_mesh.rs L51-59 -/
def new (m : TMesh P) : SearchableMesh P := ⟨m, HalfEdge.new m⟩

/-- searchable_mesh.rs L125-127 -/
def numEdges (s : SearchableMesh P) : Nat := s.mesh.numFaces * 3
/-- searchable_mesh.rs L62-67, L129-136 -/
def edgesOfFace (s : SearchableMesh P) (f : Nat) : Option (Nat × Nat × Nat) :=
  if f ≥ s.mesh.numFaces then none else some (f * 3 + 0, f * 3 + 1, f * 3 + 2)
/-- searchable_mesh.rs L138-140 -/
def edgesOriginatingFromVertex (s : SearchableMesh P) := s.he.edgesOriginating
/-- searchable_mesh.rs L142-149 -/
def edgesEndingAtVertex (s : SearchableMesh P) := s.he.edgesEnding
/-- searchable_mesh.rs L151-158 -/
def edgesOfVertex (s : SearchableMesh P) := s.he.edgesAll
/-- searchable_mesh.rs L160-162 -/
def edgeTail (s : SearchableMesh P) := s.he.tail
/-- searchable_mesh.rs L164-166 -/
def edgeHead (s : SearchableMesh P) (e : Nat) : Option Nat := (s.he.next e).bind s.he.tail
/-- searchable_mesh.rs L168-170 -/
def edgeNext (s : SearchableMesh P) := s.he.next
/-- searchable_mesh.rs L172-174 -/
def edgePrev (s : SearchableMesh P) := s.he.prev
/-- searchable_mesh.rs L176-178 -/
def edgeTwin (s : SearchableMesh P) := s.he.twin
/-- searchable_mesh.rs L180-182 -/
def edgeFace (s : SearchableMesh P) := s.he.face

/-- is_searchable_mesh.rs L70-85: the new `result` (an edge without face ends with an error, the
faces pushed before stay in `result`). -/
def facesOfVertex (s : SearchableMesh P) (v : Nat) (result : List Nat) : List Nat × Res Unit :=
  match s.edgesOriginatingFromVertex v with
  | .error e => (result, .error e)
  | .ok cache => go cache result
where
  go : List Nat → List Nat → List Nat × Res Unit
    | [], result => (result, .ok ())
    | e :: es, result =>
      match s.edgeFace e with
      | some f => go es (result ++ [f])
      | none => (result, .error .IncorrectEdgeID)

/-- is_searchable_mesh.rs L93-97 -/
def addTwinFace (s : SearchableMesh P) (result : List Nat) (e : Nat) : List Nat :=
  match s.edgeTwin e with
  | none => result
  | some t => match s.edgeFace t with
    | none => result
    | some f => result ++ [f]

/-- is_searchable_mesh.rs L87-104 -/
def faceEdgeNeighbours (s : SearchableMesh P) (f : Nat) (result : List Nat) :
    List Nat × Res Unit :=
  match s.edgesOfFace f with
  | none => (result, .error .IncorrectFaceID)
  | some (e1, e2, e3) =>
    (s.addTwinFace (s.addTwinFace (s.addTwinFace result e1) e2) e3, .ok ())

/-- `Vec::dedup` : removes consecutive equal elements. `/repo/src/is_searchable_mesh.rs` L126, `/repo/src/unify_faces.rs` L158 -/
def dedupConsecutive : List Nat → List Nat
  | [] => []
  | [x] => [x]
  | x :: y :: r => if x = y then dedupConsecutive (y :: r) else x :: dedupConsecutive (y :: r)

/-- is_searchable_mesh.rs L107-128 -/
def faceVertexNeighbours (s : SearchableMesh P) (f : Nat) (result : List Nat) :
    List Nat × Res Unit :=
  match s.mesh.faceVertexIds f with
  | none => (result, .error .IncorrectFaceID)
  | some vids =>
    match s.facesOfVertex vids.a result with
    | (result, .error e) => (result, .error e)
    | (result, .ok _) =>
      match s.facesOfVertex vids.b result with
      | (result, .error e) => (result, .error e)
      | (result, .ok _) =>
        match s.facesOfVertex vids.c result with
        | (result, .error e) => (result, .error e)
        | (result, .ok _) =>
          (dedupConsecutive (stableSort (fun a b => decide (a ≤ b)) result), .ok ())

end SearchableMesh
end R3D

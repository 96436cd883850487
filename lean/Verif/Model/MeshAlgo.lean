import Verif.Model.HalfEdge
/-
Algorithms on whole meshes: `pack_dupes_indexed`, `heal_mesh`, `subdivide::linear`, `unify_faces`.
Meshes are `TMesh` (see `Model/Mesh.lean`). `Panics (Res α)`: outer `none` = panic.
`HashMap`s are association lists with the key equality (`List.lookup` returns the newest entry;
keys are inserted only when absent).
-/
namespace R3D

/-! ### `/repo/src/utils.rs` L80-98 -/

/-- One turn of the loop `/repo/src/utils.rs` L88-95: `(map, packed_data, ids)`. -/
def packStep {T : Type} [DecidableEq T] (st : List (T × Nat) × List T × List Nat) (x : T) :
    List (T × Nat) × List T × List Nat :=
  let (map, packed, ids) := st
  match map.lookup x with
  | some id => (map, packed, ids ++ [id])
  | none => ((x, packed.length) :: map, packed ++ [x], ids ++ [packed.length])

/-- utils.rs L80-98. Keys are compared with a lawful equality. -/
def packDupesIndexed {T : Type} [DecidableEq T] (xs : List T) : List T × List Nat :=
  (xs.foldl packStep ([], [], [])).2

namespace TMesh
variable {P : Type}

/-! ### `/repo/src/heal_mesh.rs` L32-68 -/

/-- heal_mesh.rs L59-65 -/
def healLoop (indices : List Nat) : List Nat → TMesh P → Panics (Res (TMesh P))
  | [], r => some (.ok r)
  | f :: fs, r => do
    let a ← indices[3 * f + 0]?
    let b ← indices[3 * f + 1]?
    let c ← indices[3 * f + 2]?
    if a = b ∨ a = c ∨ b = c then healLoop indices fs r
    else match r.tryAddConnection a b c with
      | (r, .ok _) => healLoop indices fs r
      | (_, .error e) => some (.error e)

/-- heal_mesh.rs L32-68 -/
def healMesh [DecidableEq P] (m : TMesh P) : Panics (Res (TMesh P)) := do
  let tris ← (List.range m.numFaces).mapM m.faceVertices
  let duped := tris.flatMap fun t => [t.1, t.2.1, t.2.2]
  let (unduped, indices) := packDupesIndexed duped
  let nfNew := indices.length / 3
  let result := unduped.foldl (fun r x => (r.addVertex x).1) TMesh.empty
  healLoop indices (List.range nfNew) result

/-! ### `/repo/src/subdivide.rs` L36-81

`center` is `center_nd` (`/repo/src/is_buildable_nd.rs` L45-64) of the vertex type; its `unwrap`
cannot fail for the vertex types of the library. -/

/-- subdivide.rs L64-66 (67-69, 70-72): look the undirected edge up or add its midpoint. -/
def edgeVertex (center : P → P → P) (st : TMesh P × List ((Nat × Nat) × Nat)) (i j : Nat) (p q : P) :
    (TMesh P × List ((Nat × Nat) × Nat)) × Nat :=
  let key := (min i j, max i j)
  match st.2.lookup key with
  | some id => (st, id)
  | none =>
    let (mo, id) := st.1.addVertex (center p q)
    ((mo, (key, id) :: st.2), id)

/-- subdivide.rs L57-78 -/
def linearLoop (center : P → P → P) (mi : TMesh P) :
    List Nat → TMesh P × List ((Nat × Nat) × Nat) → Panics (Res (TMesh P))
  | [], st => some (.ok st.1)
  | i :: is, st => do
    let f ← mi.faceVertexIds i
    let (v1, v2, v3) ← mi.faceVertices i
    let (st, ia) := edgeVertex center st f.a f.b v1 v2
    let (st, ib) := edgeVertex center st f.b f.c v2 v3
    let (st, ic) := edgeVertex center st f.c f.a v3 v1
    match st.1.tryAddConnection f.a ia ic with
    | (_, .error e) => some (.error e)
    | (mo, .ok _) =>
      match mo.tryAddConnection ia f.b ib with
      | (_, .error e) => some (.error e)
      | (mo, .ok _) =>
        match mo.tryAddConnection ia ib ic with
        | (_, .error e) => some (.error e)
        | (mo, .ok _) =>
          match mo.tryAddConnection ic ib f.c with
          | (_, .error e) => some (.error e)
          | (mo, .ok _) => linearLoop center mi is (mo, st.2)

/-- subdivide.rs L36-81 (the copy loop L52-55 reads every vertex, so it copies the list). -/
def linear (center : P → P → P) (mi : TMesh P) : Panics (Res (TMesh P)) := do
  let vs ← (List.range mi.numVertices).mapM mi.vertex
  let mo := vs.foldl (fun r x => (r.addVertex x).1) TMesh.empty
  linearLoop center mi (List.range mi.numFaces) (mo, [])

/-! ### `/repo/src/unify_faces.rs`

`opp s t` stands for `normal_of_face(s).dot(normal_of_face(t)) < 0.0` (L71, L79, L81). -/

/-- unify_faces.rs L131-133: `v_to_f[v].insert(i)`, sets as lists, panics out of range. -/
def vtfInsert (vtf : List (List Nat)) (v i : Nat) : Panics (List (List Nat)) := do
  let s ← vtf[v]?
  return vtf.set v (if i ∈ s then s else i :: s)

/-- unify_faces.rs L120-137 -/
def vertexToFace (m : TMesh P) : Panics (List (List Nat)) :=
  (List.range m.numFaces).foldlM (fun vtf i => do
    let f ← m.faceVertexIds i
    let vtf ← vtfInsert vtf f.a i
    let vtf ← vtfInsert vtf f.b i
    vtfInsert vtf f.c i) (List.replicate m.numVertices [])

/-- unify_faces.rs L141-161 (`neighbours` is empty on entry, L67). The iteration order of the
hash sets is not observable because of the `sort`. -/
def collectNeighbourFaces (m : TMesh P) (vtf : List (List Nat)) (fid : Nat) :
    Panics (Res (List Nat)) :=
  match m.faceVertexIds fid with
  | none => some (.error .IncorrectFaceID)
  | some f => do
    let na ← vtf[f.a]?
    let nb ← vtf[f.b]?
    let nc ← vtf[f.c]?
    let sorted := stableSort (fun a b => decide (a ≤ b)) (na ++ nb ++ nc)
    return .ok ((SearchableMesh.dedupConsecutive sorted).filter (fun x => decide (x ≠ fid)))

/-- The three growing variables of `unify_faces`: `checked`, `must_flip` (bit vectors) and
`frontier` (head = end of the Rust vector). `/repo/src/unify_faces.rs` L42-44 -/
structure UnifyState where
  checked : List Bool
  mustFlip : List Bool
  frontier : List Nat

/-- unify_faces.rs L73-93 -/
def unifyNeighbours (opp : P × P × P → P × P × P → Bool) (m : TMesh P) (this : Nat)
    (t : P × P × P) : List Nat → UnifyState → Panics UnifyState
  | [], s => some s
  | n :: ns, s => do
    let c ← s.checked[n]?
    if c then unifyNeighbours opp m this t ns s
    else
      let tn ← m.faceVertices n
      let areDifferent := opp t tn
      let flipThis ← s.mustFlip[this]?
      let mf ← vecSet s.mustFlip n (if flipThis then !areDifferent else areDifferent)
      let ch ← vecSet s.checked n true
      unifyNeighbours opp m this t ns ⟨ch, mf, n :: s.frontier⟩

/-- unify_faces.rs L66-94: `fuel` bounds the number of pops; running out of fuel is an explicit
failure (`none`), excluded by the theorems. -/
def unifyDrain (opp : P × P × P → P × P × P → Bool) (m : TMesh P) (vtf : List (List Nat)) :
    Nat → UnifyState → Panics (Res UnifyState)
  | 0, s => if s.frontier.isEmpty then some (.ok s) else none
  | fuel + 1, s =>
    match s.frontier with
    | [] => some (.ok s)
    | this :: rest => do
      match ← collectNeighbourFaces m vtf this with
      | .error e => return .error e
      | .ok ns =>
        let t ← m.faceVertices this
        let s ← unifyNeighbours opp m this t ns { s with frontier := rest }
        unifyDrain opp m vtf fuel s

/-- unify_faces.rs L48-95: `checked_lowest` runs once through all faces; each unchecked face is
pushed, marked, and the frontier is drained before the scan goes on. -/
def unifyScan (opp : P × P × P → P × P × P → Bool) (m : TMesh P) (vtf : List (List Nat)) :
    List Nat → UnifyState → Panics (Res UnifyState)
  | [], s => some (.ok s)
  | i :: is, s => do
    let c ← s.checked[i]?
    if c then unifyScan opp m vtf is s
    else
      let ch ← vecSet s.checked i true
      match ← unifyDrain opp m vtf (m.numFaces + 1) { s with checked := ch, frontier := i :: s.frontier } with
      | .error e => return .error e
      | .ok s => unifyScan opp m vtf is s

/-- unify_faces.rs L104-113 -/
def unifyEmit (m : TMesh P) (mustFlip : List Bool) : List Nat → TMesh P → Panics (TMesh P)
  | [], r => some r
  | i :: is, r => do
    let f ← m.faceVertexIds i
    let flip ← mustFlip[i]?
    match (if flip then r.tryAddConnection f.a f.c f.b else r.tryAddConnection f.a f.b f.c) with
    | (r, .ok _) => unifyEmit m mustFlip is r
    | (_, .error _) => none

/-- unify_faces.rs L34-116 -/
def unifyFaces (opp : P × P × P → P × P × P → Bool) (m : TMesh P) : Panics (Res (TMesh P)) := do
  let vtf ← vertexToFace m
  let s0 : UnifyState := ⟨List.replicate m.numFaces false, List.replicate m.numFaces false, []⟩
  match ← unifyScan opp m vtf (List.range m.numFaces) s0 with
  | .error e => return .error e
  | .ok s =>
    let vs ← (List.range m.numVertices).mapM m.vertex
    let r := vs.foldl (fun r x => (r.addVertex x).1) TMesh.empty
    let r ← unifyEmit m s.mustFlip (List.range m.numFaces) r
    return .ok r

end TMesh
end R3D

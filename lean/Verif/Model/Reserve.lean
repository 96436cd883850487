import Verif.Model.TextLoad
import Verif.Model.Las
import Verif.Model.Ply
/-
Reserving memory for the number of elements a file announces. The loaders of `Model/TextLoad`, `Model/Las` and `Model/Ply` leave it out;
here they are repeated with it, for a target whose containers are `Vec`s: points take 24 bytes, vertex ids 8 (`VId(usize)`).
A failing allocation (which aborts) is not modelled, it depends on the machine.
-/
namespace R3D
variable {α : Type}

/-- `Vec::reserve` (standard library) of a vector of `len` elements of `size` bytes: panics if the new capacity exceeds `isize::MAX` bytes;
for `/repo/src/impls/vec.rs` L50-52 -/
def vecReserve (size len n : Nat) : Panics Unit := if (len + n) * size < 2 ^ 63 then some () else none

/-- `reserve` of point containers, `/repo/src/impls/vec.rs` L50-52, `/repo/src/point_cloud_3d.rs` L187-189 -/
def reservePoints {P : Type} (l : List P) (n _m : Nat) : Panics Unit := vecReserve 24 l.length n

/-- `reserve_vertices(n)` and `reserve_faces(k)`, `/repo/src/mesh_3d.rs` L142-144, L117-119; `3 * k` beyond `usize` panics -/
def reserveMesh {P : Type} (m : TMesh P) (n k : Nat) : Panics Unit := do
  vecReserve 24 m.verts.length n
  if 3 * k < 2 ^ 64 then vecReserve 8 (3 * m.faces.length) (3 * k) else none

/-- `for rd in iterator { match rd? { Reserve(..) => .., .. } }`; e.g. `/repo/src/io/off.rs` L311-326 -/
def forEachR {σ ε P μ : Type} (next : σ → Panics (Option (Except ε (Item P)) × σ)) (reserve : μ → Nat → Nat → Panics Unit)
    (push : μ → Item P → μ × Except ε Unit) : Nat → σ → μ → Panics (μ × Except ε Unit)
  | 0, _, _ => none
  | n + 1, s, m =>
    match next s with
    | none => none
    | some (.none, _) => some (m, .ok ())
    | some (.some (.error e), _) => some (m, .error e)
    | some (.some (.ok (.reserve v f)), s') =>
      match reserve m v f with
      | none => none
      | some () => forEachR next reserve push n s' m
    | some (.some (.ok a), s') =>
      match push m a with
      | (m', .ok ()) => forEachR next reserve push n s' m'
      | (m', .error e) => some (m', .error e)

/-- `/repo/src/io/off.rs` L303-329 -/
def loadOffMeshR (T : FloatText α) (input : Bytes) (m : TMesh (Point3D α)) :
    Panics (TMesh (Point3D α) × Except (LineInfo OffError) Unit) :=
  forEachR (fun s => some (offMeshNext T s)) reserveMesh offPush ((lines input).length + 1) ⟨lines input, false, 0, false, none, 0⟩ m

/-- `/repo/src/io/off.rs` L332-348 -/
def loadOffPointsR (T : FloatText α) (input : Bytes) (ip : List (Point3D α)) : Panics (List (Point3D α) × Except (LineInfo OffError) Unit) :=
  forEachR (fun s => some (offPointsNext T s)) reservePoints pushItem ((lines input).length + 1) ⟨lines input, false, 0, false, none, 0⟩ ip

/-- `/repo/src/io/pts.rs` L178-194 -/
def loadPtsR (T : FloatText α) (input : Bytes) (ip : List (Point3D α)) : Panics (List (Point3D α) × Except (LineInfo PtsError) Unit) :=
  forEachR (fun s => some (ptsNext T s)) reservePoints pushItem ((lines input).length + 1) ⟨lines input, false, 0, none, 0⟩ ip

/-- `/repo/src/io/ptx.rs` L227-243 -/
def loadPtxR [Scalar α] (T : FloatText α) (input : Bytes) (ip : List (Point3D α)) : Panics (List (Point3D α) × Except (LineInfo PtxError) Unit) :=
  forEachR (ptxNext T) reservePoints pushItem ((lines input).length + 1) (PtxIter.new input) ip

/-- `/repo/src/io/las/load.rs` L142-158 -/
def loadLasR (file : Bytes) (ip : List (Point3D F64)) : Panics (List (Point3D F64) × Except LasError Unit) :=
  forEachR lasNext reservePoints (fun m x => (lasPush m x, .ok ())) (file.length + 3) ⟨file, file, false, 0, none⟩ ip

/-- `/repo/src/io/ply/load.rs` L86-112 -/
def loadPlyMeshR (T : FloatText F64) (read : Bytes) (m : TMesh PlyPoint) : Panics (TMesh PlyPoint × Except (LineInfo PlyError) Unit) :=
  match PlyMeshIter.new read with
  | none => none
  | some (.error e) => some (m, .error e)
  | some (.ok it) => forEachR (fun s => some (plyMeshNext T s)) reserveMesh plyPush (read.length + 3) it m

/-- `/repo/src/io/ply/load.rs` L117-133 -/
def loadPlyPointsR (T : FloatText F64) (read : Bytes) (ip : List PlyPoint) : Panics (List PlyPoint × Except (LineInfo PlyError) Unit) :=
  match PlyPointsIter.new read with
  | none => none
  | some (.error e) => some (ip, .error e)
  | some (.ok it) => forEachR (fun s => some (plyPointsNext T s)) reservePoints pushItem (read.length + 3) it ip

/-- `/repo/src/io/ply/load.rs` L36-83 -/
def loadPlyEitherR (T : FloatText F64) (read : Bytes) (m : TMesh PlyPoint) (ip : List PlyPoint) :
    Panics (TMesh PlyPoint × List PlyPoint × Except (LineInfo PlyError) MeshOrPoints) :=
  match plyLoadHeader read with
  | none => none
  | some (.error e) => some (m, ip, .error e)
  | some (.ok (h, rest, i)) =>
    match h.face with
    | some f => do
      reserveMesh m h.vertex.count f.count
      (forEachR (fun s => some (plyMeshInner T h.format h.vertex f s)) reserveMesh plyPush (read.length + 3)
        (.points ⟨rest, false, 0, i⟩) m).map fun r => (r.1, ip, r.2.map fun _ => .Mesh)
    | none => do
      reservePoints ip h.vertex.count 0
      (forEachR (fun s => let r := plyPointsInner T h.format h.vertex s; some (plyData r.1, r.2)) reservePoints pushItem (read.length + 3)
        ⟨rest, false, 0, i⟩ ip).map fun r => (m, r.1, r.2.map fun _ => .Points)

end R3D

import Verif.Model.ByteCodec
import Verif.Model.TextLoad
import Verif.Model.Intersect
/-!
`/repo/src/io/stl.rs`, in `f64` arithmetic.

A reader is the list of the bytes left. `FnvHashMap::entry` is modelled by a relation `same`: a key finds the entry of the
first stored key it is the same as.
-/
namespace R3D

/-- `/repo/src/io/stl.rs` L653-663 -/
inductive StlError where
  | LoadFileEndReached
  | AccessFile
  | BinaryData
  | InvalidFaceCount
  | Facet
  | EndFacet
  | Vertex
  | Loop
  | EndLoop
deriving DecidableEq, Repr

/-- `/repo/src/io/stl.rs` L638-642 -/
inductive StlFormat where
  | Ascii
  | Binary
  | Auto
deriving DecidableEq, Repr

/-- `/repo/src/io/stl.rs` L46-51 -/
structure StlFace (P : Type) where
  a : P
  b : P
  c : P
  n : P
deriving DecidableEq, Repr

/-- `/repo/src/io/types.rs` L41-44 `DataReserve<StlFace<P>>` -/
inductive StlItem (P : Type) where
  | reserve (n : Nat)
  | data (f : StlFace P)
deriving DecidableEq, Repr

/-- `/repo/src/io/stl.rs` L42 -/
def maxTrianglesBinary : Nat := 1000000000

/-- the points of this file; `P` of `/repo/src/io/stl.rs` L336 -/
abbrev StlPoint := Point3D F64

/-! ### saving -/

/-- `/repo/src/is_mesh_3d.rs` L35-46 -/
def faceNormal (m : TMesh StlPoint) (f : Nat) : Panics (Res StlPoint) :=
  match m.faceVertices f with
  | none => some (.error .IncorrectFaceID)
  | some (v1, v2, v3) => Norm3D.new ((conn v1 v2).cross (conn v2 v3))

/-- `/repo/src/io/stl.rs` L627-632; `T.fmt` is `{:e}` -/
def strExp (T : FloatText F64) (p : StlPoint) : Bytes := T.fmt p.x ++ b!" " ++ T.fmt p.y ++ b!" " ++ T.fmt p.z

/-- the loop body of `/repo/src/io/stl.rs` L64-83; both `unwrap`s are panics -/
def stlFacetText (T : FloatText F64) (m : TMesh StlPoint) (f : Nat) : Panics Bytes := do
  let (v1, v2, v3) ← m.faceVertices f
  match ← faceNormal m f with
  | .error _ => none
  | .ok n =>
    return b!"facet normal " ++ strExp T n ++ b!"\n" ++ b!"    outer loop\n" ++ b!"        vertex " ++ strExp T v1 ++ b!"\n" ++
      b!"        vertex " ++ strExp T v2 ++ b!"\n" ++ b!"        vertex " ++ strExp T v3 ++ b!"\n" ++ b!"    endloop\n" ++
      b!"endfacet\n"

/-- `/repo/src/io/stl.rs` L56-87: all bytes written -/
def saveStlAscii (T : FloatText F64) (m : TMesh StlPoint) : Panics Bytes := do
  let facets ← (List.range m.numFaces).mapM (stlFacetText T m)
  return b!"solid STL generated by rust-3d\n" ++ facets.flatten ++ b!"endsolid STL generated by rust-3d\n"

/-! ### the binary iterator -/

/-- `/repo/src/io/stl.rs` L152-163 -/
structure StlBinaryIter where
  read : Bytes
  isDone : Bool
  headerRead : Bool
  nTriangles : Nat
  current : Nat
deriving DecidableEq, Repr

/-- a point from three numbers; `P::new`, `/repo/src/io/stl.rs` L230-233, L601 -/
def stlPoint : List F64 → Option StlPoint
  | [x, y, z] => some ⟨x, y, z⟩
  | _ => none

/-- `array_from_bytes_le!(f32, 3, ..)?` and `P::new(..[0] as f64, ..)` (`/repo/src/io/stl.rs` L507-512, L230-233) -/
def stlPointFromBytes (bs : Bytes) : Panics (Except StlError StlPoint) :=
  match arrayFromBytes 4 (F64.ofBytes32 .little) 3 bs with
  | none => none
  | some (.error _) => some (.error .BinaryData)
  | some (.ok xs) => (stlPoint xs).map .ok

/-- `/repo/src/io/stl.rs` L499-513 and L229-236; the order of the results is that of `StlFace` -/
def readStlTriangle (s : Bytes) : Panics (Except StlError (StlFace StlPoint) × Bytes) :=
  match readExact 50 s with
  | none => some (.error .AccessFile, [])
  | some (buffer, rest) =>
    match stlPointFromBytes (buffer.take 12), stlPointFromBytes ((buffer.drop 12).take 12),
        stlPointFromBytes ((buffer.drop 24).take 12), stlPointFromBytes ((buffer.drop 36).take 12) with
    | some (.ok n), some (.ok a), some (.ok b), some (.ok c) => some (.ok ⟨a, b, c, n⟩, rest)
    | none, _, _, _ | _, none, _, _ | _, _, none, _ | _, _, _, none => none
    | _, _, _, _ => some (.error .BinaryData, rest)

/-- `/repo/src/io/stl.rs` L188-242 -/
def stlBinaryNext (s : StlBinaryIter) : Panics (Option (Except (LineInfo StlError) (StlItem StlPoint)) × StlBinaryIter) :=
  if s.isDone then some (none, s)
  else if !s.headerRead then
    match readExact 75 s.read with
    | none => some (some (.error (.none .AccessFile)), { s with read := [], headerRead := true, isDone := true })
    | some (_, rest) =>
      match readNat .little 4 rest with
      | none => some (some (.error (.none .AccessFile)), { s with read := [], headerRead := true, isDone := true })
      | some (n, rest) =>
        if n > maxTrianglesBinary then
          some (some (.error (.none .InvalidFaceCount)), { s with read := rest, headerRead := true, isDone := true })
        else some (some (.ok (.reserve n)), { s with read := rest, headerRead := true, nTriangles := n })
  else if s.current < s.nTriangles then
    match readStlTriangle s.read with
    | none => none
    | some (.error e, rest) => some (some (.error (.none e)), { s with read := rest, current := s.current + 1, isDone := true })
    | some (.ok t, rest) => some (some (.ok (.data t)), { s with read := rest, current := s.current + 1 })
  else some (none, { s with isDone := true })

/-! ### the ASCII iterator -/

/-- `/repo/src/io/stl.rs` L254-265 -/
structure StlAsciiIter where
  read : Bytes
  isDone : Bool
  headerRead : Bool
  iLine : Nat
deriving DecidableEq, Repr

/-- code using `?` on the reader and the line counter; as in `/repo/src/io/stl.rs` L517-584 -/
abbrev StlM (β : Type) := ExceptT (LineInfo StlError) (StateM (Bytes × Nat)) β

/-- `fetch_line(read, line_buffer).index(*i_line)?; *i_line += 1`; `/repo/src/io/stl.rs` L528-529 -/
def stlLine : StlM Bytes := fun s =>
  match fetchLine s.1 with
  | none => (.error (.index s.2 .LoadFileEndReached), s)
  | some (l, rest) => (.ok l, (rest, s.2 + 1))

/-- `return Err(e).line(*i_line, line)`; `/repo/src/io/stl.rs` L532, L536 -/
def stlFail {β : Type} (e : StlError) (line : Bytes) : StlM β := fun s => (.error (.line s.2 line e), s)

/-- three numbers starting with the `n`-th word; `/repo/src/io/stl.rs` L597-599, L618-620 -/
def stlNumbers (T : FloatText F64) (words : List Bytes) (n : Nat) : Option StlPoint := do
  let x ← nthNum T.parse words n
  let y ← nthNum T.parse words (n + 1)
  let z ← nthNum T.parse words (n + 2)
  return ⟨x, y, z⟩

/-- `/repo/src/io/stl.rs` L588-602 -/
def readStlVertex (T : FloatText F64) (line : Bytes) : Option StlPoint := stlNumbers T (toWords line) 1

/-- `/repo/src/io/stl.rs` L606-623 -/
def readStlNormal (T : FloatText F64) (line : Bytes) : Option StlPoint := stlNumbers T (toWords line) 2

/-- `line = fetch_line(..)?; read_stl_vertex(&line).ok_or(StlError::Vertex).line(*i_line, line)?`
(`/repo/src/io/stl.rs` L548-567) -/
def stlVertexLine (T : FloatText F64) : StlM StlPoint := do
  let line ← stlLine
  match readStlVertex T line with
  | some p => return p
  | none => stlFail .Vertex line

/-- `line = trim_start(fetch_line(..)?); if !line.starts_with(keyword) { return Err(e).line(*i_line, line) }`; `/repo/src/io/stl.rs` L541-546 -/
def stlKeywordLine (keyword : Bytes) (e : StlError) : StlM Unit := do
  let line := trimStart (← stlLine)
  if startsWith line keyword then return () else stlFail e line

/-- the first line of a facet and its normal (`/repo/src/io/stl.rs` L528-539) -/
def stlFacetLine (T : FloatText F64) : StlM StlPoint := do
  let line := trimStart (← stlLine)
  if startsWith line b!"endsolid" then stlFail .LoadFileEndReached line
  else if !startsWith line b!"facet" then stlFail .Facet line
  else return (readStlNormal T line).getD ⟨.fin false 0, .fin false 0, .fin false 1⟩

/-- `/repo/src/io/stl.rs` L517-584 -/
def readStlFacet (T : FloatText F64) : StlM (StlFace StlPoint) := do
  let n ← stlFacetLine T
  stlKeywordLine b!"outer loop" .Loop
  let a ← stlVertexLine T
  let b ← stlVertexLine T
  let c ← stlVertexLine T
  stlKeywordLine b!"endloop" .EndLoop
  stlKeywordLine b!"endfacet" .EndFacet
  return ⟨a, b, c, n⟩

/-- the error below the line information; for `/repo/src/io/stl.rs` L312-314 -/
def LineInfo.err {ε : Type} : LineInfo ε → ε
  | .none e => e
  | .index _ e => e
  | .line _ _ e => e

/-- `/repo/src/io/stl.rs` L291-323; `read_until` does not fail on bytes -/
def stlAsciiNext (T : FloatText F64) (s : StlAsciiIter) :
    Panics (Option (Except (LineInfo StlError) (StlItem StlPoint)) × StlAsciiIter) :=
  if s.isDone then some (none, s)
  else
    let start := if s.headerRead then (s.read, s.iLine) else ((readUntilNl s.read).2, s.iLine + 1)
    match readStlFacet T start with
    | (.ok f, (read, i)) => some (some (.ok (.data f)), ⟨read, false, true, i⟩)
    | (.error e, (read, i)) =>
      if e.err = .LoadFileEndReached then some (none, ⟨read, true, true, i⟩)
      else some (some (.error e), ⟨read, true, true, i⟩)

/-! ### the iterator -/

/-- `/repo/src/io/stl.rs` L141-148 -/
inductive StlIter where
  | Binary (s : StlBinaryIter)
  | Ascii (s : StlAsciiIter)
deriving DecidableEq, Repr

/-- `/repo/src/io/stl.rs` L465-489 and L104-114; the first five bytes are always consumed -/
def stlNew (read : Bytes) (format : StlFormat) : Except (LineInfo StlError) StlIter :=
  match readExact 5 read with
  | none => .error (.none .AccessFile)
  | some (buffer, rest) =>
    let ascii := match format with
      | .Ascii => true
      | .Binary => false
      | .Auto => buffer == b!"solid"
    .ok (if ascii then .Ascii ⟨rest, false, false, 0⟩ else .Binary ⟨rest, false, false, 0, 0⟩)

/-- `/repo/src/io/stl.rs` L124-129 -/
def stlNext (T : FloatText F64) :
    StlIter → Panics (Option (Except (LineInfo StlError) (StlItem StlPoint)) × StlIter)
  | .Binary s => (stlBinaryNext s).map fun r => (r.1, .Binary r.2)
  | .Ascii s => (stlAsciiNext T s).map fun r => (r.1, .Ascii r.2)

/-- `let iterator = StlIterator::new(read, format)?; for fr in iterator { match fr? {..} }`; every item consumes a byte
but for the first, so that the fuel suffices; `/repo/src/io/stl.rs` L348-350, L382-384, L441-443 -/
def stlForEach {μ : Type} (T : FloatText F64) (push : μ → StlItem StlPoint → μ) (read : Bytes) (format : StlFormat) (m : μ) :
    Panics (μ × Except (LineInfo StlError) Unit) :=
  match stlNew read format with
  | .error e => some (m, .error e)
  | .ok s => forEach (stlNext T) (fun m x => (push m x, .ok ())) (read.length + 3) s m

/-! ### loading -/

/-- the loop body of `/repo/src/io/stl.rs` L350-361 -/
def stlPushDuped (m : TMesh StlPoint × List StlPoint) : StlItem StlPoint → TMesh StlPoint × List StlPoint
  | .reserve _ => m
  | .data f => ((m.1.addFace f.a f.b f.c).1, m.2 ++ [f.n])

/-- `/repo/src/io/stl.rs` L336-365 -/
def loadStlMeshDuped (T : FloatText F64) (read : Bytes) (format : StlFormat) (mesh : TMesh StlPoint) (normals : List StlPoint) :
    Panics ((TMesh StlPoint × List StlPoint) × Except (LineInfo StlError) Unit) :=
  stlForEach T stlPushDuped read format (mesh, normals)

/-- the variables of `/repo/src/io/stl.rs` L381-421 -/
structure StlUnique where
  mesh : TMesh StlPoint
  map : List (StlPoint × Nat)
  normals : List StlPoint
deriving DecidableEq, Repr

/-- `*map.entry(p.clone()).or_insert_with(|| { let value = mesh.num_vertices(); mesh.add_vertex(p); value })`
(`/repo/src/io/stl.rs` L393-409) -/
def stlVertexId (same : StlPoint → StlPoint → Bool) (s : StlUnique) (p : StlPoint) : StlUnique × Nat :=
  match s.map.find? fun e => same e.1 p with
  | some e => (s, e.2)
  | none => ({ s with mesh := (s.mesh.addVertex p).1, map := s.map ++ [(p, s.mesh.numVertices)] }, s.mesh.numVertices)

/-- the loop body of `/repo/src/io/stl.rs` L385-420 -/
def stlPushUnique (same : StlPoint → StlPoint → Bool) (s : StlUnique) : StlItem StlPoint → StlUnique
  | .reserve _ => s
  | .data f =>
    let (s, a) := stlVertexId same s f.a
    let (s, b) := stlVertexId same s f.b
    let (s, c) := stlVertexId same s f.c
    match s.mesh.tryAddConnection a b c with
    | (m, .ok _) => { s with mesh := m, normals := s.normals ++ [f.n] }
    | (m, .error _) => { s with mesh := m }

/-- `/repo/src/io/stl.rs` L369-424 -/
def loadStlMeshUnique (same : StlPoint → StlPoint → Bool) (T : FloatText F64) (read : Bytes) (format : StlFormat)
    (mesh : TMesh StlPoint) (normals : List StlPoint) :
    Panics ((TMesh StlPoint × List StlPoint) × Except (LineInfo StlError) Unit) :=
  (stlForEach T (stlPushUnique same) read format ⟨mesh, [], normals⟩).map fun r => ((r.1.mesh, r.1.normals), r.2)

/-- the loop body of `/repo/src/io/stl.rs` L444-455 -/
def stlPushTriplets (m : List StlPoint × List StlPoint) : StlItem StlPoint → List StlPoint × List StlPoint
  | .reserve _ => m
  | .data f => (m.1 ++ [f.a, f.b, f.c], m.2 ++ [f.n])

/-- `/repo/src/io/stl.rs` L429-460 -/
def loadStlTriplets (T : FloatText F64) (read : Bytes) (format : StlFormat) (ip normals : List StlPoint) :
    Panics ((List StlPoint × List StlPoint) × Except (LineInfo StlError) Unit) :=
  stlForEach T stlPushTriplets read format (ip, normals)

end R3D

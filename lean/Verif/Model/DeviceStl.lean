import Verif.Model.Device
import Verif.Model.Stl
/-!
`/repo/src/io/stl.rs` on readers that hand over their data in portions and may fail (`Model/Device.lean`).

Simplifications: those of `Model/Stl.lean` and `Model/Device.lean`.
-/
namespace R3D

/-- `/repo/src/io/stl.rs` L499-513 and L229-236; the reader after the call is the second component -/
def devStlTriangle (d : Device) : Panics (Except StlError (StlFace StlPoint) × Device) :=
  match d.readExact 50 with
  | (none, d) => some (.error .AccessFile, d)
  | (some buffer, d) =>
    match stlPointFromBytes (buffer.take 12), stlPointFromBytes ((buffer.drop 12).take 12),
        stlPointFromBytes ((buffer.drop 24).take 12), stlPointFromBytes ((buffer.drop 36).take 12) with
    | some (.ok n), some (.ok a), some (.ok b), some (.ok c) => some (.ok ⟨a, b, c, n⟩, d)
    | none, _, _, _ | _, none, _, _ | _, _, none, _ | _, _, _, none => none
    | _, _, _, _ => some (.error .BinaryData, d)

/-- `/repo/src/io/stl.rs` L152-163 -/
structure DevStlBinary where
  read : Device
  isDone : Bool
  headerRead : Bool
  nTriangles : Nat
  current : Nat
deriving DecidableEq, Repr

/-- `/repo/src/io/stl.rs` L188-242 -/
def devStlBinaryNext (s : DevStlBinary) : Panics (Option (Except (LineInfo StlError) (StlItem StlPoint)) × DevStlBinary) :=
  if s.isDone then some (none, s)
  else if !s.headerRead then
    match s.read.readExact 75 with
    | (none, d) => some (some (.error (.none .AccessFile)), { s with read := d, headerRead := true, isDone := true })
    | (some _, d) =>
      match d.readExact 4 with
      | (none, d) => some (some (.error (.none .AccessFile)), { s with read := d, headerRead := true, isDone := true })
      | (some b, d) =>
        if natOfBytes .little b > maxTrianglesBinary then
          some (some (.error (.none .InvalidFaceCount)), { s with read := d, headerRead := true, isDone := true })
        else some (some (.ok (.reserve (natOfBytes .little b))), { s with read := d, headerRead := true, nTriangles := natOfBytes .little b })
  else if s.current < s.nTriangles then
    match devStlTriangle s.read with
    | none => none
    | some (.error e, d) => some (some (.error (.none e)), { s with read := d, current := s.current + 1, isDone := true })
    | some (.ok t, d) => some (some (.ok (.data t)), { s with read := d, current := s.current + 1 })
  else some (none, { s with isDone := true })

/-- `/repo/src/io/stl.rs` L254-265 -/
structure DevStlAscii where
  read : Device
  isDone : Bool
  headerRead : Bool
  iLine : Nat
deriving DecidableEq, Repr

/-- code using `?` on the reader and the line counter; as in `/repo/src/io/stl.rs` L517-584 -/
abbrev DevStlM (β : Type) := ExceptT (LineInfo StlError) (StateM (Device × Nat)) β

/-- `fetch_line(read, line_buffer).index(*i_line)?; *i_line += 1`: every failure of `fetch_line` becomes `LoadFileEndReached`; `/repo/src/io/stl.rs` L528-529,
L734-738 -/
def devStlLine : DevStlM Bytes := fun s =>
  match s.1.fetchLine with
  | (none, d) => (.error (.index s.2 .LoadFileEndReached), (d, s.2))
  | (some l, d) => (.ok l, (d, s.2 + 1))

/-- `return Err(e).line(*i_line, line)`; `/repo/src/io/stl.rs` L532, L536 -/
def devStlFail {β : Type} (e : StlError) (line : Bytes) : DevStlM β := fun s => (.error (.line s.2 line e), s)

/-- `/repo/src/io/stl.rs` L548-567 -/
def devStlVertexLine (T : FloatText F64) : DevStlM StlPoint := do
  let line ← devStlLine
  match readStlVertex T line with
  | some p => return p
  | none => devStlFail .Vertex line

/-- `/repo/src/io/stl.rs` L541-546 -/
def devStlKeywordLine (keyword : Bytes) (e : StlError) : DevStlM Unit := do
  let line := trimStart (← devStlLine)
  if startsWith line keyword then return () else devStlFail e line

/-- `/repo/src/io/stl.rs` L528-539 -/
def devStlFacetLine (T : FloatText F64) : DevStlM StlPoint := do
  let line := trimStart (← devStlLine)
  if startsWith line b!"endsolid" then devStlFail .LoadFileEndReached line
  else if !startsWith line b!"facet" then devStlFail .Facet line
  else return (readStlNormal T line).getD ⟨.fin false 0, .fin false 0, .fin false 1⟩

/-- `/repo/src/io/stl.rs` L517-584 -/
def devStlFacet (T : FloatText F64) : DevStlM (StlFace StlPoint) := do
  let n ← devStlFacetLine T
  devStlKeywordLine b!"outer loop" .Loop
  let a ← devStlVertexLine T
  let b ← devStlVertexLine T
  let c ← devStlVertexLine T
  devStlKeywordLine b!"endloop" .EndLoop
  devStlKeywordLine b!"endfacet" .EndFacet
  return ⟨a, b, c, n⟩

/-- `/repo/src/io/stl.rs` L308-322 -/
def devStlAsciiFacet (T : FloatText F64) (d : Device) (i : Nat) : Option (Except (LineInfo StlError) (StlItem StlPoint)) × DevStlAscii :=
  match devStlFacet T (d, i) with
  | (.ok f, (d, i)) => (some (.ok (.data f)), ⟨d, false, true, i⟩)
  | (.error e, (d, i)) => if e.err = .LoadFileEndReached then (none, ⟨d, true, true, i⟩) else (some (.error e), ⟨d, true, true, i⟩)

/-- `/repo/src/io/stl.rs` L291-323 -/
def devStlAsciiNext (T : FloatText F64) (s : DevStlAscii) : Option (Except (LineInfo StlError) (StlItem StlPoint)) × DevStlAscii :=
  if s.isDone then (none, s)
  else if s.headerRead then devStlAsciiFacet T s.read s.iLine
  else
    match devUntil s.read.fails s.read.portions with
    | (none, ps) => (some (.error (.index s.iLine .AccessFile)), ⟨{ s.read with portions := ps }, true, true, s.iLine⟩)
    | (some _, ps) => devStlAsciiFacet T { s.read with portions := ps } (s.iLine + 1)

/-- `/repo/src/io/stl.rs` L141-148 -/
inductive DevStl where
  | Binary (s : DevStlBinary)
  | Ascii (s : DevStlAscii)

/-- `/repo/src/io/stl.rs` L465-489 and L104-114 -/
def devStlNew (d : Device) (format : StlFormat) : Except (LineInfo StlError) DevStl :=
  match d.readExact 5 with
  | (none, _) => .error (.none .AccessFile)
  | (some buffer, d) =>
    let ascii := match format with
      | .Ascii => true
      | .Binary => false
      | .Auto => buffer == b!"solid"
    .ok (if ascii then .Ascii ⟨d, false, false, 0⟩ else .Binary ⟨d, false, false, 0, 0⟩)

/-- `/repo/src/io/stl.rs` L124-129 -/
def devStlNext (T : FloatText F64) : DevStl → Panics (Option (Except (LineInfo StlError) (StlItem StlPoint)) × DevStl)
  | .Binary s => (devStlBinaryNext s).map fun r => (r.1, .Binary r.2)
  | .Ascii s => some ((devStlAsciiNext T s).1, .Ascii (devStlAsciiNext T s).2)

/-- `/repo/src/io/stl.rs` L348-350, L382-384, L441-443; the fuel as in `stlForEach` -/
def Device.stlForEach {μ : Type} (T : FloatText F64) (push : μ → StlItem StlPoint → μ) (d : Device) (format : StlFormat) (m : μ) :
    Panics (μ × Except (LineInfo StlError) Unit) :=
  match devStlNew d format with
  | .error e => some (m, .error e)
  | .ok s => forEach (devStlNext T) (fun m x => (push m x, .ok ())) (d.content.length + 3) s m

/-- `/repo/src/io/stl.rs` L336-365 -/
def Device.loadStlMeshDuped (T : FloatText F64) (d : Device) (format : StlFormat) (mesh : TMesh StlPoint) (normals : List StlPoint) :
    Panics ((TMesh StlPoint × List StlPoint) × Except (LineInfo StlError) Unit) :=
  d.stlForEach T stlPushDuped format (mesh, normals)
/-- `/repo/src/io/stl.rs` L369-424 -/
def Device.loadStlMeshUnique (same : StlPoint → StlPoint → Bool) (T : FloatText F64) (d : Device) (format : StlFormat)
    (mesh : TMesh StlPoint) (normals : List StlPoint) : Panics ((TMesh StlPoint × List StlPoint) × Except (LineInfo StlError) Unit) :=
  (d.stlForEach T (stlPushUnique same) format ⟨mesh, [], normals⟩).map fun r => ((r.1.mesh, r.1.normals), r.2)
/-- `/repo/src/io/stl.rs` L429-460 -/
def Device.loadStlTriplets (T : FloatText F64) (d : Device) (format : StlFormat) (ip normals : List StlPoint) :
    Panics ((List StlPoint × List StlPoint) × Except (LineInfo StlError) Unit) :=
  d.stlForEach T stlPushTriplets format (ip, normals)

end R3D

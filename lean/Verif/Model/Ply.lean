import Verif.Model.ByteCodec
import Verif.Model.TextLoad
/-!
`/repo/src/io/ply/`: the header, the iterators, the loaders and the savers.

Simplifications:
* a reader is the list of the bytes left; once a read has met the end of the data nothing is left;
* the savers write to something that takes all bytes it is given (`save_ply_binary` ignores how many bytes `Write::write` took;
  see `Model/Write.lean`);
* the errors do not carry the text or the type that was not accepted.
-/
namespace R3D

/-- the points, `P` of `/repo/src/io/ply/load.rs` L86 -/
abbrev PlyPoint := Point3D F64

/-- `/repo/src/io/ply/types.rs` L285-304 -/
inductive PlyError where
  | LoadStartNotFound
  | LoadFormatNotFound
  | LoadVertexIndexDefinitionNotFound
  | LoadHeaderInvalid
  | LoadVertexCountIncorrect
  | AccessFile
  | ColorArrayIncorrectLength
  | VertexElement
  | FaceElement
  | InvalidType
  | InvalidVertexType
  | InvalidFaceType
  | InvalidMeshIndices
  | InvalidProperty
  | InvalidVertex
  | PropertyLineLocation
  | FaceStructure
  | InvalidVertexDimensionDefinition
deriving DecidableEq, Repr

/-! ### types.rs -/

/-- `/repo/src/io/ply/types.rs` L34-43 -/
inductive PlyType where
  | Char | UChar | Short | UShort | Int | UInt | Float | Double
deriving DecidableEq, Repr

/-- `/repo/src/io/ply/types.rs` L46-58 -/
def PlyType.sizeBytes : PlyType → Nat
  | .Char => 1
  | .UChar => 1
  | .Short => 2
  | .UShort => 2
  | .Int => 4
  | .UInt => 4
  | .Float => 4
  | .Double => 8

/-- `/repo/src/io/ply/types.rs` L67-85 -/
def PlyType.tryFrom (x : Bytes) : Except PlyError PlyType :=
  if x = b!"char" ∨ x = b!"int8" then .ok .Char
  else if x = b!"uchar" ∨ x = b!"uint8" then .ok .UChar
  else if x = b!"short" ∨ x = b!"int16" then .ok .Short
  else if x = b!"ushort" ∨ x = b!"uint16" then .ok .UShort
  else if x = b!"int" ∨ x = b!"int32" then .ok .Int
  else if x = b!"uint" ∨ x = b!"uint32" then .ok .UInt
  else if x = b!"float" ∨ x = b!"float32" then .ok .Float
  else if x = b!"double" ∨ x = b!"float64" then .ok .Double
  else .error .InvalidType

/-- `/repo/src/io/ply/types.rs` L97-101 -/
inductive PlyAxis where
  | X | Y | Z
deriving DecidableEq, Repr

/-- `/repo/src/io/ply/types.rs` L106-113 -/
inductive VertexOrder where
  | Xyz | Xzy | Yxz | Yzx | Zxy | Zyx
deriving DecidableEq, Repr

/-- `/repo/src/io/ply/types.rs` L115-129 -/
def VertexOrder.tryFrom : List PlyAxis → Except PlyError VertexOrder
  | [.X, .Y, .Z] => .ok .Xyz
  | [.X, .Z, .Y] => .ok .Xzy
  | [.Y, .X, .Z] => .ok .Yxz
  | [.Y, .Z, .X] => .ok .Yzx
  | [.Z, .X, .Y] => .ok .Zxy
  | [.Z, .Y, .X] => .ok .Zyx
  | _ => .error .InvalidVertexDimensionDefinition

/-- `/repo/src/io/ply/types.rs` L133-137 -/
structure BytesWords where
  bytes : Nat
  words : Nat
deriving DecidableEq, Repr

/-- `.bytes += t.size_bytes(); .words += 1` (e.g. `/repo/src/io/ply/header.rs` L163-164) -/
def BytesWords.add (b : BytesWords) (t : PlyType) : BytesWords := ⟨b.bytes + t.sizeBytes, b.words + 1⟩

/-- `/repo/src/io/ply/types.rs` L142-145 -/
inductive VertexType where
  | Float | Double
deriving DecidableEq, Repr

/-- `/repo/src/io/ply/types.rs` L147-157 -/
def VertexType.tryFrom : PlyType → Except PlyError VertexType
  | .Float => .ok .Float
  | .Double => .ok .Double
  | _ => .error .InvalidVertexType

/-- `/repo/src/io/ply/types.rs` L162-169 -/
inductive FaceType where
  | Char | UChar | Short | UShort | Int | UInt
deriving DecidableEq, Repr

/-- `/repo/src/io/ply/types.rs` L171-185 -/
def FaceType.tryFrom : PlyType → Except PlyError FaceType
  | .Char => .ok .Char
  | .UChar => .ok .UChar
  | .Short => .ok .Short
  | .UShort => .ok .UShort
  | .Int => .ok .Int
  | .UInt => .ok .UInt
  | _ => .error .InvalidFaceType

/-- `/repo/src/io/ply/types.rs` L190-199 and the count of L232-235 -/
structure PlyVertexData where
  count : Nat
  order : VertexOrder
  first : VertexType
  snd : VertexType
  third : VertexType
  before : BytesWords
  betweenFirstSnd : BytesWords
  betweenSndThird : BytesWords
  after : BytesWords
deriving DecidableEq, Repr

/-- `/repo/src/io/ply/types.rs` L204-209 and the count of L238-241 -/
structure PlyFaceData where
  count : Nat
  countType : FaceType
  indexType : FaceType
  before : BytesWords
  after : BytesWords
deriving DecidableEq, Repr

/-- `/repo/src/io/ply/types.rs` L214-218 -/
inductive PlyFormat where
  | Ascii
  | Binary (e : Endian)
deriving DecidableEq, Repr

/-- `/repo/src/io/ply/types.rs` L223-227 -/
inductive HeaderReadState where
  | Meta | Vertex | Face
deriving DecidableEq, Repr

/-- `/repo/src/io/ply/types.rs` L246-262; a `PartialHeader` has no face data -/
structure PlyHeader where
  format : PlyFormat
  vertex : PlyVertexData
  face : Option PlyFaceData
deriving DecidableEq, Repr

/-! ### header.rs -/

/-- the variables of `load_header` (`/repo/src/io/ply/header.rs` L44-65) but for the line number -/
structure PlyHeaderState where
  vertexOrder : List PlyAxis
  iVertexOrder : Nat
  plyFound : Bool
  readState : HeaderReadState
  format : Option PlyFormat
  nVertices : Option Nat
  nFaces : Option Nat
  fstType : Option VertexType
  sndType : Option VertexType
  thirdType : Option VertexType
  nTypesFound : Nat
  vertexBefore : BytesWords
  vertexBetweenFirstSnd : BytesWords
  vertexBetweenSndThird : BytesWords
  after : BytesWords
  faceCountType : Option FaceType
  faceIndexType : Option FaceType
  faceBefore : BytesWords
  faceAfter : BytesWords
deriving DecidableEq, Repr

/-- `/repo/src/io/ply/header.rs` L44-65 -/
def PlyHeaderState.init : PlyHeaderState where
  vertexOrder := [.X, .X, .X]
  iVertexOrder := 0
  plyFound := false
  readState := .Meta
  format := none
  nVertices := none
  nFaces := none
  fstType := none
  sndType := none
  thirdType := none
  nTypesFound := 0
  vertexBefore := ⟨0, 0⟩
  vertexBetweenFirstSnd := ⟨0, 0⟩
  vertexBetweenSndThird := ⟨0, 0⟩
  after := ⟨0, 0⟩
  faceCountType := none
  faceIndexType := none
  faceBefore := ⟨0, 0⟩
  faceAfter := ⟨0, 0⟩

/-- `words.next().ok_or(PlyError::InvalidProperty).and_then(|w| Type::try_from(w))` for the `n`-th word; `/repo/src/io/ply/header.rs` L138-141 -/
def plyTypeWord (words : List Bytes) (n : Nat) : Except PlyError PlyType :=
  match words[n]? with
  | none => .error .InvalidProperty
  | some w => PlyType.tryFrom w

/-- `n_types_found += 1; vertex_order[i_vertex_order] = a; i_vertex_order += 1`; panics at the fourth
(`/repo/src/io/ply/header.rs` L149-151) -/
def PlyHeaderState.addAxis (s : PlyHeaderState) (a : PlyAxis) : Panics PlyHeaderState :=
  if s.iVertexOrder < s.vertexOrder.length then
    some { s with nTypesFound := s.nTypesFound + 1, vertexOrder := s.vertexOrder.set s.iVertexOrder a, iVertexOrder := s.iVertexOrder + 1 }
  else none

/-- `/repo/src/io/ply/header.rs` L134-175: a property of a vertex -/
def plyVertexProperty (line : Bytes) (s : PlyHeaderState) : Panics (Except PlyError PlyHeaderState) :=
  let words := toWords line
  match plyTypeWord words 1 with
  | .error e => some (.error e)
  | .ok t =>
    match words[2]? with
    | none => some (.error .InvalidProperty)
    | some id =>
      if id = b!"x" then
        match VertexType.tryFrom t with
        | .error e => some (.error e)
        | .ok vt => (({ s with fstType := some vt } : PlyHeaderState).addAxis .X).map .ok
      else if id = b!"y" then
        match VertexType.tryFrom t with
        | .error e => some (.error e)
        | .ok vt => (({ s with sndType := some vt } : PlyHeaderState).addAxis .Y).map .ok
      else if id = b!"z" then
        match VertexType.tryFrom t with
        | .error e => some (.error e)
        | .ok vt => (({ s with thirdType := some vt } : PlyHeaderState).addAxis .Z).map .ok
      else if s.nTypesFound = 0 then some (.ok { s with vertexBefore := s.vertexBefore.add t })
      else if s.nTypesFound = 1 then some (.ok { s with vertexBetweenFirstSnd := s.vertexBetweenFirstSnd.add t })
      else if s.nTypesFound = 2 then some (.ok { s with vertexBetweenSndThird := s.vertexBetweenSndThird.add t })
      else some (.ok { s with after := s.after.add t })

/-- `words.next()...and_then(|x| FaceType::try_from(x))`; `/repo/src/io/ply/header.rs` L182-193 -/
def plyFaceTypeWord (words : List Bytes) (n : Nat) : Except PlyError FaceType :=
  match plyTypeWord words n with
  | .error e => .error e
  | .ok t => FaceType.tryFrom t

/-- `/repo/src/io/ply/header.rs` L176-214: a property of a face -/
def plyFaceProperty (line : Bytes) (s : PlyHeaderState) : Except PlyError PlyHeaderState :=
  if startsWith line b!"property list" then
    if containsBytes line b!"vertex_indices" = some true ∨ containsBytes line b!"vertex_index" = some true then
      match plyFaceTypeWord (toWords line) 2 with
      | .error e => .error e
      | .ok tCount =>
        match plyFaceTypeWord (toWords line) 3 with
        | .error e => .error e
        | .ok tIndex => .ok { s with faceCountType := some tCount, faceIndexType := some tIndex }
    else .ok s
  else
    match plyTypeWord (toWords line) 1 with
    | .error e => .error e
    | .ok t =>
      if s.faceCountType.isSome then .ok { s with faceAfter := s.faceAfter.add t }
      else .ok { s with faceBefore := s.faceBefore.add t }

/-- `/repo/src/io/ply/header.rs` L224-267: the header after its last line; `LoadHeaderInvalid` is the fall through to L270 -/
def plyEndHeader (s : PlyHeaderState) : Except PlyError PlyHeader :=
  match s.format, s.nVertices, s.fstType, s.sndType, s.thirdType with
  | some format, some nVertices, some xType, some yType, some zType =>
    match VertexOrder.tryFrom s.vertexOrder with
    | .error e => .error e
    | .ok order =>
      .ok {
        format := format
        vertex := ⟨nVertices, order, xType, yType, zType, s.vertexBefore, s.vertexBetweenFirstSnd, s.vertexBetweenSndThird, s.after⟩
        face := match s.nFaces, s.faceCountType, s.faceIndexType with
          | some nFaces, some c, some i => some ⟨nFaces, c, i, s.faceBefore, s.faceAfter⟩
          | _, _, _ => none }
  | _, _, _, _, _ => .error .LoadHeaderInvalid

/-- what happens after a line of the header: it goes on, or is over; the loop of `/repo/src/io/ply/header.rs` L67-271 -/
inductive PlyStep where
  | next (s : PlyHeaderState)
  | done (h : PlyHeader)
deriving DecidableEq, Repr

/-- `/repo/src/io/ply/header.rs` L86-94: the format line -/
def plyFormatLine (line : Bytes) : Except PlyError PlyFormat :=
  if line = b!"format ascii 1.0" then .ok .Ascii
  else if line = b!"format binary_little_endian 1.0" then .ok (.Binary .little)
  else if line = b!"format binary_big_endian 1.0" then .ok (.Binary .big)
  else .error .LoadFormatNotFound

/-- `/repo/src/io/ply/header.rs` L132-270: the lines that are no `element` lines -/
def plyHeaderRest (line : Bytes) (s : PlyHeaderState) : Panics (Except PlyError PlyStep) :=
  if startsWith line b!"property" then
    match s.readState with
    | .Vertex => (plyVertexProperty line s).map fun r => r.map .next
    | .Face => some ((plyFaceProperty line s).map .next)
    | .Meta => some (.error .PropertyLineLocation)
  else if line = b!"end_header" ∧ s.plyFound = true then some ((plyEndHeader s).map .done)
  else some (.error .LoadHeaderInvalid)

/-- one iteration of the loop `/repo/src/io/ply/header.rs` L67-271; all errors are given with the line (`.line(*i_line, line)`) -/
def plyHeaderLine (line : Bytes) (s : PlyHeaderState) : Panics (Except PlyError PlyStep) :=
  if startsWith line b!"comment" then some (.ok (.next s))
  else if startsWith line b!"obj_info" then some (.ok (.next s))
  else if !s.plyFound then
    if line = b!"ply" then some (.ok (.next { s with plyFound := true })) else some (.error .LoadStartNotFound)
  else if s.format.isNone then
    match plyFormatLine line with
    | .error e => some (.error e)
    | .ok f => some (.ok (.next { s with format := some f }))
  else if s.nVertices.isNone ∧ startsWith line b!"element vertex" = true then
    match nthNum parseNat (toWords line) 2 with
    | none => some (.error .VertexElement)
    | some n => some (.ok (.next { s with readState := .Vertex, nVertices := some n }))
  else if s.nFaces.isNone ∧ startsWith line b!"element face" = true then
    match nthNum parseNat (toWords line) 2 with
    | none => some (.error .FaceElement)
    | some n => some (.ok (.next { s with readState := .Face, nFaces := some n }))
  else plyHeaderRest line s

/-- `/repo/src/io/ply/header.rs` L67-273: the header, the bytes behind it and the number of its last line. Every line takes
bytes of the file, which bounds the loop. -/
def plyHeaderLoop : Nat → Bytes → Nat → PlyHeaderState → Panics (Except (LineInfo PlyError) (PlyHeader × Bytes × Nat))
  | 0, _, _, _ => none
  | n + 1, read, i, s =>
    match fetchLine read with
    | none => some (.error (.none .LoadHeaderInvalid))
    | some (line, rest) =>
      match plyHeaderLine line s with
      | none => none
      | some (.error e) => some (.error (.line (i + 1) line e))
      | some (.ok (.next s)) => plyHeaderLoop n rest (i + 1) s
      | some (.ok (.done h)) => some (.ok (h, rest, i + 1))

/-- `/repo/src/io/ply/header.rs` L36-274 -/
def plyLoadHeader (read : Bytes) : Panics (Except (LineInfo PlyError) (PlyHeader × Bytes × Nat)) :=
  plyHeaderLoop (read.length + 1) read 0 PlyHeaderState.init

/-! ### utils.rs -/

/-- `/repo/src/io/ply/utils.rs` L37-48 -/
def plyIndexLine (line : Bytes) : Option (Nat × Nat × Nat) :=
  let words := toWords line
  match words[0]? with
  | none => none
  | some w =>
    if w ≠ b!"3" then none
    else match nthNum parseNat words 1, nthNum parseNat words 2, nthNum parseNat words 3 with
      | some a, some b, some c => some (a, b, c)
      | _, _, _ => none

/-- `x as usize` for a signed `x` on a 64 bit machine: sign extension; `/repo/src/io/ply/utils.rs` L59, L61, L63 -/
def usizeOfInt (x : Int) : Nat := (x % 2 ^ 64).toNat

/-- `/repo/src/io/ply/utils.rs` L53-66; `none` is `AccessFile` -/
def readFaceType (e : Endian) (t : FaceType) (s : Bytes) : Option (Nat × Bytes) :=
  match t with
  | .Char => (readInt e 1 s).map fun r => (usizeOfInt r.1, r.2)
  | .UChar => readNat e 1 s
  | .Short => (readInt e 2 s).map fun r => (usizeOfInt r.1, r.2)
  | .UShort => readNat e 2 s
  | .Int => (readInt e 4 s).map fun r => (usizeOfInt r.1, r.2)
  | .UInt => readNat e 4 s

/-- `/repo/src/io/ply/utils.rs` L71-80; `none` is `AccessFile` -/
def readVertexType (e : Endian) (t : VertexType) (s : Bytes) : Option (F64 × Bytes) :=
  match t with
  | .Float => readF32 e s
  | .Double => readF64 e s

/-- `/repo/src/io/ply/utils.rs` L85-97 -/
def pointWithOrder (fst snd third : F64) : VertexOrder → PlyPoint
  | .Xyz => ⟨fst, snd, third⟩
  | .Xzy => ⟨fst, third, snd⟩
  | .Yxz => ⟨snd, fst, third⟩
  | .Yzx => ⟨snd, third, fst⟩
  | .Zxy => ⟨third, fst, snd⟩
  | .Zyx => ⟨third, snd, fst⟩

/-! ### iterators_internal.rs -/

/-- the changing fields of the four inner iterators (`/repo/src/io/ply/iterators_internal.rs` L197-209, L298-311, L414-424,
L478-488); the binary ones have no line number -/
structure PlyCursor where
  read : Bytes
  isDone : Bool
  current : Nat
  iLine : Nat
deriving DecidableEq, Repr

/-- `/repo/src/io/ply/iterators_internal.rs` L233-260 -/
def plyBinaryVertex (e : Endian) (h : PlyVertexData) (s : Bytes) : Option (PlyPoint × Bytes) := do
  let s ← skipBytes h.before.bytes s
  let (first, s) ← readVertexType e h.first s
  let s ← skipBytes h.betweenFirstSnd.bytes s
  let (snd, s) ← readVertexType e h.snd s
  let s ← skipBytes h.betweenSndThird.bytes s
  let (third, s) ← readVertexType e h.third s
  let s ← skipBytes h.after.bytes s
  return (pointWithOrder first snd third h.order, s)

/-- `/repo/src/io/ply/iterators_internal.rs` L271-285 -/
def plyBinaryPointsNext (e : Endian) (h : PlyVertexData) (s : PlyCursor) : Option (Except PlyError PlyPoint) × PlyCursor :=
  if s.isDone then (none, s)
  else if s.current < h.count then
    match plyBinaryVertex e h s.read with
    | none => (some (.error .AccessFile), { s with current := s.current + 1, isDone := true, read := [] })
    | some (p, rest) => (some (.ok p), { s with current := s.current + 1, read := rest })
  else (none, { s with isDone := true })

/-- `/repo/src/io/ply/iterators_internal.rs` L334-366 -/
def plyAsciiVertex (T : FloatText F64) (h : PlyVertexData) (line : Bytes) : Except PlyError PlyPoint :=
  let words := skipN h.before.words (toWords line)
  match nthNum T.parse words 0 with
  | none => .error .InvalidVertex
  | some first =>
    let words := skipN h.betweenFirstSnd.words words.tail
    match nthNum T.parse words 0 with
    | none => .error .InvalidVertex
    | some snd =>
      let words := skipN h.betweenSndThird.words words.tail
      match nthNum T.parse words 0 with
      | none => .error .InvalidVertex
      | some third => .ok (pointWithOrder first snd third h.order)

/-- the end of `/repo/src/io/ply/iterators_internal.rs` L395-401 -/
def plyAsciiPointsEnd (h : PlyVertexData) (s : PlyCursor) : Option (Except (LineInfo PlyError) PlyPoint) × PlyCursor :=
  if s.current ≠ h.count then (some (.error (.none .LoadVertexCountIncorrect)), { s with isDone := true })
  else (none, { s with isDone := true })

/-- `/repo/src/io/ply/iterators_internal.rs` L376-402 -/
def plyAsciiPointsNext (T : FloatText F64) (h : PlyVertexData) (s : PlyCursor) :
    Option (Except (LineInfo PlyError) PlyPoint) × PlyCursor :=
  if s.isDone then (none, s)
  else if s.current < h.count then
    match fetchLine s.read with
    | some (line, rest) =>
      match plyAsciiVertex T h line with
      | .ok p => (some (.ok p), ⟨rest, false, s.current + 1, s.iLine + 1⟩)
      | .error e => (some (.error (.line (s.iLine + 1) line e)), ⟨rest, true, s.current + 1, s.iLine + 1⟩)
    | none => plyAsciiPointsEnd h { s with current := s.current + 1 }
  else plyAsciiPointsEnd h s

/-- `/repo/src/io/ply/iterators_internal.rs` L448-471 -/
def plyAsciiFacesNext (h : PlyFaceData) (s : PlyCursor) : Option (Except (LineInfo PlyError) (Nat × Nat × Nat)) × PlyCursor :=
  if s.isDone then (none, s)
  else if s.current < h.count then
    match fetchLine s.read with
    | some (line, rest) =>
      match plyIndexLine line with
      | some f => (some (.ok f), ⟨rest, false, s.current + 1, s.iLine + 1⟩)
      | none => (some (.error (.line (s.iLine + 1) line .FaceStructure)), ⟨rest, true, s.current + 1, s.iLine + 1⟩)
    | none => (none, { s with current := s.current + 1, isDone := true })
  else (none, { s with isDone := true })

/-- `/repo/src/io/ply/iterators_internal.rs` L506-522; also the bytes left -/
def plyBinaryFace (e : Endian) (h : PlyFaceData) (s : Bytes) : Except PlyError (Nat × Nat × Nat) × Bytes :=
  match (do let s ← skipBytes h.before.bytes s; readFaceType e h.countType s : Option (Nat × Bytes)) with
  | none => (.error .AccessFile, [])
  | some (n, s) =>
    if n ≠ 3 then (.error .FaceStructure, s)
    else
      match (do
        let (a, s) ← readFaceType e h.indexType s
        let (b, s) ← readFaceType e h.indexType s
        let (c, s) ← readFaceType e h.indexType s
        let s ← skipBytes h.after.bytes s
        return ((a, b, c), s) : Option ((Nat × Nat × Nat) × Bytes)) with
      | none => (.error .AccessFile, [])
      | some (f, s) => (.ok f, s)

/-- `/repo/src/io/ply/iterators_internal.rs` L532-546 -/
def plyBinaryFacesNext (e : Endian) (h : PlyFaceData) (s : PlyCursor) : Option (Except PlyError (Nat × Nat × Nat)) × PlyCursor :=
  if s.isDone then (none, s)
  else if s.current < h.count then
    match plyBinaryFace e h s.read with
    | (.error x, rest) => (some (.error x), { s with current := s.current + 1, isDone := true, read := rest })
    | (.ok f, rest) => (some (.ok f), { s with current := s.current + 1, read := rest })
  else (none, { s with isDone := true })

/-- `.simple()` on the results of the binary iterators (`/repo/src/io/ply/iterators.rs` L98-103, L170-173) -/
def plySimple {β : Type} : Option (Except PlyError β) → Option (Except (LineInfo PlyError) β)
  | none => none
  | some (.ok x) => some (.ok x)
  | some (.error e) => some (.error (.none e))

/-- the dispatch on the format, `/repo/src/io/ply/iterators.rs` L168-174 -/
def plyPointsInner (T : FloatText F64) (format : PlyFormat) (h : PlyVertexData) (s : PlyCursor) :
    Option (Except (LineInfo PlyError) PlyPoint) × PlyCursor :=
  match format with
  | .Ascii => plyAsciiPointsNext T h s
  | .Binary e => let r := plyBinaryPointsNext e h s; (plySimple r.1, r.2)

/-- the same for faces; `/repo/src/io/ply/iterators.rs` L95-103 -/
def plyFacesInner (format : PlyFormat) (h : PlyFaceData) (s : PlyCursor) :
    Option (Except (LineInfo PlyError) (Nat × Nat × Nat)) × PlyCursor :=
  match format with
  | .Ascii => plyAsciiFacesNext h s
  | .Binary e => let r := plyBinaryFacesNext e h s; (plySimple r.1, r.2)

/-- `p_iter` or `f_iter`, of which exactly one is there (`/repo/src/io/ply/iterators_internal.rs` L39-47, L106-115) -/
inductive PlyMeshCursor where
  | points (s : PlyCursor)
  | faces (s : PlyCursor)
deriving DecidableEq, Repr

/-- `self.f_iter...next().map(|x| x.map(|x| FaceData::Face(x)))` (`/repo/src/io/ply/iterators_internal.rs` L89-93, L155-159) -/
def plyMeshFaces (format : PlyFormat) (h : PlyFaceData) (s : PlyCursor) :
    Option (Except (LineInfo PlyError) (Item PlyPoint)) × PlyMeshCursor :=
  match plyFacesInner format h s with
  | (none, s) => (none, .faces s)
  | (some (.error e), s) => (some (.error e), .faces s)
  | (some (.ok (a, b, c)), s) => (some (.ok (.face a b c)), .faces s)

/-- `PlyAsciiMeshIterator::next` and `PlyBinaryMeshIterator::next` (`/repo/src/io/ply/iterators_internal.rs` L71-94, L141-160) -/
def plyMeshInner (T : FloatText F64) (format : PlyFormat) (hv : PlyVertexData) (hf : PlyFaceData) :
    PlyMeshCursor → Option (Except (LineInfo PlyError) (Item PlyPoint)) × PlyMeshCursor
  | .points s =>
    match plyPointsInner T format hv s with
    | (some (.ok p), s) => (some (.ok (.data p)), .points s)
    | (some (.error e), s) => (some (.error e), .points s)
    | (none, s) => plyMeshFaces format hf ⟨s.read, false, 0, s.iLine⟩
  | .faces s => plyMeshFaces format hf s

/-! ### iterators.rs -/

/-- `/repo/src/io/ply/iterators.rs` L36-43 -/
structure PlyMeshIter where
  format : PlyFormat
  vertex : PlyVertexData
  face : PlyFaceData
  inner : PlyMeshCursor
  toReserve : Option (Nat × Nat)
deriving DecidableEq, Repr

/-- `/repo/src/io/ply/iterators.rs` L50-76 -/
def PlyMeshIter.new (read : Bytes) : Panics (Except (LineInfo PlyError) PlyMeshIter) :=
  match plyLoadHeader read with
  | none => none
  | some (.error e) => some (.error e)
  | some (.ok (h, rest, i)) =>
    match h.face with
    | some f => some (.ok ⟨h.format, h.vertex, f, .points ⟨rest, false, 0, i⟩, some (h.vertex.count, f.count)⟩)
    | none => some (.error (.none .LoadHeaderInvalid))

/-- `/repo/src/io/ply/iterators.rs` L86-106 -/
def plyMeshNext (T : FloatText F64) (s : PlyMeshIter) : Option (Except (LineInfo PlyError) (Item PlyPoint)) × PlyMeshIter :=
  match s.toReserve with
  | some (n, k) => (some (.ok (.reserve n k)), { s with toReserve := none })
  | none =>
    let r := plyMeshInner T s.format s.vertex s.face s.inner
    (r.1, { s with inner := r.2 })

/-- `/repo/src/io/ply/iterators.rs` L119-126 -/
structure PlyPointsIter where
  format : PlyFormat
  vertex : PlyVertexData
  inner : PlyCursor
  toReserve : Option Nat
deriving DecidableEq, Repr

/-- `/repo/src/io/ply/iterators.rs` L133-153 -/
def PlyPointsIter.new (read : Bytes) : Panics (Except (LineInfo PlyError) PlyPointsIter) :=
  match plyLoadHeader read with
  | none => none
  | some (.error e) => some (.error e)
  | some (.ok (h, rest, i)) => some (.ok ⟨h.format, h.vertex, ⟨rest, false, 0, i⟩, some h.vertex.count⟩)

/-- `.map(|x| x.map(|x| DataReserve::Data(x)))`; `/repo/src/io/ply/iterators.rs` L175 -/
def plyData : Option (Except (LineInfo PlyError) PlyPoint) → Option (Except (LineInfo PlyError) (Item PlyPoint))
  | none => none
  | some (.ok p) => some (.ok (.data p))
  | some (.error e) => some (.error e)

/-- `/repo/src/io/ply/iterators.rs` L163-177 -/
def plyPointsNext (T : FloatText F64) (s : PlyPointsIter) : Option (Except (LineInfo PlyError) (Item PlyPoint)) × PlyPointsIter :=
  match s.toReserve with
  | some n => (some (.ok (.reserve n 0)), { s with toReserve := none })
  | none =>
    let r := plyPointsInner T s.format s.vertex s.inner
    (plyData r.1, { s with inner := r.2 })

/-! ### load.rs -/

/-- the body of the loop `/repo/src/io/ply/load.rs` L95-108, L194-204, L224-235 -/
def plyPush (m : TMesh PlyPoint) : Item PlyPoint → TMesh PlyPoint × Except (LineInfo PlyError) Unit
  | .data p => ((m.addVertex p).1, .ok ())
  | .reserve _ _ => (m, .ok ())
  | .face a b c =>
    match m.tryAddConnection a b c with
    | (m', .ok _) => (m', .ok ())
    | (m', .error _) => (m', .error (.none .InvalidMeshIndices))

/-- `/repo/src/io/ply/load.rs` L86-112. Every vertex and face takes bytes of the file, which bounds the loop. -/
def loadPlyMesh (T : FloatText F64) (read : Bytes) (m : TMesh PlyPoint) : Panics (TMesh PlyPoint × Except (LineInfo PlyError) Unit) :=
  match PlyMeshIter.new read with
  | none => none
  | some (.error e) => some (m, .error e)
  | some (.ok it) => forEach (fun s => some (plyMeshNext T s)) plyPush (read.length + 3) it m

/-- `/repo/src/io/ply/load.rs` L117-133 -/
def loadPlyPoints (T : FloatText F64) (read : Bytes) (ip : List PlyPoint) : Panics (List PlyPoint × Except (LineInfo PlyError) Unit) :=
  match PlyPointsIter.new read with
  | none => none
  | some (.error e) => some (ip, .error e)
  | some (.ok it) => forEach (fun s => some (plyPointsNext T s)) pushItem (read.length + 3) it ip

/-- `/repo/src/io/ply/types.rs` L89-92 -/
inductive MeshOrPoints where
  | Mesh
  | Points
deriving DecidableEq, Repr

/-- `/repo/src/io/ply/load.rs` L36-83 with `load_points_binary`, `load_points_ascii`, `load_mesh_binary`, `load_mesh_ascii`
(L141-238) -/
def loadPlyEither (T : FloatText F64) (read : Bytes) (m : TMesh PlyPoint) (ip : List PlyPoint) :
    Panics (TMesh PlyPoint × List PlyPoint × Except (LineInfo PlyError) MeshOrPoints) :=
  match plyLoadHeader read with
  | none => none
  | some (.error e) => some (m, ip, .error e)
  | some (.ok (h, rest, i)) =>
    match h.face with
    | some f =>
      (forEach (fun s => some (plyMeshInner T h.format h.vertex f s)) plyPush (read.length + 3) (.points ⟨rest, false, 0, i⟩) m).map
        fun r => (r.1, ip, r.2.map fun _ => .Mesh)
    | none =>
      (forEach (fun s => let r := plyPointsInner T h.format h.vertex s; some (plyData r.1, r.2)) pushItem (read.length + 3)
        ⟨rest, false, 0, i⟩ ip).map fun r => (m, r.1, r.2.map fun _ => .Points)

/-! ### save.rs -/

/-- `/repo/src/enums.rs` L26-29 -/
inductive Precision where
  | P32
  | P64
deriving DecidableEq, Repr

/-- `/repo/src/rgb.rs` L27-31 -/
structure Rgb where
  r : UInt8
  g : UInt8
  b : UInt8
deriving DecidableEq, Repr

/-- the headers of `/repo/src/io/ply/save.rs` L40-53, L93-109, L154-187, L243-282: the format, the type of the coordinates,
whether there are colors, and the types of the faces differ -/
def plyHeaderText (format coord face : Bytes) (colored : Bool) (nVertices nFaces : Nat) : Bytes :=
  b!"ply\n" ++ b!"format " ++ format ++ b!" 1.0\n" ++ b!"comment Created by rust-3d\n" ++
  b!"element vertex " ++ fmtNat nVertices ++ b!"\n" ++
  b!"property " ++ coord ++ b!" x\n" ++ b!"property " ++ coord ++ b!" y\n" ++ b!"property " ++ coord ++ b!" z\n" ++
  (if colored then b!"property uchar red\n" ++ b!"property uchar green\n" ++ b!"property uchar blue\n" else []) ++
  b!"element face " ++ fmtNat nFaces ++ b!"\n" ++ b!"property list " ++ face ++ b!" vertex_indices\n" ++ b!"end_header\n"

/-- `/repo/src/is_3d.rs` L77-83 and the line break -/
def plyVertexText (T : FloatText F64) (p : PlyPoint) : Bytes :=
  T.fmt p.x ++ b!" " ++ T.fmt p.y ++ b!" " ++ T.fmt p.z ++ b!"\n"

/-- `/repo/src/io/ply/save.rs` L61-73, L129-141; `VId` prints as its number (`/repo/src/strong_types.rs` L52-56) -/
def plyFaceText (f : Face3) : Bytes := b!"3 " ++ fmtNat f.a ++ b!" " ++ fmtNat f.b ++ b!" " ++ fmtNat f.c ++ b!"\n"

/-- `/repo/src/io/ply/save.rs` L34-75. The `unwrap`s are safe as the ids are those of the mesh. -/
def savePlyAscii (T : FloatText F64) (m : TMesh PlyPoint) : Bytes :=
  plyHeaderText b!"ascii" b!"float" b!"uchar uint" false m.numVertices m.numFaces ++
  m.verts.flatMap (plyVertexText T) ++ m.faces.flatMap plyFaceText

/-- `/repo/src/io/ply/save.rs` L112-127: a vertex with its color -/
def plyColoredText (T : FloatText F64) (x : PlyPoint × Rgb) : Bytes :=
  T.fmt x.1.x ++ b!" " ++ T.fmt x.1.y ++ b!" " ++ T.fmt x.1.z ++ b!" " ++ fmtNat x.2.r.toNat ++ b!" " ++ fmtNat x.2.g.toNat ++
  b!" " ++ fmtNat x.2.b.toNat ++ b!"\n"

/-- `/repo/src/io/ply/save.rs` L80-143 -/
def savePlyAsciiColored (T : FloatText F64) (m : TMesh PlyPoint) (colors : List Rgb) : Except PlyError Bytes :=
  if m.numVertices ≠ colors.length then .error .ColorArrayIncorrectLength
  else .ok (plyHeaderText b!"ascii" b!"float" b!"uchar uint" true m.numVertices m.numFaces ++
    (m.verts.zip colors).flatMap (plyColoredText T) ++ m.faces.flatMap plyFaceText)

/-- `/repo/src/io/ply/save.rs` L161, L177 -/
def plyCoordWord : Precision → Bytes
  | .P32 => b!"float"
  | .P64 => b!"double"

/-- `/repo/src/io/ply/save.rs` L195-197, L204-206 -/
def plyVertexBytes : Precision → PlyPoint → Bytes
  | .P32, p => F64.toBytes32 .big p.x ++ F64.toBytes32 .big p.y ++ F64.toBytes32 .big p.z
  | .P64, p => F64.toBytes64 .big p.x ++ F64.toBytes64 .big p.y ++ F64.toBytes64 .big p.z

/-- `/repo/src/io/ply/save.rs` L211-217, L314-320; `as u32` keeps the last four bytes -/
def plyFaceBytes (f : Face3) : Bytes :=
  bytesOfNat .big 1 3 ++ bytesOfNat .big 4 (f.a % 2 ^ 32) ++ bytesOfNat .big 4 (f.b % 2 ^ 32) ++ bytesOfNat .big 4 (f.c % 2 ^ 32)

/-- `/repo/src/io/ply/save.rs` L148-220 -/
def savePlyBinary (m : TMesh PlyPoint) (precision : Precision) : Bytes :=
  plyHeaderText b!"binary_big_endian" (plyCoordWord precision) b!"uint8 uint32" false m.numVertices m.numFaces ++
  m.verts.flatMap (plyVertexBytes precision) ++ m.faces.flatMap plyFaceBytes

/-- `/repo/src/io/ply/save.rs` L225-323 -/
def savePlyBinaryColored (m : TMesh PlyPoint) (precision : Precision) (colors : List Rgb) : Except PlyError Bytes :=
  if m.numVertices ≠ colors.length then .error .ColorArrayIncorrectLength
  else .ok (plyHeaderText b!"binary_big_endian" (plyCoordWord precision) b!"uint8 uint32" true m.numVertices m.numFaces ++
    (m.verts.zip colors).flatMap (fun x => plyVertexBytes precision x.1 ++ [x.2.r, x.2.g, x.2.b]) ++ m.faces.flatMap plyFaceBytes)

end R3D

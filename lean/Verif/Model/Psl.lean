import Verif.Model.ByteCodec
import Verif.Model.TextLoad
/-!
`/repo/src/io/psl.rs`. A reader is the list of the bytes left; once a read has failed the iterator is done, so that the bytes
left do not matter then.
-/
namespace R3D

/-- `/repo/src/io/psl.rs` L262-264; every failed read is this error (L283-287) -/
inductive PslError where
  | AccessFile
deriving DecidableEq, Repr

/-- `/repo/src/io/psl.rs` L38-50 -/
structure PslIter where
  read : Bytes
  isDone : Bool
  isInitialized : Bool
  nPassesLeft : Int
  nLinesLeft : Int
  nPointLeft : Int
deriving DecidableEq, Repr

/-- `/repo/src/io/psl.rs` L57-67 -/
def PslIter.new (read : Bytes) : PslIter := ⟨read, false, false, 0, 0, 0⟩

/-- `/repo/src/io/psl.rs` L169-199 -/
def pslHeader (s : Bytes) : Option (Int × Bytes) := do
  let (_, s) ← readExact 4 s
  let (_, s) ← readInt .little 4 s
  let (_, s) ← readExact 128 s
  let (nPasses, s) ← readInt .little 4 s
  let (_, s) ← readInt .little 4 s
  let (_, s) ← readExact 368 s
  return (nPasses, s)

/-- `/repo/src/io/psl.rs` L203-218 -/
def pslPassHeader (s : Bytes) : Option (Int × Bytes) := do
  let (nLines, s) ← readInt .little 4 s
  let (_, s) ← readInt .little 4 s
  let (_, s) ← readExact 56 s
  return (nLines, s)

/-- `/repo/src/io/psl.rs` L222-242 -/
def pslLineHeader (s : Bytes) : Option (Int × Bytes) := do
  let (nPoints, s) ← readInt .little 4 s
  let (_, s) ← readExact 12 s
  let (_, s) ← readExact 48 s
  return (nPoints, s)

/-- `/repo/src/io/psl.rs` L246-257 -/
def pslPoint (s : Bytes) : Option (Point3D F64 × Bytes) := do
  let (x, s) ← readF32 .little s
  let (y, s) ← readF32 .little s
  let (z, s) ← readF32 .little s
  return (⟨x, y, z⟩, s)

/-- `/repo/src/io/psl.rs` L68-72 -/
def pslInitialize (s : PslIter) : Option PslIter := do
  let (n, rest) ← pslHeader s.read
  return { s with read := rest, nPassesLeft := n }

/-- the number of lines: `/repo/src/io/psl.rs` L75-79 -/
def pslFetchLines (s : PslIter) : Option PslIter :=
  if s.nLinesLeft == 0 && decide (s.nPassesLeft > 0) then do
    let (n, rest) ← pslPassHeader s.read
    return { s with read := rest, nLinesLeft := n }
  else some { s with nLinesLeft := 0 }

/-- the number of points: `/repo/src/io/psl.rs` L80-84 -/
def pslFetchPoints (s : PslIter) : Option PslIter :=
  if s.nPointLeft == 0 && decide (s.nLinesLeft > 0) then do
    let (n, rest) ← pslLineHeader s.read
    return { s with read := rest, nPointLeft := n }
  else some { s with nPointLeft := 0 }

/-- `/repo/src/io/psl.rs` L73-86 -/
def pslFetchCounts (s : PslIter) : Option PslIter := do
  let s ← pslFetchLines s
  pslFetchPoints s

/-- `/repo/src/io/psl.rs` L87-100; only positive counts are reduced, so that no subtraction overflows -/
def pslReduceCount (s : PslIter) : PslIter :=
  if s.nPointLeft > 0 then { s with nPointLeft := s.nPointLeft - 1 }
  else if s.nLinesLeft > 0 then { s with nLinesLeft := s.nLinesLeft - 1 }
  else if s.nPassesLeft > 0 then { s with nPassesLeft := s.nPassesLeft - 1 }
  else s

/-- `/repo/src/io/psl.rs` L123-138: `next` of an initialized iterator that is not done -/
def pslNextPoint (s : PslIter) : Option (Except PslError (Point3D F64)) × PslIter :=
  match pslFetchCounts s with
  | none => (some (.error .AccessFile), { s with isDone := true })
  | some s =>
    if s.nPointLeft == 0 then (none, { s with isDone := true })
    else
      let s := pslReduceCount s
      match pslPoint s.read with
      | none => (some (.error .AccessFile), { s with isDone := true })
      | some (p, rest) => (some (.ok p), { s with read := rest })

/-- `/repo/src/io/psl.rs` L109-139 -/
def pslNext (s : PslIter) : Option (Except PslError (Point3D F64)) × PslIter :=
  if s.isDone then (none, s)
  else if !s.isInitialized then
    match pslInitialize { s with isInitialized := true } with
    | none => (some (.error .AccessFile), { s with isInitialized := true, isDone := true })
    | some s => pslNextPoint s
  else pslNextPoint s

/-- `/repo/src/io/psl.rs` L152-165, into an empty container; every point takes bytes of the file, which bounds the loop -/
def loadPsl (input : Bytes) : Option (List (Point3D F64) × Except PslError Unit) :=
  drain pslNext (input.length + 1) (PslIter.new input)

end R3D

import Verif.Model.Text
import Verif.Model.Point
import Verif.Model.Mesh
import Verif.Model.Matrix
/-!
The line based loaders: .xy, .xyz, .obj, .off, .pts, .ptx, .gcode.

Simplifications: see `Model/Text.lean`; the points are `Point2D` / `Point3D` (`IsBuildable2D/3D`), the target
containers are lists or `TMesh`; `reserve` has no observable effect.
-/
namespace R3D
open Scalar

variable {α : Type}

/-- `words.next().and_then(|w| from_ascii(w))` for the `n`-th word; e.g. `/repo/src/io/obj.rs` L275-288 -/
def nthNum {β : Type} (parse : Bytes → Option β) (words : List Bytes) (n : Nat) : Option β :=
  (words[n]?).bind (fromAscii parse)

/-- three coordinates from the words, the pattern all loaders repeat (e.g. `/repo/src/io/xyz.rs` L79-94) -/
def vertexOf {ε : Type} (T : FloatText α) (e : ε) (words : List Bytes) : Except ε (Point3D α) :=
  match nthNum T.parse words 0, nthNum T.parse words 1, nthNum T.parse words 2 with
  | some x, some y, some z => .ok ⟨x, y, z⟩
  | _, _, _ => .error e

/-! ### .xy and .xyz -/

/-- `/repo/src/io/xyz.rs` L180-184, `/repo/src/io/xy.rs` L165-169 -/
inductive XyzError where
  | EstimateDelimiter
  | AccessFile
  | Vertex
deriving DecidableEq, Repr

/-- `/repo/src/io/xyz.rs` L39-51 and `/repo/src/io/xy.rs` L39-51; `delim_determined` and `delim` are one option -/
structure XyzIter where
  lines : List Bytes
  isDone : Bool
  iLine : Nat
  delim : Option UInt8
deriving DecidableEq, Repr

/-- `/repo/src/io/xyz.rs` L58-68 -/
def XyzIter.new (input : Bytes) : XyzIter := ⟨R3D.lines input, false, 0, none⟩

/-- `/repo/src/io/xyz.rs` L71-95; also returns the delimiter -/
def xyzFetchOne (T : FloatText α) (delim : Option UInt8) (line : Bytes) : Option UInt8 × Except XyzError (Point3D α) :=
  let d := match delim with
    | some d => some d
    | none => estimateDelimiter 2 line
  match d with
  | none => (none, .error .EstimateDelimiter)
  | some d => (some d, vertexOf T .Vertex (skipEmpty (splitP (fun b => b == d) line)))

/-- `/repo/src/io/xy.rs` L71-90 -/
def xyFetchOne (T : FloatText α) (delim : Option UInt8) (line : Bytes) : Option UInt8 × Except XyzError (Point2D α) :=
  let d := match delim with
    | some d => some d
    | none => estimateDelimiter 1 line
  match d with
  | none => (none, .error .EstimateDelimiter)
  | some d =>
    let words := skipEmpty (splitP (fun b => b == d) line)
    (some d, match nthNum T.parse words 0, nthNum T.parse words 1 with
      | some x, some y => .ok ⟨x, y⟩
      | _, _ => .error .Vertex)

/-- `/repo/src/io/xyz.rs` L105-123 and `/repo/src/io/xy.rs` L100-118 -/
def XyzIter.next {P : Type} (fetchOne : Option UInt8 → Bytes → Option UInt8 × Except XyzError P) (s : XyzIter) :
    Option (Except (LineInfo XyzError) P) × XyzIter :=
  if s.isDone then (none, s)
  else match s.lines with
    | [] => (none, { s with isDone := true })
    | line :: rest =>
      let i := s.iLine + 1
      match fetchOne s.delim line with
      | (d, .ok p) => (some (.ok p), ⟨rest, false, i, d⟩)
      | (d, .error e) => (some (.error (.line i line e)), ⟨rest, true, i, d⟩)

/-- `/repo/src/io/xyz.rs` L162-175 -/
def loadXyz (T : FloatText α) (input : Bytes) : Option (List (Point3D α) × Except (LineInfo XyzError) Unit) :=
  drain (XyzIter.next (xyzFetchOne T)) ((lines input).length + 1) (XyzIter.new input)

/-- `/repo/src/io/xy.rs` L147-160 -/
def loadXy (T : FloatText α) (input : Bytes) : Option (List (Point2D α) × Except (LineInfo XyzError) Unit) :=
  drain (XyzIter.next (xyFetchOne T)) ((lines input).length + 1) (XyzIter.new input)

/-- `/repo/src/io/xyz.rs` L136-159 -/
def saveXyz (T : FloatText α) (pts : List (Point3D α)) (delimCoord delimPos : Bytes) : Bytes :=
  pts.flatMap fun p => T.fmt p.x ++ delimCoord ++ T.fmt p.y ++ delimCoord ++ T.fmt p.z ++ delimPos

/-- `/repo/src/io/xy.rs` L131-144 -/
def saveXy (T : FloatText α) (pts : List (Point2D α)) (delimCoord delimPos : Bytes) : Bytes :=
  pts.flatMap fun p => T.fmt p.x ++ delimCoord ++ T.fmt p.y ++ delimPos

/-! ### items of mesh loaders -/

/-- `/repo/src/io/types.rs` L57-61 (and L41-44, L49-52) -/
inductive Item (P : Type) where
  | data (p : P)
  | face (a b c : Nat)
  | reserve (n m : Nat)
deriving DecidableEq, Repr

/-- state of an iterator that only knows its lines; e.g. `/repo/src/io/obj.rs` L43-49 -/
structure LineIter where
  lines : List Bytes
  isDone : Bool
  iLine : Nat
deriving DecidableEq, Repr

/-- `slice::starts_with`; e.g. `/repo/src/io/obj.rs` L81 -/
def startsWith (s pre : Bytes) : Bool := pre.isPrefixOf s

/-- `for rd in iterator { match rd? {..} }`: the target after the loop and the result; `none`: panic, or the fuel was
too small; e.g. `/repo/src/io/obj.rs` L194-205 -/
def forEach {σ ε α μ : Type} (next : σ → Panics (Option (Except ε α) × σ)) (push : μ → α → μ × Except ε Unit) :
    Nat → σ → μ → Panics (μ × Except ε Unit)
  | 0, _, _ => none
  | n + 1, s, m =>
    match next s with
    | none => none
    | some (.none, _) => some (m, .ok ())
    | some (.some (.error e), _) => some (m, .error e)
    | some (.some (.ok a), s') =>
      match push m a with
      | (m', .ok ()) => forEach next push n s' m'
      | (m', .error e) => some (m', .error e)

/-! ### .obj -/

/-- `/repo/src/io/obj.rs` L229-234 -/
inductive ObjError where
  | AccessFile
  | InvalidMeshIndices
  | Face
  | Vertex
deriving DecidableEq, Repr

/-- `/repo/src/io/obj.rs` L266-291 -/
def objFetchVertex (T : FloatText α) (line : Bytes) : Except ObjError (Point3D α) :=
  match toWords line with
  | [] => .error .Vertex
  | _ :: words => vertexOf T .Vertex words

/-- one corner of a face: the digits before the first slash; `/repo/src/io/obj.rs` L300-307 -/
def objCorner (words : List Bytes) (n : Nat) : Option Nat :=
  (words[n]?).bind fun w => fromAscii parseNat (untilByte w 47)

/-- `/repo/src/io/obj.rs` L294-312; `a - 1` overflows for 0, which panics (in a release build it wraps) -/
def objFetchFace (line : Bytes) : Panics (Except ObjError (Nat × Nat × Nat)) :=
  match toWords line with
  | [] => some (.error .Face)
  | _ :: words =>
    match objCorner words 0, objCorner words 1, objCorner words 2 with
    | some a, some b, some c =>
      if a = 0 ∨ b = 0 ∨ c = 0 then none else some (.ok (a - 1, b - 1, c - 1))
    | _, _, _ => some (.error .Face)

/-- the `while` loop of `/repo/src/io/obj.rs` L144-168 -/
def objMeshLoop (T : FloatText α) : List Bytes → Nat →
    Panics (Option (Except (LineInfo ObjError) (Item (Point3D α))) × LineIter)
  | [], i => some (none, ⟨[], true, i⟩)
  | line :: rest, i =>
    if startsWith line b!"v " then
      match objFetchVertex T line with
      | .ok p => some (some (.ok (.data p)), ⟨rest, false, i + 1⟩)
      | .error e => some (some (.error (.line (i + 1) line e)), ⟨rest, true, i + 1⟩)
    else if startsWith line b!"f " then
      match objFetchFace line with
      | none => none
      | some (.ok (a, b, c)) => some (some (.ok (.face a b c)), ⟨rest, false, i + 1⟩)
      | some (.error e) => some (some (.error (.line (i + 1) line e)), ⟨rest, true, i + 1⟩)
    else objMeshLoop T rest (i + 1)

/-- `/repo/src/io/obj.rs` L140-173 -/
def objMeshNext (T : FloatText α) (s : LineIter) : Panics (Option (Except (LineInfo ObjError) (Item (Point3D α))) × LineIter) :=
  if s.isDone then some (none, s) else objMeshLoop T s.lines s.iLine

/-- body of the loop in `/repo/src/io/obj.rs` L194-205 -/
def objPush (m : TMesh (Point3D α)) : Item (Point3D α) → TMesh (Point3D α) × Except (LineInfo ObjError) Unit
  | .data p => ((m.addVertex p).1, .ok ())
  | .face a b c =>
    match m.tryAddConnection a b c with
    | (m', .ok _) => (m', .ok ())
    | (m', .error _) => (m', .error (.none .InvalidMeshIndices))
  | .reserve _ _ => (m, .ok ())

/-- `/repo/src/io/obj.rs` L186-208 -/
def loadObjMesh (T : FloatText α) (input : Bytes) (m : TMesh (Point3D α)) :
    Panics (TMesh (Point3D α) × Except (LineInfo ObjError) Unit) :=
  forEach (objMeshNext T) objPush ((lines input).length + 1) ⟨lines input, false, 0⟩ m

/-- the `while` loop of `/repo/src/io/obj.rs` L78-87 -/
def objPointsLoop (T : FloatText α) : List Bytes → Nat → Option (Except (LineInfo ObjError) (Point3D α)) × LineIter
  | [], i => (none, ⟨[], true, i⟩)
  | line :: rest, i =>
    if startsWith line b!"v " then
      match objFetchVertex T line with
      | .ok p => (some (.ok p), ⟨rest, false, i + 1⟩)
      | .error e => (some (.error (.line (i + 1) line e)), ⟨rest, true, i + 1⟩)
    else objPointsLoop T rest (i + 1)

/-- `/repo/src/io/obj.rs` L74-92 -/
def objPointsNext (T : FloatText α) (s : LineIter) : Option (Except (LineInfo ObjError) (Point3D α)) × LineIter :=
  if s.isDone then (none, s) else objPointsLoop T s.lines s.iLine

/-- `/repo/src/io/obj.rs` L211-224 -/
def loadObjPoints (T : FloatText α) (input : Bytes) : Option (List (Point3D α) × Except (LineInfo ObjError) Unit) :=
  drain (objPointsNext T) ((lines input).length + 1) ⟨lines input, false, 0⟩

/-! ### .off -/

/-- `/repo/src/io/off.rs` L353-361 -/
inductive OffError where
  | AccessFile
  | InvalidMeshIndices
  | VertexCount
  | FaceCount
  | Vertex
  | Face
  | FaceVertexCount
deriving DecidableEq, Repr

/-- `/repo/src/io/off.rs` L396-418 -/
def offFetchVertex (T : FloatText α) (line : Bytes) : Except OffError (Point3D α) := vertexOf T .Vertex (toWords line)

/-- `/repo/src/io/off.rs` L184-209 -/
def offFetchFace (line : Bytes) : Except OffError (Nat × Nat × Nat) :=
  match toWords line with
  | [] => .error .FaceVertexCount
  | count :: words =>
    if count = b!"3" then
      match nthNum parseNat words 0, nthNum parseNat words 1, nthNum parseNat words 2 with
      | some a, some b, some c => .ok (a, b, c)
      | _, _, _ => .error .Face
    else .error .FaceVertexCount

/-- `/repo/src/io/off.rs` L212-224 -/
def offFetchCounts (line : Bytes) : Except OffError (Nat × Nat) :=
  match nthNum parseNat (toWords line) 0 with
  | none => .error .VertexCount
  | some v =>
    match nthNum parseNat (toWords line) 1 with
    | none => .error .FaceCount
    | some f => .ok (v, f)

/-- `/repo/src/io/off.rs` L150-163 -/
structure OffMeshIter where
  lines : List Bytes
  isDone : Bool
  iLine : Nat
  offSeen : Bool
  counts : Option (Nat × Nat)
  nVerticesAdded : Nat
deriving DecidableEq, Repr

/-- a line that is neither the first `OFF` nor empty nor a comment: `/repo/src/io/off.rs` L250-284 -/
def offMeshLine (T : FloatText α) (line : Bytes) (s : OffMeshIter) :
    Option (Except (LineInfo OffError) (Item (Point3D α))) × OffMeshIter :=
  match s.counts with
  | none =>
    match offFetchCounts line with
    | .ok (v, f) => (some (.ok (.reserve v f)), { s with counts := some (v, f) })
    | .error e => (some (.error (.line s.iLine line e)), { s with isDone := true })
  | some (nv, _) =>
    if s.nVerticesAdded < nv then
      match offFetchVertex T line with
      | .ok p => (some (.ok (.data p)), { s with nVerticesAdded := s.nVerticesAdded + 1 })
      | .error e => (some (.error (.line s.iLine line e)), { s with nVerticesAdded := s.nVerticesAdded + 1, isDone := true })
    else
      match offFetchFace line with
      | .ok (a, b, c) => (some (.ok (.face a b c)), s)
      | .error e => (some (.error (.line s.iLine line e)), { s with isDone := true })

/-- the `while` loop of `/repo/src/io/off.rs` L234-290 -/
def offMeshLoop (T : FloatText α) : List Bytes → OffMeshIter →
    Option (Except (LineInfo OffError) (Item (Point3D α))) × OffMeshIter
  | [], s => (none, { s with lines := [], isDone := true })
  | line :: rest, s =>
    let s := { s with lines := rest, iLine := s.iLine + 1 }
    if !s.offSeen && startsWith line b!"OFF" then offMeshLoop T rest { s with offSeen := true }
    else if line.isEmpty || startsWith line b!"#" then offMeshLoop T rest s
    else offMeshLine T line s

/-- `/repo/src/io/off.rs` L234-290 -/
def offMeshNext (T : FloatText α) (s : OffMeshIter) : Option (Except (LineInfo OffError) (Item (Point3D α))) × OffMeshIter :=
  if s.isDone then (none, s) else offMeshLoop T s.lines s

/-- body of the loop in `/repo/src/io/off.rs` L311-326 -/
def offPush (m : TMesh (Point3D α)) : Item (Point3D α) → TMesh (Point3D α) × Except (LineInfo OffError) Unit
  | .data p => ((m.addVertex p).1, .ok ())
  | .face a b c =>
    match m.tryAddConnection a b c with
    | (m', .ok _) => (m', .ok ())
    | (m', .error _) => (m', .error (.none .InvalidMeshIndices))
  | .reserve _ _ => (m, .ok ())

/-- `/repo/src/io/off.rs` L303-329 -/
def loadOffMesh (T : FloatText α) (input : Bytes) (m : TMesh (Point3D α)) :
    Panics (TMesh (Point3D α) × Except (LineInfo OffError) Unit) :=
  forEach (fun s => some (offMeshNext T s)) offPush ((lines input).length + 1) ⟨lines input, false, 0, false, none, 0⟩ m

/-- a line that is neither the first `OFF` nor empty nor a comment: `/repo/src/io/off.rs` L97-131; of `counts` only the
first component is used -/
def offPointsLine (T : FloatText α) (line : Bytes) (s : OffMeshIter) :
    Option (Except (LineInfo OffError) (Item (Point3D α))) × OffMeshIter :=
  match s.counts with
  | none =>
    match nthNum parseNat (toWords line) 0 with
    | some n => (some (.ok (.reserve n 0)), { s with counts := some (n, 0) })
    | none => (some (.error (.line s.iLine line .VertexCount)), { s with isDone := true })
  | some (n, _) =>
    if s.nVerticesAdded < n then
      match offFetchVertex T line with
      | .ok p => (some (.ok (.data p)), { s with nVerticesAdded := s.nVerticesAdded + 1 })
      | .error e => (some (.error (.line s.iLine line e)), { s with nVerticesAdded := s.nVerticesAdded + 1, isDone := true })
    else (none, { s with isDone := true })

/-- the `while` loop of `/repo/src/io/off.rs` L85-132; the state is shared with the mesh iterator, of `counts` only the
first component is used -/
def offPointsLoop (T : FloatText α) : List Bytes → OffMeshIter →
    Option (Except (LineInfo OffError) (Item (Point3D α))) × OffMeshIter
  | [], s => (none, { s with lines := [], isDone := true })
  | line :: rest, s =>
    let s := { s with lines := rest, iLine := s.iLine + 1 }
    if !s.offSeen && startsWith line b!"OFF" then offPointsLoop T rest { s with offSeen := true }
    else if line.isEmpty || startsWith line b!"#" then offPointsLoop T rest s
    else offPointsLine T line s

/-- `/repo/src/io/off.rs` L80-137 -/
def offPointsNext (T : FloatText α) (s : OffMeshIter) : Option (Except (LineInfo OffError) (Item (Point3D α))) × OffMeshIter :=
  if s.isDone then (none, s) else offPointsLoop T s.lines s

/-- `DataReserve::Reserve(x) => ip.reserve(x), DataReserve::Data(x) => ip.push(x)`; e.g. `/repo/src/io/off.rs` L340-345 -/
def pushItem {ε : Type} (l : List (Point3D α)) : Item (Point3D α) → List (Point3D α) × Except ε Unit
  | .data p => (l ++ [p], .ok ())
  | _ => (l, .ok ())

/-- `/repo/src/io/off.rs` L332-348 -/
def loadOffPoints (T : FloatText α) (input : Bytes) : Panics (List (Point3D α) × Except (LineInfo OffError) Unit) :=
  forEach (fun s => some (offPointsNext T s)) pushItem ((lines input).length + 1) ⟨lines input, false, 0, false, none, 0⟩ []

/-! ### .pts -/

/-- `/repo/src/io/pts.rs` L199-203 -/
inductive PtsError where
  | AccessFile
  | VertexCount
  | Vertex
deriving DecidableEq, Repr

/-- `/repo/src/io/pts.rs` L39-51 -/
structure PtsIter where
  lines : List Bytes
  isDone : Bool
  iLine : Nat
  nVertices : Option Nat
  nVerticesAdded : Nat
deriving DecidableEq, Repr

/-- a non empty line: `/repo/src/io/pts.rs` L111-161 -/
def ptsLine (T : FloatText α) (line : Bytes) (s : PtsIter) : Option (Except (LineInfo PtsError) (Item (Point3D α))) × PtsIter :=
  match s.nVertices with
  | none =>
    match nthNum parseNat (toWords line) 0 with
    | some n => (some (.ok (.reserve n 0)), { s with nVertices := some n })
    | none => (some (.error (.line s.iLine line .VertexCount)), { s with isDone := true })
  | some n =>
    if s.nVerticesAdded < n then
      match vertexOf T .Vertex (toWords line) with
      | .ok p => (some (.ok (.data p)), { s with nVerticesAdded := s.nVerticesAdded + 1 })
      | .error e => (some (.error (.line s.iLine line e)), { s with nVerticesAdded := s.nVerticesAdded + 1, isDone := true })
    else
      match nthNum parseNat (toWords line) 0 with
      | some n => (some (.ok (.reserve n 0)), { s with nVertices := some n, nVerticesAdded := 0 })
      | none => (some (.error (.line s.iLine line .VertexCount)), { s with nVerticesAdded := 0, isDone := true })

/-- the `while` loop of `/repo/src/io/pts.rs` L104-162 -/
def ptsLoop (T : FloatText α) : List Bytes → PtsIter → Option (Except (LineInfo PtsError) (Item (Point3D α))) × PtsIter
  | [], s => (none, { s with lines := [], isDone := true })
  | line :: rest, s =>
    let s := { s with lines := rest, iLine := s.iLine + 1 }
    if line.isEmpty then ptsLoop T rest s
    else ptsLine T line s

/-- `/repo/src/io/pts.rs` L100-167 -/
def ptsNext (T : FloatText α) (s : PtsIter) : Option (Except (LineInfo PtsError) (Item (Point3D α))) × PtsIter :=
  if s.isDone then (none, s) else ptsLoop T s.lines s

/-- `/repo/src/io/pts.rs` L178-194 -/
def loadPts (T : FloatText α) (input : Bytes) : Panics (List (Point3D α) × Except (LineInfo PtsError) Unit) :=
  forEach (fun s => some (ptsNext T s)) pushItem ((lines input).length + 1) ⟨lines input, false, 0, none, 0⟩ []

/-! ### .gcode -/

/-- `/repo/src/io/gcode.rs` L263-266 -/
inductive GcodeError where
  | AccessFile
  | Command
deriving DecidableEq, Repr

/-- `/repo/src/io/gcode.rs` L39-54; `relative` is the enum of L257-260 -/
structure GcodeIter (α : Type) where
  lines : List Bytes
  isDone : Bool
  iLine : Nat
  relative : Bool
  pos : Point3D α
deriving DecidableEq, Repr

/-- `/repo/src/io/gcode.rs` L211-255 -/
def gcodeCommandLoop (T : FloatText α) : List Bytes → Nat → Option α → Option α → Option α →
    Option (Option α × Option α × Option α)
  | [], _, x, y, z => some (x, y, z)
  | word :: words, nFound, x, y, z =>
    if nFound = 3 then some (x, y, z)
    else match word with
      | [] => gcodeCommandLoop T words nFound x y z
      | c :: arg =>
        if c = 59 then some (x, y, z)
        else if arg = [] then gcodeCommandLoop T words nFound x y z
        else if c = 88 then
          match fromAscii T.parse arg with
          | none => none
          | some v => gcodeCommandLoop T words (nFound + 1) (some v) y z
        else if c = 89 then
          match fromAscii T.parse arg with
          | none => none
          | some v => gcodeCommandLoop T words (nFound + 1) x (some v) z
        else if c = 90 then
          match fromAscii T.parse arg with
          | none => none
          | some v => gcodeCommandLoop T words (nFound + 1) x y (some v)
        else gcodeCommandLoop T words nFound x y z

/-- `/repo/src/io/gcode.rs` L211-255 -/
def gcodeCommand (T : FloatText α) (line : Bytes) : Option (Option α × Option α × Option α) :=
  gcodeCommandLoop T (splitP (fun b => b == 32) line) 0 none none none

/-- one axis of a move: `match self.ra { Absolute => self.x = new_x, Relative => self.x += new_x }`; `/repo/src/io/gcode.rs` L104-127 -/
def gcodeMove [Add α] (relative : Bool) (cur : α) : Option α → α
  | none => cur
  | some v => if relative then cur + v else v

/-- the `while` loop of `/repo/src/io/gcode.rs` L88-177 -/
def gcodeLoop [Add α] (T : FloatText α) : List Bytes → GcodeIter α → Option (Except (LineInfo GcodeError) (Point3D α)) × GcodeIter α
  | [], s => (none, { s with lines := [], isDone := true })
  | line :: rest, s =>
    let s := { s with lines := rest, iLine := s.iLine + 1 }
    match line with
    | c0 :: c1 :: c2 :: c3 :: tail =>
      if c0 = 71 then
        if c2 = 32 ∧ (c1 = 49 ∨ c1 = 50 ∨ c1 = 51) then
          match gcodeCommand T (c3 :: tail) with
          | none => (some (.error (.line s.iLine line .Command)), { s with isDone := true })
          | some (ox, oy, oz) =>
            let p : Point3D α := ⟨gcodeMove s.relative s.pos.x ox, gcodeMove s.relative s.pos.y oy, gcodeMove s.relative s.pos.z oz⟩
            if ox.isSome || oy.isSome || oz.isSome then (some (.ok p), { s with pos := p })
            else gcodeLoop T rest s
        else if c1 = 57 ∧ c3 = 32 then
          if c2 = 48 then gcodeLoop T rest { s with relative := false }
          else if c2 = 49 then gcodeLoop T rest { s with relative := true }
          else if c2 = 50 then
            match gcodeCommand T tail with
            | none => (some (.error (.line s.iLine line .Command)), { s with isDone := true })
            | some (ox, oy, oz) =>
              let p : Point3D α := ⟨ox.getD s.pos.x, oy.getD s.pos.y, oz.getD s.pos.z⟩
              if ox.isSome || oy.isSome || oz.isSome then (some (.ok p), { s with pos := p })
              else gcodeLoop T rest s
          else gcodeLoop T rest s
        else gcodeLoop T rest s
      else gcodeLoop T rest s
    | _ => gcodeLoop T rest s

/-- `/repo/src/io/gcode.rs` L84-181 -/
def gcodeNext [Add α] (T : FloatText α) (s : GcodeIter α) : Option (Except (LineInfo GcodeError) (Point3D α)) × GcodeIter α :=
  if s.isDone then (none, s) else gcodeLoop T s.lines s

/-- `/repo/src/io/gcode.rs` L194-207; `zero` is `0.0` -/
def loadGcode [Add α] (T : FloatText α) (zero : α) (input : Bytes) : Option (List (Point3D α) × Except (LineInfo GcodeError) Unit) :=
  drain (gcodeNext T) ((lines input).length + 1) ⟨lines input, false, 0, false, ⟨zero, zero, zero⟩⟩

/-! ### .ptx -/

/-- `/repo/src/io/ptx.rs` L262-269 -/
inductive PtxError where
  | LoadFileEndReached
  | AccessFile
  | Columns
  | Rows
  | Matrix
  | Point
deriving DecidableEq, Repr

/-- `/repo/src/io/ptx.rs` L39-52 -/
structure PtxIter (α : Type) where
  lines : List Bytes
  isDone : Bool
  iLine : Nat
  nPointsToFetch : Nat
  mustTransform : Bool
  transformation : Matrix4 α

/-- `/repo/src/io/ptx.rs` L248-257 -/
def readMatrixRow (T : FloatText α) (line : Bytes) : Option (Fin 4 → α) :=
  let words := toWords line
  match nthNum T.parse words 0, nthNum T.parse words 1, nthNum T.parse words 2, nthNum T.parse words 3 with
  | some a, some b, some c, some d => some ![a, b, c, d]
  | _, _, _, _ => none

/-- derived `PartialEq` of `Matrix4` (`/repo/src/matrix4.rs` L32) -/
def Matrix4.beq [Scalar α] (a b : Matrix4 α) : Bool :=
  (List.finRange 4).all fun i => (List.finRange 4).all fun j => a.data i j ==. b.data i j

/-- `/repo/src/io/ptx.rs` L73-96 -/
def ptxFetchOne [Scalar α] (T : FloatText α) (line : Bytes) (mustTransform : Bool) (m : Matrix4 α) : Except PtxError (Point3D α) :=
  match vertexOf T .Point (toWords line) with
  | .ok p => .ok (if mustTransform then p.transformed m else p)
  | .error e => .error e

/-- one of the matrix rows, `/repo/src/io/ptx.rs` L123-127; `some` is the row with the remaining lines -/
def ptxRow (T : FloatText α) (ls : List Bytes) (i : Nat) : Except (LineInfo PtxError) ((Fin 4 → α) × List Bytes) :=
  match ls with
  | [] => .error (.index i .LoadFileEndReached)
  | line :: rest =>
    match readMatrixRow T line with
    | some r => .ok (r, rest)
    | none => .error (.line (i + 1) line .Matrix)

/-- a skipped line, `/repo/src/io/ptx.rs` L107-121 -/
def ptxSkip (ls : List Bytes) (i : Nat) : Except (LineInfo PtxError) (List Bytes) :=
  match ls with
  | [] => .error (.index i .LoadFileEndReached)
  | _ :: rest => .ok rest

/-- the row count, `/repo/src/io/ptx.rs` L100-105 -/
def ptxRows (ls : List Bytes) (i : Nat) : Except (LineInfo PtxError) (Nat × List Bytes) :=
  match ls with
  | [] => .error (.index i .LoadFileEndReached)
  | line :: rest =>
    match fromAscii parseNat line with
    | some r => .ok (r, rest)
    | none => .error (.line (i + 1) line .Rows)

/-- `/repo/src/io/ptx.rs` L99-161; returns rows, the matrix and the remaining lines. -/
def ptxHeader (T : FloatText α) (ls : List Bytes) (i : Nat) : Except (LineInfo PtxError) (Nat × Matrix4 α × List Bytes) := do
  let (rows, ls) ← ptxRows ls i
  let ls ← ptxSkip ls (i + 1)
  let ls ← ptxSkip ls (i + 2)
  let ls ← ptxSkip ls (i + 3)
  let ls ← ptxSkip ls (i + 4)
  let (r1, ls) ← ptxRow T ls (i + 5)
  let (r2, ls) ← ptxRow T ls (i + 6)
  let (r3, ls) ← ptxRow T ls (i + 7)
  let (r4, ls) ← ptxRow T ls (i + 8)
  return (rows, ⟨![r1, r2, r3, r4]⟩, ls)

/-- `/repo/src/io/ptx.rs` L171-214; `rows * columns` beyond `usize` panics. After an error in the header the iterator is
done, so that the line position left by `fetch_header` is not observable. -/
def ptxNext [Scalar α] (T : FloatText α) (s : PtxIter α) : Panics (Option (Except (LineInfo PtxError) (Item (Point3D α))) × PtxIter α) :=
  if s.isDone then some (none, s)
  else if s.nPointsToFetch = 0 then
    match s.lines with
    | [] => some (none, { s with isDone := true })
    | line :: rest =>
      match fromAscii parseNat line with
      | none => some (some (.error (.index (s.iLine + 1) .Columns)), { s with lines := rest, iLine := s.iLine + 1, isDone := true })
      | some columns =>
        match ptxHeader T rest (s.iLine + 1) with
        | .error e => some (some (.error e), { s with lines := rest, iLine := s.iLine + 1, isDone := true })
        | .ok (rows, m, rest') =>
          if rows * columns < 2 ^ 64 then
            some (some (.ok (.reserve (rows * columns) 0)),
              ⟨rest', false, s.iLine + 10, rows * columns, !(m.beq Matrix4.identity), m⟩)
          else none
  else
    match s.lines with
    | [] => some (some (.error (.index s.iLine .LoadFileEndReached)), { s with nPointsToFetch := s.nPointsToFetch - 1, isDone := true })
    | line :: rest =>
      let s' := { s with lines := rest, iLine := s.iLine + 1, nPointsToFetch := s.nPointsToFetch - 1 }
      match ptxFetchOne T line s.mustTransform s.transformation with
      | .ok p => some (some (.ok (.data p)), s')
      | .error e => some (some (.error (.line (s.iLine + 1) line e)), s')

/-- `/repo/src/io/ptx.rs` L59-70 -/
def PtxIter.new [Scalar α] (input : Bytes) : PtxIter α := ⟨R3D.lines input, false, 0, 0, false, Matrix4.identity⟩

/-- `/repo/src/io/ptx.rs` L227-243 -/
def loadPtx [Scalar α] (T : FloatText α) (input : Bytes) : Panics (List (Point3D α) × Except (LineInfo PtxError) Unit) :=
  forEach (ptxNext T) pushItem ((lines input).length + 1) (PtxIter.new input) []

end R3D

import Verif.Model.TextLoad
import Verif.Model.ByteCodec
/-!
Readers as the operating system has them: they hand over a file in portions, may be interrupted, and may fail. What
`Model/Text.lean` and `Model/ByteCodec.lean` say about lists of bytes is related to them in `Props/Device.lean`.

Simplifications: after an error every further call fails as well; all errors but `Interrupted` are one.
-/
namespace R3D

/-- what a call of `BufRead::fill_buf` or `Read::read` has to offer; used by `/repo/src/io/utils.rs` L41, L97 -/
inductive Portion where
  | data (bytes : Bytes)
  | interrupted
deriving DecidableEq, Repr

/-- a reader: its portions in order, and whether it fails after them instead of reaching the end; the `R: BufRead` of
`/repo/src/io/utils.rs` L92-95 -/
structure Device where
  portions : List Portion
  fails : Bool
deriving DecidableEq, Repr

/-- all bytes a reader hands over; the parameter `read` of the loaders, e.g. `/repo/src/io/xyz.rs` L162 -/
def Device.content (d : Device) : Bytes :=
  d.portions.flatMap fun
    | .data bs => bs
    | .interrupted => []

/-- the bytes of a portion that have not been consumed stay in front; `BufRead::consume`, used by `read_until` in
`/repo/src/io/utils.rs` L97 -/
def putBack (rest : Bytes) (ps : List Portion) : List Portion := if rest = [] then ps else .data rest :: ps

/-- `BufRead::read_until(b'\n', ..)` of the standard library: repeats interrupted calls, collects portions until one
contains the delimiter, ends at an empty portion; `none` is an error. `/repo/src/io/utils.rs` L97 -/
def devUntil (fails : Bool) : List Portion → Option Bytes × List Portion
  | [] => (if fails then none else some [], [])
  | .interrupted :: ps => devUntil fails ps
  | .data bs :: ps =>
    if (10 : UInt8) ∈ bs then (some (readUntilNl bs).1, putBack (readUntilNl bs).2 ps)
    else if bs = [] then (some [], ps)
    else let r := devUntil fails ps; (r.1.map fun more => bs ++ more, r.2)

/-- `Read::read_exact` of the standard library on a buffer of `n` bytes; `none` is an error. `/repo/src/io/byte_reader.rs`
L84 and the other readers -/
def devExact : Nat → List Portion → Option Bytes × List Portion
  | 0, ps => (some [], ps)
  | _ + 1, [] => (none, [])
  | n + 1, .interrupted :: ps => devExact (n + 1) ps
  | n + 1, .data bs :: ps =>
    if bs = [] then (none, ps)
    else if n + 1 ≤ bs.length then (some (bs.take (n + 1)), putBack (bs.drop (n + 1)) ps)
    else let r := devExact (n + 1 - bs.length) ps; (r.1.map fun more => bs ++ more, r.2)

/-- `/repo/src/io/utils.rs` L92-114 -/
def Device.fetchLine (d : Device) : Option Bytes × Device :=
  match devUntil d.fails d.portions with
  | (none, ps) => (none, { d with portions := ps })
  | (some buf, ps) => (if buf.length = 0 then none else some (cleanLine buf), { d with portions := ps })

/-- `/repo/src/io/byte_reader.rs` L84 and the other readers -/
def Device.readExact (d : Device) (n : Nat) : Option Bytes × Device :=
  ((devExact n d.portions).1, { d with portions := (devExact n d.portions).2 })

/-- `/repo/src/io/utils.rs` L35-45 -/
def Device.skipBytes : Nat → Device → Option Unit × Device
  | 0, d => (some (), d)
  | n + 1, d =>
    match d.readExact 1 with
    | (none, d) => (none, d)
    | (some _, d) => Device.skipBytes n d

/-- the lines `fetch_line` returns until it fails, at most `fuel`; repeating `/repo/src/io/utils.rs` L92-114 -/
def devLines : Nat → Device → List Bytes
  | 0, _ => []
  | fuel + 1, d =>
    match d.fetchLine with
    | (none, _) => []
    | (some l, d') => l :: devLines fuel d'

/-- the lines `fetch_line` returns until it fails; every line takes a byte. Repeating `/repo/src/io/utils.rs` L92-114 -/
def Device.lines (d : Device) : List Bytes := devLines d.content.length d

variable {α : Type}

/-- `/repo/src/io/xyz.rs` L162-175 -/
def Device.loadXyz (T : FloatText α) (d : Device) : Option (List (Point3D α) × Except (LineInfo XyzError) Unit) :=
  drain (XyzIter.next (xyzFetchOne T)) (d.lines.length + 1) ⟨d.lines, false, 0, none⟩
/-- `/repo/src/io/xy.rs` L147-160 -/
def Device.loadXy (T : FloatText α) (d : Device) : Option (List (Point2D α) × Except (LineInfo XyzError) Unit) :=
  drain (XyzIter.next (xyFetchOne T)) (d.lines.length + 1) ⟨d.lines, false, 0, none⟩
/-- `/repo/src/io/obj.rs` L186-208 -/
def Device.loadObjMesh (T : FloatText α) (d : Device) (m : TMesh (Point3D α)) :
    Panics (TMesh (Point3D α) × Except (LineInfo ObjError) Unit) :=
  forEach (objMeshNext T) objPush (d.lines.length + 1) ⟨d.lines, false, 0⟩ m
/-- `/repo/src/io/obj.rs` L211-224 -/
def Device.loadObjPoints (T : FloatText α) (d : Device) : Option (List (Point3D α) × Except (LineInfo ObjError) Unit) :=
  drain (objPointsNext T) (d.lines.length + 1) ⟨d.lines, false, 0⟩
/-- `/repo/src/io/off.rs` L303-329 -/
def Device.loadOffMesh (T : FloatText α) (d : Device) (m : TMesh (Point3D α)) :
    Panics (TMesh (Point3D α) × Except (LineInfo OffError) Unit) :=
  forEach (fun s => some (offMeshNext T s)) offPush (d.lines.length + 1) ⟨d.lines, false, 0, false, none, 0⟩ m
/-- `/repo/src/io/off.rs` L332-348 -/
def Device.loadOffPoints (T : FloatText α) (d : Device) : Panics (List (Point3D α) × Except (LineInfo OffError) Unit) :=
  forEach (fun s => some (offPointsNext T s)) pushItem (d.lines.length + 1) ⟨d.lines, false, 0, false, none, 0⟩ []
/-- `/repo/src/io/pts.rs` L178-194 -/
def Device.loadPts (T : FloatText α) (d : Device) : Panics (List (Point3D α) × Except (LineInfo PtsError) Unit) :=
  forEach (fun s => some (ptsNext T s)) pushItem (d.lines.length + 1) ⟨d.lines, false, 0, none, 0⟩ []
/-- `/repo/src/io/gcode.rs` L194-207 -/
def Device.loadGcode [Add α] (T : FloatText α) (zero : α) (d : Device) :
    Option (List (Point3D α) × Except (LineInfo GcodeError) Unit) :=
  drain (gcodeNext T) (d.lines.length + 1) ⟨d.lines, false, 0, false, ⟨zero, zero, zero⟩⟩
/-- `/repo/src/io/ptx.rs` L227-243 -/
def Device.loadPtx [Scalar α] (T : FloatText α) (d : Device) : Panics (List (Point3D α) × Except (LineInfo PtxError) Unit) :=
  forEach (ptxNext T) pushItem (d.lines.length + 1) ⟨d.lines, false, 0, 0, false, Matrix4.identity⟩ []

end R3D

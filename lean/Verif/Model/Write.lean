import Verif.Model.Ply
import Verif.Model.Stl
/-!
What the savers do with the `Write` they are given (`/repo/src/io/{xyz,xy,stl}.rs`, `/repo/src/io/ply/save.rs`).

`Verif/Model/TextLoad.lean`, `Stl.lean` and `Ply.lean` model the savers as the bytes they hand over. Here the writer may take
less than it is given, as `std::io::Write::write` allows, may be interrupted and may fail. A writer is modelled by the bytes it
took so far and by its answers to the calls of `write` to come; after those it takes everything. Every run of a saver that ends
sees finitely many answers, so that is no restriction.

Not modelled: buffering writers that report a failure only when flushed or dropped (no saver calls `flush`), and panics while
saving (`save_stl_ascii` with a degenerate face, see C64).
-/
namespace R3D

/-- an answer to `std::io::Write::write`; for `/repo/src/io/ply/save.rs` L195 -/
inductive WriteAnswer where
  /-- the first `n` bytes (or all, if there are less) were taken -/
  | took (n : Nat)
  /-- `ErrorKind::Interrupted` -/
  | interrupted
  /-- any other error -/
  | failed
deriving DecidableEq, Repr

/-- `impl Write`; `write: &mut W` of `/repo/src/io/ply/save.rs` L34 -/
structure Writer where
  /-- what was taken so far -/
  taken : Bytes
  /-- the answers to the next calls; after them everything is taken -/
  answers : List WriteAnswer
deriving DecidableEq, Repr

/-- `std::io::Write::write`: how many bytes were taken; `/repo/src/io/ply/save.rs` L195 -/
def Writer.write (w : Writer) (buf : Bytes) : Writer × Except WriteAnswer Nat :=
  match w.answers with
  | [] => (⟨w.taken ++ buf, []⟩, .ok buf.length)
  | .took n :: as => (⟨w.taken ++ buf.take n, as⟩, .ok (min n buf.length))
  | a :: as => (⟨w.taken, as⟩, .error a)

/-- `std::io::Write::write_all`: `write` until nothing is left. An interruption is tried again, taking nothing is the error
`WriteZero`; for `/repo/src/io/ply/save.rs` L54 -/
def writeAllLoop : List WriteAnswer → Bytes → Bytes → Writer × Bool
  | as, taken, [] => (⟨taken, as⟩, true)
  | [], taken, buf => (⟨taken ++ buf, []⟩, true)
  | .interrupted :: as, taken, buf => writeAllLoop as taken buf
  | .failed :: as, taken, _ => (⟨taken, as⟩, false)
  | .took 0 :: as, taken, _ => (⟨taken, as⟩, false)
  | .took (n + 1) :: as, taken, buf => writeAllLoop as (taken ++ buf.take (n + 1)) (buf.drop (n + 1))

/-- `std::io::Write::write_all`: whether it succeeded; `/repo/src/io/ply/save.rs` L54 -/
def Writer.writeAll (w : Writer) (buf : Bytes) : Writer × Bool := writeAllLoop w.answers w.taken buf

/-- a call in a saver; e.g. `/repo/src/io/ply/save.rs` L189-216 -/
inductive WriteCall where
  /-- `write.write_all(..)?` -/
  | all (bs : Bytes)
  /-- `write.write(..)?`, the number of bytes taken is ignored -/
  | once (bs : Bytes)
deriving DecidableEq, Repr

/-- the bytes of a call; e.g. `/repo/src/io/ply/save.rs` L189-216 -/
def WriteCall.bytes : WriteCall → Bytes
  | .all bs => bs
  | .once bs => bs

/-- a call, and whether it succeeded; e.g. `/repo/src/io/ply/save.rs` L189-216 -/
def WriteCall.run (w : Writer) : WriteCall → Writer × Bool
  | .all bs => w.writeAll bs
  | .once bs =>
    match w.write bs with
    | (w', .ok _) => (w', true)
    | (w', .error _) => (w', false)

/-- the calls of a saver, up to the first error: whether the saver returns `Ok`; e.g. `/repo/src/io/ply/save.rs` L189-216 -/
def runCalls (w : Writer) : List WriteCall → Writer × Bool
  | [] => (w, true)
  | c :: cs =>
    match c.run w with
    | (w', true) => runCalls w' cs
    | (w', false) => (w', false)

/-- `/repo/src/io/xyz.rs` L147-157 -/
def xyzCalls {α : Type} (T : FloatText α) (pts : List (Point3D α)) (delimCoord delimPos : Bytes) : List WriteCall :=
  pts.map fun p => .all (T.fmt p.x ++ delimCoord ++ T.fmt p.y ++ delimCoord ++ T.fmt p.z ++ delimPos)

/-- `/repo/src/io/xy.rs` L137-142 -/
def xyCalls {α : Type} (T : FloatText α) (pts : List (Point2D α)) (delimCoord delimPos : Bytes) : List WriteCall :=
  pts.map fun p => .all (T.fmt p.x ++ delimCoord ++ T.fmt p.y ++ delimPos)

/-- `/repo/src/io/stl.rs` L62-85 -/
def stlCalls (T : FloatText F64) (m : TMesh StlPoint) : Panics (List WriteCall) := do
  let facets ← (List.range m.numFaces).mapM (stlFacetText T m)
  return .all b!"solid STL generated by rust-3d\n" :: facets.map .all ++ [.all b!"endsolid STL generated by rust-3d\n"]

/-- `/repo/src/io/ply/save.rs` L54-73 -/
def plyAsciiCalls (T : FloatText F64) (m : TMesh PlyPoint) : List WriteCall :=
  .all (plyHeaderText b!"ascii" b!"float" b!"uchar uint" false m.numVertices m.numFaces) ::
  (m.verts.map fun p => .all (plyVertexText T p)) ++ m.faces.map fun f => .all (plyFaceText f)

/-- `/repo/src/io/ply/save.rs` L89-141 -/
def plyAsciiColoredCalls (T : FloatText F64) (m : TMesh PlyPoint) (colors : List Rgb) : Except PlyError (List WriteCall) :=
  if m.numVertices ≠ colors.length then .error .ColorArrayIncorrectLength
  else .ok (.all (plyHeaderText b!"ascii" b!"float" b!"uchar uint" true m.numVertices m.numFaces) ::
    ((m.verts.zip colors).map fun x => .all (plyColoredText T x)) ++ m.faces.map fun f => .all (plyFaceText f))

/-- `/repo/src/io/ply/save.rs` L195-197, L204-206 -/
def plyVertexCalls : Precision → PlyPoint → List WriteCall
  | .P32, p => [.once (F64.toBytes32 .big p.x), .once (F64.toBytes32 .big p.y), .once (F64.toBytes32 .big p.z)]
  | .P64, p => [.once (F64.toBytes64 .big p.x), .once (F64.toBytes64 .big p.y), .once (F64.toBytes64 .big p.z)]

/-- `/repo/src/io/ply/save.rs` L213-216 -/
def plyFaceCalls (f : Face3) : List WriteCall :=
  [.once (bytesOfNat .big 1 3), .once (bytesOfNat .big 4 (f.a % 2 ^ 32)), .once (bytesOfNat .big 4 (f.b % 2 ^ 32)),
   .once (bytesOfNat .big 4 (f.c % 2 ^ 32))]

/-- `/repo/src/io/ply/save.rs` L189-217 -/
def plyBinaryCalls (m : TMesh PlyPoint) (precision : Precision) : List WriteCall :=
  .all (plyHeaderText b!"binary_big_endian" (plyCoordWord precision) b!"uint8 uint32" false m.numVertices m.numFaces) ::
  m.verts.flatMap (plyVertexCalls precision) ++ m.faces.flatMap plyFaceCalls

/-- `/repo/src/io/ply/save.rs` L239-320 -/
def plyBinaryColoredCalls (m : TMesh PlyPoint) (precision : Precision) (colors : List Rgb) : Except PlyError (List WriteCall) :=
  if m.numVertices ≠ colors.length then .error .ColorArrayIncorrectLength
  else .ok (.all (plyHeaderText b!"binary_big_endian" (plyCoordWord precision) b!"uint8 uint32" true m.numVertices m.numFaces) ::
    (m.verts.zip colors).flatMap (fun x => plyVertexCalls precision x.1 ++ [.once [x.2.r], .once [x.2.g], .once [x.2.b]]) ++
    m.faces.flatMap plyFaceCalls)

end R3D

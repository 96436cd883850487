import Verif.Model.Device
import Verif.Model.Ply
/-!
`/repo/src/io/ply` on readers that hand over their data in portions and may fail (`Model/Device.lean`).

Simplifications: those of `Model/Ply.lean` and `Model/Device.lean`.
-/
namespace R3D

/-- `/repo/src/io/ply/header.rs` L67-273; as `plyHeaderLoop` -/
def devPlyHeaderLoop : Nat → Device → Nat → PlyHeaderState → Panics (Except (LineInfo PlyError) (PlyHeader × Device × Nat))
  | 0, _, _, _ => none
  | n + 1, d, i, s =>
    match d.fetchLine with
    | (none, _) => some (.error (.none .LoadHeaderInvalid))
    | (some line, d) =>
      match plyHeaderLine line s with
      | none => none
      | some (.error e) => some (.error (.line (i + 1) line e))
      | some (.ok (.next s)) => devPlyHeaderLoop n d (i + 1) s
      | some (.ok (.done h)) => some (.ok (h, d, i + 1))

/-- `/repo/src/io/ply/header.rs` L36-274 -/
def devPlyLoadHeader (d : Device) : Panics (Except (LineInfo PlyError) (PlyHeader × Device × Nat)) :=
  devPlyHeaderLoop (d.content.length + 1) d 0 PlyHeaderState.init

/-- code with `?` on a reader, the only failure being `AccessFile`; as in `/repo/src/io/ply/iterators_internal.rs` L233-260 -/
abbrev DevRead (β : Type) := Device → Option β × Device

/-- the next step is taken if there was no failure; `?` as in `/repo/src/io/ply/iterators_internal.rs` L233-260 -/
def DevRead.andThen {β γ : Type} (a : DevRead β) (f : β → DevRead γ) : DevRead γ := fun d =>
  match a d with
  | (none, d) => (none, d)
  | (some x, d) => f x d

/-- the number of bytes `BR::read_i8` … `BR::read_u32` read; `/repo/src/io/ply/utils.rs` L53-66 -/
def FaceType.width : FaceType → Nat
  | .Char | .UChar => 1
  | .Short | .UShort => 2
  | .Int | .UInt => 4

/-- `/repo/src/io/ply/utils.rs` L53-66 -/
def devReadFaceType (e : Endian) (t : FaceType) : DevRead Nat := fun d =>
  match d.readExact t.width with
  | (none, d) => (none, d)
  | (some b, d) =>
    (some (match t with
      | .Char | .Short | .Int => usizeOfInt (intOfBytes e b)
      | .UChar | .UShort | .UInt => natOfBytes e b), d)

/-- `/repo/src/io/ply/utils.rs` L71-80 -/
def devReadVertexType (e : Endian) (t : VertexType) : DevRead F64 := fun d =>
  match t with
  | .Float => match d.readExact 4 with
    | (none, d) => (none, d)
    | (some b, d) => (some (F64.ofBytes32 e b), d)
  | .Double => match d.readExact 8 with
    | (none, d) => (none, d)
    | (some b, d) => (some (F64.ofBytes64 e b), d)

/-- `skip_bytes(read, n)?`; `/repo/src/io/utils.rs` L35-45 -/
def devSkip (n : Nat) : DevRead Unit := fun d => d.skipBytes n

/-- `/repo/src/io/ply/iterators_internal.rs` L233-260 -/
def devPlyBinaryVertex (e : Endian) (h : PlyVertexData) : DevRead PlyPoint :=
  (devSkip h.before.bytes).andThen fun _ =>
  (devReadVertexType e h.first).andThen fun first =>
  (devSkip h.betweenFirstSnd.bytes).andThen fun _ =>
  (devReadVertexType e h.snd).andThen fun snd =>
  (devSkip h.betweenSndThird.bytes).andThen fun _ =>
  (devReadVertexType e h.third).andThen fun third =>
  (devSkip h.after.bytes).andThen fun _ => fun d => (some (pointWithOrder first snd third h.order), d)

/-- `/repo/src/io/ply/iterators_internal.rs` L506-522 -/
def devPlyBinaryFace (e : Endian) (h : PlyFaceData) : DevRead (Except PlyError (Nat × Nat × Nat)) :=
  (devSkip h.before.bytes).andThen fun _ =>
  (devReadFaceType e h.countType).andThen fun n =>
  if n ≠ 3 then fun d => (some (.error .FaceStructure), d)
  else
    (devReadFaceType e h.indexType).andThen fun a =>
    (devReadFaceType e h.indexType).andThen fun b =>
    (devReadFaceType e h.indexType).andThen fun c =>
    (devSkip h.after.bytes).andThen fun _ => fun d => (some (.ok (a, b, c)), d)

/-- the changing fields of the four inner iterators; `/repo/src/io/ply/iterators_internal.rs` L197-209, L298-311, L414-424,
L478-488 -/
structure DevPly where
  read : Device
  isDone : Bool
  current : Nat
  iLine : Nat

/-- `/repo/src/io/ply/iterators_internal.rs` L271-285 -/
def devPlyBinaryPointsNext (e : Endian) (h : PlyVertexData) (s : DevPly) : Option (Except (LineInfo PlyError) PlyPoint) × DevPly :=
  if s.isDone then (none, s)
  else if s.current < h.count then
    match devPlyBinaryVertex e h s.read with
    | (none, d) => (some (.error (.none .AccessFile)), ⟨d, true, s.current + 1, s.iLine⟩)
    | (some p, d) => (some (.ok p), ⟨d, false, s.current + 1, s.iLine⟩)
  else (none, { s with isDone := true })

/-- the end of `/repo/src/io/ply/iterators_internal.rs` L395-401 -/
def devPlyAsciiPointsEnd (h : PlyVertexData) (s : DevPly) : Option (Except (LineInfo PlyError) PlyPoint) × DevPly :=
  if s.current ≠ h.count then (some (.error (.none .LoadVertexCountIncorrect)), { s with isDone := true })
  else (none, { s with isDone := true })

/-- `/repo/src/io/ply/iterators_internal.rs` L376-402 -/
def devPlyAsciiPointsNext (T : FloatText F64) (h : PlyVertexData) (s : DevPly) : Option (Except (LineInfo PlyError) PlyPoint) × DevPly :=
  if s.isDone then (none, s)
  else if s.current < h.count then
    match s.read.fetchLine with
    | (some line, d) =>
      match plyAsciiVertex T h line with
      | .ok p => (some (.ok p), ⟨d, false, s.current + 1, s.iLine + 1⟩)
      | .error e => (some (.error (.line (s.iLine + 1) line e)), ⟨d, true, s.current + 1, s.iLine + 1⟩)
    | (none, d) => devPlyAsciiPointsEnd h { s with read := d, current := s.current + 1 }
  else devPlyAsciiPointsEnd h s

/-- `/repo/src/io/ply/iterators_internal.rs` L448-471 -/
def devPlyAsciiFacesNext (h : PlyFaceData) (s : DevPly) : Option (Except (LineInfo PlyError) (Nat × Nat × Nat)) × DevPly :=
  if s.isDone then (none, s)
  else if s.current < h.count then
    match s.read.fetchLine with
    | (some line, d) =>
      match plyIndexLine line with
      | some f => (some (.ok f), ⟨d, false, s.current + 1, s.iLine + 1⟩)
      | none => (some (.error (.line (s.iLine + 1) line .FaceStructure)), ⟨d, true, s.current + 1, s.iLine + 1⟩)
    | (none, d) => (none, { s with read := d, current := s.current + 1, isDone := true })
  else (none, { s with isDone := true })

/-- `/repo/src/io/ply/iterators_internal.rs` L532-546 -/
def devPlyBinaryFacesNext (e : Endian) (h : PlyFaceData) (s : DevPly) : Option (Except (LineInfo PlyError) (Nat × Nat × Nat)) × DevPly :=
  if s.isDone then (none, s)
  else if s.current < h.count then
    match devPlyBinaryFace e h s.read with
    | (none, d) => (some (.error (.none .AccessFile)), ⟨d, true, s.current + 1, s.iLine⟩)
    | (some (.error x), d) => (some (.error (.none x)), ⟨d, true, s.current + 1, s.iLine⟩)
    | (some (.ok f), d) => (some (.ok f), ⟨d, false, s.current + 1, s.iLine⟩)
  else (none, { s with isDone := true })

/-- `/repo/src/io/ply/iterators.rs` L168-174 -/
def devPlyPointsInner (T : FloatText F64) (format : PlyFormat) (h : PlyVertexData) (s : DevPly) :
    Option (Except (LineInfo PlyError) PlyPoint) × DevPly :=
  match format with
  | .Ascii => devPlyAsciiPointsNext T h s
  | .Binary e => devPlyBinaryPointsNext e h s

/-- `/repo/src/io/ply/iterators.rs` L95-103 -/
def devPlyFacesInner (format : PlyFormat) (h : PlyFaceData) (s : DevPly) :
    Option (Except (LineInfo PlyError) (Nat × Nat × Nat)) × DevPly :=
  match format with
  | .Ascii => devPlyAsciiFacesNext h s
  | .Binary e => devPlyBinaryFacesNext e h s

/-- `p_iter` or `f_iter`; `/repo/src/io/ply/iterators_internal.rs` L39-47, L106-115 -/
inductive DevPlyMesh where
  | points (s : DevPly)
  | faces (s : DevPly)

/-- `/repo/src/io/ply/iterators_internal.rs` L89-93, L155-159 -/
def devPlyMeshFaces (format : PlyFormat) (h : PlyFaceData) (s : DevPly) : Option (Except (LineInfo PlyError) (Item PlyPoint)) × DevPlyMesh :=
  match devPlyFacesInner format h s with
  | (none, s) => (none, .faces s)
  | (some (.error e), s) => (some (.error e), .faces s)
  | (some (.ok (a, b, c)), s) => (some (.ok (.face a b c)), .faces s)

/-- `/repo/src/io/ply/iterators_internal.rs` L71-94, L141-160 -/
def devPlyMeshInner (T : FloatText F64) (format : PlyFormat) (hv : PlyVertexData) (hf : PlyFaceData) :
    DevPlyMesh → Option (Except (LineInfo PlyError) (Item PlyPoint)) × DevPlyMesh
  | .points s =>
    match devPlyPointsInner T format hv s with
    | (some (.ok p), s) => (some (.ok (.data p)), .points s)
    | (some (.error e), s) => (some (.error e), .points s)
    | (none, s) => devPlyMeshFaces format hf ⟨s.read, false, 0, s.iLine⟩
  | .faces s => devPlyMeshFaces format hf s

/-- `/repo/src/io/ply/iterators.rs` L36-43 -/
structure DevPlyMeshIter where
  format : PlyFormat
  vertex : PlyVertexData
  face : PlyFaceData
  inner : DevPlyMesh
  toReserve : Option (Nat × Nat)

/-- `/repo/src/io/ply/iterators.rs` L86-106 -/
def devPlyMeshNext (T : FloatText F64) (s : DevPlyMeshIter) : Option (Except (LineInfo PlyError) (Item PlyPoint)) × DevPlyMeshIter :=
  match s.toReserve with
  | some (n, k) => (some (.ok (.reserve n k)), { s with toReserve := none })
  | none =>
    let r := devPlyMeshInner T s.format s.vertex s.face s.inner
    (r.1, { s with inner := r.2 })

/-- `/repo/src/io/ply/iterators.rs` L50-76 and `/repo/src/io/ply/load.rs` L86-112; the fuel as in `loadPlyMesh` -/
def Device.loadPlyMesh (T : FloatText F64) (d : Device) (m : TMesh PlyPoint) : Panics (TMesh PlyPoint × Except (LineInfo PlyError) Unit) :=
  match devPlyLoadHeader d with
  | none => none
  | some (.error e) => some (m, .error e)
  | some (.ok (h, rest, i)) =>
    match h.face with
    | some f => forEach (fun s => some (devPlyMeshNext T s)) plyPush (d.content.length + 3)
        ⟨h.format, h.vertex, f, .points ⟨rest, false, 0, i⟩, some (h.vertex.count, f.count)⟩ m
    | none => some (m, .error (.none .LoadHeaderInvalid))

/-- `/repo/src/io/ply/iterators.rs` L119-126 -/
structure DevPlyPointsIter where
  format : PlyFormat
  vertex : PlyVertexData
  inner : DevPly
  toReserve : Option Nat

/-- `/repo/src/io/ply/iterators.rs` L163-177 -/
def devPlyPointsNext (T : FloatText F64) (s : DevPlyPointsIter) : Option (Except (LineInfo PlyError) (Item PlyPoint)) × DevPlyPointsIter :=
  match s.toReserve with
  | some n => (some (.ok (.reserve n 0)), { s with toReserve := none })
  | none =>
    let r := devPlyPointsInner T s.format s.vertex s.inner
    (plyData r.1, { s with inner := r.2 })

/-- `/repo/src/io/ply/iterators.rs` L133-153 and `/repo/src/io/ply/load.rs` L117-133; the fuel as in `loadPlyPoints` -/
def Device.loadPlyPoints (T : FloatText F64) (d : Device) (ip : List PlyPoint) : Panics (List PlyPoint × Except (LineInfo PlyError) Unit) :=
  match devPlyLoadHeader d with
  | none => none
  | some (.error e) => some (ip, .error e)
  | some (.ok (h, rest, i)) =>
    forEach (fun s => some (devPlyPointsNext T s)) pushItem (d.content.length + 3) ⟨h.format, h.vertex, ⟨rest, false, 0, i⟩, some h.vertex.count⟩ ip

/-- `/repo/src/io/ply/load.rs` L36-83; the fuel as in `loadPlyEither` -/
def Device.loadPlyEither (T : FloatText F64) (d : Device) (m : TMesh PlyPoint) (ip : List PlyPoint) :
    Panics (TMesh PlyPoint × List PlyPoint × Except (LineInfo PlyError) MeshOrPoints) :=
  match devPlyLoadHeader d with
  | none => none
  | some (.error e) => some (m, ip, .error e)
  | some (.ok (h, rest, i)) =>
    match h.face with
    | some f =>
      (forEach (fun s => some (devPlyMeshInner T h.format h.vertex f s)) plyPush (d.content.length + 3) (.points ⟨rest, false, 0, i⟩) m).map
        fun r => (r.1, ip, r.2.map fun _ => .Mesh)
    | none =>
      (forEach (fun s => let r := devPlyPointsInner T h.format h.vertex s; some (plyData r.1, r.2)) pushItem (d.content.length + 3)
        ⟨rest, false, 0, i⟩ ip).map fun r => (m, r.1, r.2.map fun _ => .Points)

end R3D

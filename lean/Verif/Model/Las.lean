import Verif.Model.ByteCodec
import Verif.Model.TextLoad
/-!
`/repo/src/io/las/load.rs` and `/repo/src/io/las/types.rs`, for a reader over the bytes `file` that is at their start. Seeking
behind the end is no error (as for files and `Cursor`s).
-/
namespace R3D

/-- `/repo/src/io/las/types.rs` L149-155 -/
inductive LasError where
  | AccessFile
  | BinaryData
  | UnknownPointFormat
  | UnsupportedVersion
  | Header
deriving DecidableEq, Repr

/-- `/repo/src/io/las/types.rs` L85-124: the fields that are used -/
structure LasHeaderRaw where
  versionMajor : Nat
  versionMinor : Nat
  offsetPointData : Nat
  pointRecordFormat : Nat
  pointRecordLength : Nat
  legacyNPointRecords : Nat
  scaleFactorX : F64
  scaleFactorY : F64
  scaleFactorZ : F64
  offsetX : F64
  offsetY : F64
  offsetZ : F64
  nPointRecords : Nat
deriving DecidableEq, Repr

/-- `/repo/src/io/las/types.rs` L36-46 -/
structure LasHeader where
  offsetPointData : Nat
  pointRecordLength : Nat
  nPointRecords : Nat
  scaleFactorX : F64
  scaleFactorY : F64
  scaleFactorZ : F64
  offsetX : F64
  offsetY : F64
  offsetZ : F64
deriving DecidableEq, Repr

/-- `/repo/src/io/las/types.rs` L48-79 -/
def LasHeader.tryFrom (x : LasHeaderRaw) : Except LasError LasHeader :=
  if x.versionMajor > 1 || x.versionMinor > 4 then .error .UnsupportedVersion
  else
    let nPointRecords := if x.legacyNPointRecords == 0 then x.nPointRecords else x.legacyNPointRecords
    if x.pointRecordFormat > 10 then .error .UnknownPointFormat
    else .ok ⟨x.offsetPointData, x.pointRecordLength, nPointRecords, x.scaleFactorX, x.scaleFactorY, x.scaleFactorZ, x.offsetX,
      x.offsetY, x.offsetZ⟩

/-- `&buffer[a..b]`, which panics beyond the end; `/repo/src/io/las/load.rs` L75, `/repo/src/io/las/types.rs` L139-141 -/
def sliceOf (buffer : Bytes) (a b : Nat) : Panics Bytes :=
  if a ≤ b ∧ b ≤ buffer.length then some ((buffer.drop a).take (b - a)) else none

/-- `/repo/src/io/las/load.rs` L162-208. The fields without use are left out but for the arrays, the conversion of which could
fail. -/
def lasLoadHeader (read : Bytes) : Panics (Except LasError LasHeaderRaw) :=
  match readExact 375 read with
  | none => some (.error .AccessFile)
  | some (buffer, _) => do
    let signature ← arrayFromBytes 1 (natOfBytes .little) 4 (← sliceOf buffer 0 4)
    let versionMajor ← sliceOf buffer 24 25
    let versionMinor ← sliceOf buffer 25 26
    let systemIdentifier ← arrayFromBytes 1 (natOfBytes .little) 32 (← sliceOf buffer 26 58)
    let generatingSoftware ← arrayFromBytes 1 (natOfBytes .little) 32 (← sliceOf buffer 58 90)
    let offsetPointData ← sliceOf buffer 96 100
    let pointRecordFormat ← sliceOf buffer 104 105
    let pointRecordLength ← sliceOf buffer 105 107
    let legacyNPointRecords ← sliceOf buffer 107 111
    let legacyNPointReturn ← arrayFromBytes 4 (natOfBytes .little) 5 (← sliceOf buffer 111 131)
    let scaleFactorX ← sliceOf buffer 131 139
    let scaleFactorY ← sliceOf buffer 139 147
    let scaleFactorZ ← sliceOf buffer 147 155
    let offsetX ← sliceOf buffer 155 163
    let offsetY ← sliceOf buffer 163 171
    let offsetZ ← sliceOf buffer 171 179
    let nPointRecords ← sliceOf buffer 247 255
    let nPointsReturn ← arrayFromBytes 8 (natOfBytes .little) 15 (← sliceOf buffer 255 375)
    match signature, systemIdentifier, generatingSoftware, legacyNPointReturn, nPointsReturn with
    | .ok _, .ok _, .ok _, .ok _, .ok _ =>
      return .ok
        { versionMajor := natOfBytes .little versionMajor
          versionMinor := natOfBytes .little versionMinor
          offsetPointData := natOfBytes .little offsetPointData
          pointRecordFormat := natOfBytes .little pointRecordFormat
          pointRecordLength := natOfBytes .little pointRecordLength
          legacyNPointRecords := natOfBytes .little legacyNPointRecords
          scaleFactorX := F64.ofBytes64 .little scaleFactorX
          scaleFactorY := F64.ofBytes64 .little scaleFactorY
          scaleFactorZ := F64.ofBytes64 .little scaleFactorZ
          offsetX := F64.ofBytes64 .little offsetX
          offsetY := F64.ofBytes64 .little offsetY
          offsetZ := F64.ofBytes64 .little offsetZ
          nPointRecords := natOfBytes .little nPointRecords }
    | _, _, _, _, _ => return .error .BinaryData

/-- `/repo/src/io/las/load.rs` L41-52; `read` is what is left behind the position in `file` -/
structure LasIter where
  file : Bytes
  read : Bytes
  isDone : Bool
  current : Nat
  header : Option LasHeader
deriving DecidableEq, Repr

/-- `x as f64` for an `i32`; `/repo/src/io/las/load.rs` L77-79 -/
def F64.ofInt (i : Int) : F64 := F64.ofRat i

/-- `/repo/src/io/las/load.rs` L70-85 and `/repo/src/io/las/types.rs` L128-144; also the bytes left. A record of less than 12
bytes makes `buffer[0..12]` panic. -/
def lasFetchOne (h : LasHeader) (read : Bytes) : Panics (Except LasError (Point3D F64) × Bytes) :=
  match readExact h.pointRecordLength read with
  | none => some (.error .AccessFile, [])
  | some (buffer, rest) => do
    let b ← sliceOf buffer 0 12
    let x := intOfBytes .little (← sliceOf b 0 4)
    let y := intOfBytes .little (← sliceOf b 4 8)
    let z := intOfBytes .little (← sliceOf b 8 12)
    return (.ok ⟨h.offsetX + F64.ofInt x * h.scaleFactorX, h.offsetY + F64.ofInt y * h.scaleFactorY,
      h.offsetZ + F64.ofInt z * h.scaleFactorZ⟩, rest)

/-- `load_header(..).and_then(|x| Header::try_from(x))` (`/repo/src/io/las/load.rs` L101) -/
def lasHeader (read : Bytes) : Panics (Except LasError LasHeader) :=
  match lasLoadHeader read with
  | none => none
  | some (.error e) => some (.error e)
  | some (.ok raw) => some (LasHeader.tryFrom raw)

/-- `/repo/src/io/las/load.rs` L94-129 -/
def lasNext (s : LasIter) : Panics (Option (Except LasError (Item (Point3D F64))) × LasIter) :=
  if s.isDone then some (none, s)
  else
    match s.header with
    | none =>
      match lasHeader s.read with
      | none => none
      | some (.error _) => some (some (.error .Header), { s with isDone := true })
      | some (.ok h) =>
        some (some (.ok (.reserve h.nPointRecords 0)), { s with read := s.file.drop h.offsetPointData, header := some h })
    | some h =>
      if s.current < h.nPointRecords then
        match lasFetchOne h s.read with
        | none => none
        | some (.error e, rest) => some (some (.error e), { s with read := rest, current := s.current + 1, isDone := true })
        | some (.ok p, rest) => some (some (.ok (.data p)), { s with read := rest, current := s.current + 1 })
      else some (none, { s with isDone := true })

/-- `DataReserve::Reserve(x) => ip.reserve(x), DataReserve::Data(x) => ip.push(x)`; reserving memory has no effect to be seen;
`/repo/src/io/las/load.rs` L150-155 -/
def lasPush (l : List (Point3D F64)) : Item (Point3D F64) → List (Point3D F64)
  | .data p => l ++ [p]
  | _ => l

/-- `/repo/src/io/las/load.rs` L142-158; every record that does not panic has 12 bytes, so that the fuel suffices -/
def loadLas (file : Bytes) : Panics (List (Point3D F64) × Except LasError Unit) :=
  forEach lasNext (fun m x => (lasPush m x, .ok ())) (file.length + 3) ⟨file, file, false, 0, none⟩ []

end R3D

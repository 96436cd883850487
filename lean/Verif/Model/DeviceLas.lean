import Verif.Model.Device
import Verif.Model.Las
/-!
`/repo/src/io/las/load.rs` on readers that hand over their data in portions and may fail (`Model/Device.lean`).

Simplifications: those of `Model/Las.lean` and `Model/Device.lean`. What a reader does when sent to a position is a
function from the position to the reader afterwards, or a failure.
-/
namespace R3D

/-- the `R: BufRead + Seek` of `/repo/src/io/las/load.rs` L58 -/
structure SeekDevice where
  read : Device
  seek : Nat → Option Device

/-- `/repo/src/io/las/load.rs` L162-208: behind `read_exact` as in `lasLoadHeader` -/
def devLasLoadHeader (d : Device) : Panics (Except LasError LasHeaderRaw) × Device :=
  match d.readExact 375 with
  | (none, d) => (some (.error .AccessFile), d)
  | (some buffer, d) => (lasLoadHeader buffer, d)

/-- `/repo/src/io/las/load.rs` L70-85: behind `read_exact` as in `lasFetchOne` -/
def devLasFetchOne (h : LasHeader) (d : Device) : Panics (Except LasError (Point3D F64) × Device) :=
  match d.readExact h.pointRecordLength with
  | (none, d) => some (.error .AccessFile, d)
  | (some buffer, d) => (lasFetchOne h buffer).map fun r => (r.1, d)

/-- `/repo/src/io/las/load.rs` L41-52 -/
structure DevLas where
  read : SeekDevice
  isDone : Bool
  current : Nat
  header : Option LasHeader

/-- `/repo/src/io/las/load.rs` L94-129 -/
def devLasNext (s : DevLas) : Panics (Option (Except LasError (Item (Point3D F64))) × DevLas) :=
  if s.isDone then some (none, s)
  else
    match s.header with
    | none =>
      match devLasLoadHeader s.read.read with
      | (none, _) => none
      | (some (.error _), d) => some (some (.error .Header), { s with read := { s.read with read := d }, isDone := true })
      | (some (.ok raw), d) =>
        match LasHeader.tryFrom raw with
        | .error _ => some (some (.error .Header), { s with read := { s.read with read := d }, isDone := true })
        | .ok h =>
          match s.read.seek h.offsetPointData with
          | some d => some (some (.ok (.reserve h.nPointRecords 0)), { s with read := { s.read with read := d }, header := some h })
          | none => some (some (.error .BinaryData), { s with read := { s.read with read := d }, isDone := true })
    | some h =>
      if s.current < h.nPointRecords then
        match devLasFetchOne h s.read.read with
        | none => none
        | some (.error e, d) =>
          some (some (.error e), { s with read := { s.read with read := d }, current := s.current + 1, isDone := true })
        | some (.ok p, d) => some (some (.ok (.data p)), { s with read := { s.read with read := d }, current := s.current + 1 })
      else some (none, { s with isDone := true })

/-- `/repo/src/io/las/load.rs` L142-158; the fuel as in `loadLas` -/
def SeekDevice.loadLas (d : SeekDevice) : Panics (List (Point3D F64) × Except LasError Unit) :=
  forEach devLasNext (fun m x => (lasPush m x, .ok ())) (d.read.content.length + 3) ⟨d, false, 0, none⟩ []

end R3D

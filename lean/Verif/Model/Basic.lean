/-
Shared vocabulary of the model: error kinds, outcomes, panics.
-/
namespace R3D

/-- `/repo/src/result.rs` L37-70, the error kinds used by the modelled code
(the IO wrappers are modelled by per-format error types). -/
inductive ErrorKind where
  | MinMaxSwapped | MinMaxEqual | TooFewPoints | BoundingBoxMissing
  | NormalizeVecWithoutLength | IOError | ParseError | IndexOutOfBounds
  | IncorrectFaceID | IncorrectVertexID | FaceIDsNotUnique | IncorrectEdgeID
  | IncorrectVoxelID | IncorrectUnitID | IncorrectSegmentID | IncorrectDimension
  | DimensionsDontMatch | NumberConversionError | NumberInWrongRange
  | ComparisionFailed | ClusterTooBig | CantCalculateAngleIfZeroLength
  | TriFace3DNotSpanningVolume
deriving DecidableEq, Repr

/-- `/repo/src/result.rs` L123: `Result<T>` (no panic possible). -/
abbrev Res (α : Type _) := Except ErrorKind α

/-- Result of a computation which may panic (`none` = panic): `unwrap` of a missing
value, index out of range, arithmetic underflow in a debug build. e.g. `/repo/src/dynamic_precision_index_vec.rs` L196-214 -/
abbrev Panics (α : Type _) := Option α

/-- Rust's `x as u8` for `x : usize` : truncation. `/repo/src/dynamic_precision_index_vec.rs` L209, L220 -/
def asU8 (x : Nat) : UInt8 := UInt8.ofNat x
/-- Rust's `x as u16` for `x : usize` : truncation. `/repo/src/dynamic_precision_index_vec.rs` L210, L221 -/
def asU16 (x : Nat) : UInt16 := UInt16.ofNat x
/-- Rust's `x as u32` for `x : usize` : truncation. `/repo/src/dynamic_precision_index_vec.rs` L211, L222, `/repo/src/u32_index_vec.rs` L43, L47 -/
def asU32 (x : Nat) : UInt32 := UInt32.ofNat x

/-- Indexed write `vec[i] = x` : panics when out of range. `/repo/src/dynamic_precision_index_vec.rs` L209-212 -/
def vecSet {α : Type _} (l : List α) (i : Nat) (x : α) : Panics (List α) :=
  if i < l.length then some (l.set i x) else none

end R3D

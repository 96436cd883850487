import Verif.Model.OcTree
/-
The dimension independent interface: `/repo/src/is_nd.rs`, `/repo/src/is_buildable_nd.rs`, `/repo/src/is_editable_nd.rs`,
`/repo/src/distances_nd.rs`, for points.
-/
namespace R3D
open Scalar

/-- `/repo/src/is_nd.rs` L28-36 -/
class IsND (α : outParam Type) (P : Type) where
  /-- `n_dimensions` -/
  dims : Nat
  /-- `position_nd` -/
  pos : P → Nat → Option α

/-- `/repo/src/point_2d.rs` L219-231 -/
instance instIsNDPoint2D {α : Type} : IsND α (Point2D α) where
  dims := 2
  pos p
    | 0 => some p.x
    | 1 => some p.y
    | _ => none

/-- `/repo/src/point_3d.rs` L235-248 -/
instance instIsNDPoint3D {α : Type} : IsND α (Point3D α) where
  dims := 3
  pos p
    | 0 => some p.x
    | 1 => some p.y
    | 2 => some p.z
    | _ => none

section
variable {α : Type} [Scalar α] {P U : Type} [IsND α P] [IsND α U]

/-- the loop `/repo/src/distances_nd.rs` L49-55 -/
def sqrDistNdLoop (p : P) (u : U) : List Nat → α → Res α
  | [], result => .ok result
  | i :: is, result =>
    match IsND.pos p i, IsND.pos u i with
    | some v1, some v2 => sqrDistNdLoop p u is (result + sq (v1 - v2))
    | _, _ => .error .IncorrectDimension

/-- `/repo/src/distances_nd.rs` L39-57 -/
def sqrDistNd (p : P) (u : U) : Res α :=
  if IsND.dims P ≠ IsND.dims U then .error .DimensionsDontMatch
  else sqrDistNdLoop p u (List.range (IsND.dims P)) (lit 0)

/-- `/repo/src/distances_nd.rs` L30-36 -/
def distNd (p : P) (u : U) : Res α := (sqrDistNd p u).map Scalar.sqrt

end

/-- `/repo/src/is_buildable_nd.rs` L30-65; `fromNd` gives the object afterwards and the result -/
class IsBuildableND (α : outParam Type) (P : Type) extends IsND α P where
  newNd : List α → Panics (Res P)

/-- `/repo/src/point_2d.rs` L247-255 -/
instance instIsBuildableNDPoint2D {α : Type} : IsBuildableND α (Point2D α) where
  newNd coords :=
    if coords.length ≠ 2 then some (.error .DimensionsDontMatch)
    else do return .ok ⟨← coords[0]?, ← coords[1]?⟩

/-- `/repo/src/point_3d.rs` L267-276 -/
instance instIsBuildableNDPoint3D {α : Type} : IsBuildableND α (Point3D α) where
  newNd coords :=
    if coords.length ≠ 3 then some (.error .DimensionsDontMatch)
    else do return .ok ⟨← coords[0]?, ← coords[1]?, ← coords[2]?⟩

section
variable {α : Type}

/-- `from_nd`, `/repo/src/point_2d.rs` L257-269: the point afterwards and the result (the loop of assignments stops at the first
missing coordinate) -/
def Point2D.fromNd {U : Type} [IsND α U] (p : Point2D α) (other : U) : Point2D α × Res Unit :=
  if IsND.dims U ≠ 2 then (p, .error .DimensionsDontMatch)
  else
    match IsND.pos other 0 with
    | none => (p, .error .IncorrectDimension)
    | some x =>
      match IsND.pos other 1 with
      | none => ({ p with x := x }, .error .IncorrectDimension)
      | some y => ({ p with x := x, y := y }, .ok ())

/-- `from_nd`, `/repo/src/point_3d.rs` L279-291, as `Point2D.fromNd` -/
def Point3D.fromNd {U : Type} [IsND α U] (p : Point3D α) (other : U) : Point3D α × Res Unit :=
  if IsND.dims U ≠ 3 then (p, .error .DimensionsDontMatch)
  else
    match IsND.pos other 0 with
    | none => (p, .error .IncorrectDimension)
    | some x =>
      match IsND.pos other 1 with
      | none => ({ p with x := x }, .error .IncorrectDimension)
      | some y =>
        match IsND.pos other 2 with
        | none => ({ p with x := x, y := y }, .error .IncorrectDimension)
        | some z => ({ p with x := x, y := y, z := z }, .ok ())

/-- `set_position`, `/repo/src/point_2d.rs` L288-297 -/
def Point2D.setPosition (p : Point2D α) (dimension : Nat) (val : α) : Point2D α × Res Unit :=
  match dimension with
  | 0 => ({ p with x := val }, .ok ())
  | 1 => ({ p with y := val }, .ok ())
  | _ => (p, .error .DimensionsDontMatch)

/-- `set_position`, `/repo/src/point_3d.rs` L311-321 -/
def Point3D.setPosition (p : Point3D α) (dimension : Nat) (val : α) : Point3D α × Res Unit :=
  match dimension with
  | 0 => ({ p with x := val }, .ok ())
  | 1 => ({ p with y := val }, .ok ())
  | 2 => ({ p with z := val }, .ok ())
  | _ => (p, .error .DimensionsDontMatch)

end

section
variable {α : Type} [Scalar α] {P U : Type} [IsBuildableND α P] [IsND α U]

/-- the loop `/repo/src/is_buildable_nd.rs` L56-61; `buffer` afterwards or the error -/
def centerNdLoop (p : P) (u : U) : List Nat → List α → Res (List α)
  | [], buffer => .ok buffer
  | i :: is, buffer =>
    match IsND.pos p i with
    | none => .error .IncorrectDimension
    | some a =>
      match IsND.pos u i with
      | none => .error .IncorrectDimension
      | some b => centerNdLoop p u is (buffer ++ [lit (1 / 2) * (a + b)])

/-- `center_nd`, `/repo/src/is_buildable_nd.rs` L45-64; the buffer is cleared before use, so that its content does not matter -/
def centerNd (p : P) (u : U) : Panics (Res P) :=
  if IsND.dims P ≠ IsND.dims U then some (.error .IncorrectDimension)
  else
    match centerNdLoop p u (List.range (IsND.dims P)) [] with
    | .error e => some (.error e)
    | .ok buffer => IsBuildableND.newNd buffer

/-- `zero_nd`, `/repo/src/is_buildable_nd.rs` L40-43 -/
def zeroNd : Panics P := do
  match ← (IsBuildableND.newNd (P := P) (List.replicate (IsND.dims P) (lit 0)) : Panics (Res P)) with
  | .ok p => some p
  | .error _ => none

end
end R3D

import Verif.Model.Intersect
import Mathlib.Analysis.SpecialFunctions.Complex.Arg
import Mathlib.Analysis.SpecialFunctions.Trigonometric.Inverse
/-
Angles between directions and the filters using them: `/repo/src/is_2d.rs`, `/repo/src/is_3d.rs`,
`/repo/src/filter_direction_field_2d.rs`, `/repo/src/filter_direction_field_3d.rs`.
A direction field (`/repo/src/is_direction_field_2d.rs` L30-35, `/repo/src/is_direction_field_3d.rs`) is a function of the position.
-/
namespace R3D
open Scalar

/-- `acos` and `atan2` of the standard library; `/repo/src/is_2d.rs` L58, `/repo/src/is_3d.rs` L74 -/
class Angle (α : Type) where
  acos : α → α
  /-- `y.atan2(x)` -/
  atan2 : α → α → α

/-- exact `acos` and `atan2`, for `/repo/src/is_2d.rs` L58, `/repo/src/is_3d.rs` L74 -/
noncomputable instance instAngleReal : Angle ℝ where
  acos := Real.arccos
  atan2 y x := Complex.arg ⟨x, y⟩

variable {α : Type} [Scalar α] [Angle α]

/-- `rad_to`, `/repo/src/is_2d.rs` L57-59 -/
def Point2D.radTo (p other : Point2D α) : α := Angle.atan2 (other.y - p.y) (other.x - p.x)

/-- `rad_to`, `/repo/src/is_3d.rs` L70-75; `abs` may panic -/
def Point3D.radTo (p other : Point3D α) : Panics (Res α) := do
  let la ← p.abs
  let lb ← other.abs
  if la.val ==. zero || lb.val ==. zero then return .error .CantCalculateAngleIfZeroLength
  return .ok (Angle.acos (p.dot other / (la.mul lb).val))

/-- `FilterDirectionField2D::is_allowed`, `/repo/src/filter_direction_field_2d.rs` L53-56 -/
def filterDirectionField2D (field : Point2D α → Point2D α) (eps : α) (p n : Point2D α) : Bool :=
  (field p).radTo n <=. eps

/-- `FilterDirectionField3D::is_allowed`, `/repo/src/filter_direction_field_3d.rs` L53-60 -/
def filterDirectionField3D (field : Point3D α → Point3D α) (eps : α) (p n : Point3D α) : Panics Bool := do
  match ← (field p).radTo n with
  | .ok angle => return angle <=. eps
  | .error _ => return false

end R3D

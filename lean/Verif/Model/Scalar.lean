import Verif.Model.Basic
import Mathlib.Analysis.Real.Sqrt
import Mathlib.Algebra.Order.Floor.Semifield
/-
Scalars. The library computes with `f64`. The model is generic in a class of scalars providing
exactly the operations the code uses. Instances: `ℝ` (exact arithmetic, here) and `F64`
(IEEE-754 binary64, `Model/F64.lean`).
-/
namespace R3D

/-- The `f64` operations used by the library. Comparisons are Boolean as in Rust
(`a > b` is `lt b a`, `a >= b` is `le b a`, `a != b` is `!eq a b`). e.g. `/repo/src/is_3d.rs` L66, L92-94 -/
class Scalar (α : Type) extends Add α, Sub α, Mul α, Div α, Neg α where
  /-- a numeric literal or an integer cast `n as f64` -/
  lit : ℚ → α
  /-- `f64::abs` -/
  abs : α → α
  /-- `f64::sqrt` -/
  sqrt : α → α
  lt : α → α → Bool
  le : α → α → Bool
  eq : α → α → Bool
  /-- `x as u..` : truncation towards zero, saturating at 0 and at the maximum (first argument),
  NaN gives 0 -/
  toNatSat : Nat → α → Nat

scoped notation:50 a:51 " <. " b:51 => Scalar.lt a b
scoped notation:50 a:51 " >. " b:51 => Scalar.lt b a
scoped notation:50 a:51 " <=. " b:51 => Scalar.le a b
scoped notation:50 a:51 " >=. " b:51 => Scalar.le b a
scoped notation:50 a:51 " ==. " b:51 => Scalar.eq a b

namespace Scalar
variable {α : Type} [Scalar α]

/-- `0.0`; e.g. `/repo/src/is_buildable_nd.rs` L42 -/
def zero : α := lit 0

/-- `f64::partial_cmp`; `/repo/src/functions.rs` L80-88 -/
def partialCmp (a b : α) : Option Ordering :=
  if lt a b then some .lt else if eq a b then some .eq else if lt b a then some .gt else none

/-- `/repo/src/utils.rs` L50-55 `max_f64` -/
def max2 (a b : α) : α := if a >. b then a else b

/-- `/repo/src/utils.rs` L66-68 `max_f64_3` -/
def max3 (a b c : α) : α := max2 (max2 a b) c

/-- `f64::powi(2)` (one multiplication); `/repo/src/is_3d.rs` L92-94 -/
def sq (a : α) : α := a * a

end Scalar

/-- Exact arithmetic, for `/repo/src/is_3d.rs` L66, L92-94 -/
noncomputable instance instScalarReal : Scalar ℝ where
  lit q := (q : ℝ)
  abs x := |x|
  sqrt x := Real.sqrt x
  lt a b := decide (a < b)
  le a b := decide (a ≤ b)
  eq a b := decide (a = b)
  toNatSat m x := min m ⌊x⌋₊

end R3D

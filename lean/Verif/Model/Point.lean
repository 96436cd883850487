import Verif.Model.Scalar
/-
Points, the Positive / NonNegative wrappers, distances and normals.
-/
namespace R3D
open Scalar

/-- `/repo/src/point_2d.rs` L38-41 -/
structure Point2D (α : Type) where
  x : α
  y : α
deriving DecidableEq, Repr

/-- `/repo/src/point_3d.rs` L39-43 -/
structure Point3D (α : Type) where
  x : α
  y : α
  z : α
deriving DecidableEq, Repr

/-- `/repo/src/positive.rs` L37-39 -/
structure Positive (α : Type) where
  val : α
deriving DecidableEq, Repr

/-- `/repo/src/non_negative.rs` L37-39 -/
structure NonNegative (α : Type) where
  val : α
deriving DecidableEq, Repr

section
variable {α : Type} [Scalar α]

namespace NonNegative

/-- `/repo/src/non_negative.rs` L43-48 -/
def new (val : α) : Option (NonNegative α) := if val >=. zero then some ⟨val⟩ else none
/-- `/repo/src/non_negative.rs` L50-52 -/
def zero : NonNegative α := ⟨Scalar.zero⟩
/-- `/repo/src/non_negative.rs` L54-56 -/
def one : NonNegative α := ⟨lit 1⟩
/-- `/repo/src/non_negative.rs` L58-62 -/
def sqrt (a : NonNegative α) : NonNegative α := ⟨Scalar.sqrt a.val⟩
/-- `/repo/src/non_negative.rs` L67-71 `From<Positive>` -/
def ofPositive (x : Positive α) : NonNegative α := ⟨x.val⟩
/-- `/repo/src/non_negative.rs` L82-90, L102-106 `Add`, `AddAssign` -/
def add (a b : NonNegative α) : NonNegative α := ⟨a.val + b.val⟩
/-- `/repo/src/non_negative.rs` L92-100, L108-112 -/
def addPositive (a : NonNegative α) (b : Positive α) : NonNegative α := ⟨a.val + b.val⟩
/-- `/repo/src/non_negative.rs` L114-122, L134-138 -/
def mul (a b : NonNegative α) : NonNegative α := ⟨a.val * b.val⟩
/-- `/repo/src/non_negative.rs` L124-132, L140-144 -/
def mulPositive (a : NonNegative α) (b : Positive α) : NonNegative α := ⟨a.val * b.val⟩
/-- `/repo/src/non_negative.rs` L146-154, L166-170 -/
def div (a b : NonNegative α) : NonNegative α := ⟨a.val / b.val⟩
/-- `/repo/src/non_negative.rs` L156-164, L172-176 -/
def divPositive (a : NonNegative α) (b : Positive α) : NonNegative α := ⟨a.val / b.val⟩

end NonNegative

namespace Positive

/-- `/repo/src/positive.rs` L43-48 -/
def new (val : α) : Option (Positive α) := if val >. zero then some ⟨val⟩ else none
/-- `/repo/src/positive.rs` L50-52 -/
def one : Positive α := ⟨lit 1⟩
/-- `/repo/src/positive.rs` L54-58 -/
def sqrt (a : Positive α) : Positive α := ⟨Scalar.sqrt a.val⟩
/-- `/repo/src/positive.rs` L72-80, L92-96 -/
def add (a b : Positive α) : Positive α := ⟨a.val + b.val⟩
/-- `/repo/src/positive.rs` L82-90, L98-102 -/
def addNonNegative (a : Positive α) (b : NonNegative α) : Positive α := ⟨a.val + b.val⟩
/-- `/repo/src/positive.rs` L104-112, L122-126 -/
def mul (a b : Positive α) : Positive α := ⟨a.val * b.val⟩
/-- `/repo/src/positive.rs` L114-120 -/
def mulNonNegative (a : Positive α) (b : NonNegative α) : NonNegative α := NonNegative.mulPositive b a
/-- `/repo/src/positive.rs` L128-134 -/
def div (a b : Positive α) : Panics (NonNegative α) := NonNegative.new (a.val / b.val)
/-- `/repo/src/positive.rs` L136-142 -/
def divNonNegative (a : Positive α) (b : NonNegative α) : Panics (NonNegative α) :=
  NonNegative.new (a.val / b.val)

end Positive

namespace Point2D

/-- `/repo/src/point_2d.rs` L36 `Default` -/
def default : Point2D α := ⟨zero, zero⟩
/-- `/repo/src/point_2d.rs` L68-105 -/
def add (a b : Point2D α) : Point2D α := ⟨a.x + b.x, a.y + b.y⟩
/-- `/repo/src/point_2d.rs` L107-144 -/
def sub (a b : Point2D α) : Point2D α := ⟨a.x - b.x, a.y - b.y⟩
/-- `/repo/src/point_2d.rs` L146-166 -/
def smul (a : Point2D α) (f : α) : Point2D α := ⟨f * a.x, f * a.y⟩
/-- `/repo/src/point_2d.rs` L168-188 -/
def sdiv (a : Point2D α) (f : α) : Point2D α := ⟨a.x / f, a.y / f⟩
/-- `/repo/src/point_2d.rs` L190-210 -/
def neg (a : Point2D α) : Point2D α := ⟨-a.x, -a.y⟩
/-- `/repo/src/point_2d.rs` L212-217 -/
def moveBy (a : Point2D α) (x y : α) : Point2D α := ⟨a.x + x, a.y + y⟩
/-- `/repo/src/is_2d.rs` L43-45 -/
def dot (a b : Point2D α) : α := a.x * b.x + a.y * b.y
/-- `/repo/src/is_2d.rs` L48-50 -/
def cross (a b : Point2D α) : α := a.x * b.y - a.y * b.x
/-- `/repo/src/is_2d.rs` L53-55 -/
def abs (a : Point2D α) : Panics (NonNegative α) := NonNegative.new (Scalar.sqrt (sq a.x + sq a.y))
/-- `/repo/src/point_2d.rs` L36 derived `PartialEq` -/
def beq (a b : Point2D α) : Bool := a.x ==. b.x && a.y ==. b.y
/-- `/repo/src/distances_2d.rs` L39-45 `sqr_dist_2d` -/
def sqrDist (p q : Point2D α) : α := sq (p.x - q.x) + sq (p.y - q.y)
/-- `/repo/src/distances_2d.rs` L30-36 `dist_2d` -/
def dist (p q : Point2D α) : α := Scalar.sqrt (sqrDist p q)

end Point2D

namespace Point3D

/-- `/repo/src/point_3d.rs` L37 `Default` -/
def default : Point3D α := ⟨zero, zero, zero⟩
/-- `/repo/src/point_3d.rs` L71-111 -/
def add (a b : Point3D α) : Point3D α := ⟨a.x + b.x, a.y + b.y, a.z + b.z⟩
/-- `/repo/src/point_3d.rs` L113-153 -/
def sub (a b : Point3D α) : Point3D α := ⟨a.x - b.x, a.y - b.y, a.z - b.z⟩
/-- `/repo/src/point_3d.rs` L155-177 -/
def smul (a : Point3D α) (f : α) : Point3D α := ⟨f * a.x, f * a.y, f * a.z⟩
/-- `/repo/src/point_3d.rs` L179-201 -/
def sdiv (a : Point3D α) (f : α) : Point3D α := ⟨a.x / f, a.y / f, a.z / f⟩
/-- `/repo/src/point_3d.rs` L203-225 -/
def neg (a : Point3D α) : Point3D α := ⟨-a.x, -a.y, -a.z⟩
/-- `/repo/src/point_3d.rs` L227-233 -/
def moveBy (a : Point3D α) (x y z : α) : Point3D α := ⟨a.x + x, a.y + y, a.z + z⟩
/-- `/repo/src/is_3d.rs` L60-62 -/
def dot (a b : Point3D α) : α := a.x * b.x + a.y * b.y + a.z * b.z
/-- `/repo/src/functions.rs` L60-69 -/
def cross (a b : Point3D α) : Point3D α :=
  ⟨a.y * b.z - a.z * b.y, a.z * b.x - a.x * b.z, a.x * b.y - a.y * b.x⟩
/-- `/repo/src/is_3d.rs` L65-68 -/
def abs (a : Point3D α) : Panics (NonNegative α) :=
  NonNegative.new (Scalar.sqrt (sq a.x + sq a.y + sq a.z))
/-- `/repo/src/point_3d.rs` L37 derived `PartialEq` -/
def beq (a b : Point3D α) : Bool := a.x ==. b.x && a.y ==. b.y && a.z ==. b.z
/-- `/repo/src/distances_3d.rs` L39-45 `sqr_dist_3d` -/
def sqrDist (p q : Point3D α) : α := sq (p.x - q.x) + sq (p.y - q.y) + sq (p.z - q.z)
/-- `/repo/src/distances_3d.rs` L30-36 `dist_3d` -/
def dist (p q : Point3D α) : α := Scalar.sqrt (sqrDist p q)

end Point3D
end
end R3D

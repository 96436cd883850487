import Verif.Model.Point
/-
Axis aligned bounding boxes. `get_size…` style accessors panic (`unwrap` of `Positive::new`) when
the size is not positive; this is kept as `Panics`.
-/
namespace R3D
open Scalar

/-- `/repo/src/bounding_box_2d.rs` L31-34 -/
structure BoundingBox2D (α : Type) where
  min : Point2D α
  max : Point2D α
deriving DecidableEq, Repr

/-- `/repo/src/bounding_box_3d.rs` L31-34 -/
structure BoundingBox3D (α : Type) where
  min : Point3D α
  max : Point3D α
deriving DecidableEq, Repr

variable {α : Type} [Scalar α]

namespace BoundingBox2D

/-- `/repo/src/bounding_box_2d.rs` L38-59 -/
def new (min max : Point2D α) : Res (BoundingBox2D α) :=
  if min.x ==. max.x || min.y ==. max.y then .error .MinMaxEqual
  else if min.x >. max.x || min.y >. max.y then .error .MinMaxSwapped
  else .ok ⟨min, max⟩

/-- loop body of `/repo/src/bounding_box_2d.rs` L82-94 (and L124-136): state is (min, max, count) -/
def step (s : Point2D α × Point2D α × Nat) (p : Point2D α) : Point2D α × Point2D α × Nat :=
  let minx := if p.x <. s.1.x then p.x else s.1.x
  let miny := if p.y <. s.1.y then p.y else s.1.y
  let maxx := if p.x >. s.2.1.x then p.x else s.2.1.x
  let maxy := if p.y >. s.2.1.y then p.y else s.2.1.y
  (⟨minx, miny⟩, ⟨maxx, maxy⟩, s.2.2 + 1)

/-- `/repo/src/bounding_box_2d.rs` L61-101 `from_iterator` and L103-143 `from_into_iterator`
(identical bodies); the first element initialises the state (`count == 0`). -/
def fromIterator : List (Point2D α) → Res (BoundingBox2D α)
  | [] => .error .TooFewPoints
  | p :: ps =>
    let s := ps.foldl step (p, p, 1)
    if s.2.2 ≥ 2 then new s.1 s.2.1 else .error .TooFewPoints

/-- `/repo/src/bounding_box_2d.rs` L153-155 -/
def sizeX (b : BoundingBox2D α) : Panics (Positive α) := Positive.new (Scalar.abs (b.max.x - b.min.x))
/-- `/repo/src/bounding_box_2d.rs` L157-159 -/
def sizeY (b : BoundingBox2D α) : Panics (Positive α) := Positive.new (Scalar.abs (b.max.y - b.min.y))
/-- `/repo/src/bounding_box_2d.rs` L165-170 -/
def centerBB (b : BoundingBox2D α) : Point2D α :=
  ⟨b.min.x + (b.max.x - b.min.x) / lit 2, b.min.y + (b.max.y - b.min.y) / lit 2⟩
/-- `/repo/src/bounding_box_2d.rs` L172-177 -/
def isInside (b o : BoundingBox2D α) : Bool :=
  b.min.x >. o.min.x && b.min.y >. o.min.y && b.max.x <. o.max.x && b.max.y <. o.max.y
/-- `/repo/src/bounding_box_2d.rs` L179-188 -/
def contains (b : BoundingBox2D α) (p : Point2D α) : Bool :=
  p.x >. b.min.x && p.x <. b.max.x && p.y >. b.min.y && p.y <. b.max.y
/-- `/repo/src/bounding_box_2d.rs` L190-195 -/
def hasInside (b o : BoundingBox2D α) : Bool :=
  b.min.x <. o.min.x && b.min.y <. o.min.y && b.max.x >. o.max.x && b.max.y >. o.max.y
/-- `/repo/src/bounding_box_2d.rs` L197-201 (`&&` is lazy: the y sizes are only taken when the x
test succeeded) -/
def collidesWith (b o : BoundingBox2D α) : Panics Bool := do
  let sx ← b.sizeX
  let ox ← o.sizeX
  if lit 2 * Scalar.abs (b.centerBB.x - o.centerBB.x) <. (sx.add ox).val then
    let sy ← b.sizeY
    let oy ← o.sizeY
    return lit 2 * Scalar.abs (b.centerBB.y - o.centerBB.y) <. (sy.add oy).val
  else return false
/-- `/repo/src/bounding_box_2d.rs` L203-205 -/
def crossingXValue (b : BoundingBox2D α) (x : α) : Bool := b.min.x <. x && b.max.x >. x
/-- `/repo/src/bounding_box_2d.rs` L207-209 -/
def crossingYValue (b : BoundingBox2D α) (y : α) : Bool := b.min.y <. y && b.max.y >. y
/-- `/repo/src/bounding_box_2d.rs` L211-218 -/
def corners (b : BoundingBox2D α) : List (Point2D α) :=
  [⟨b.min.x, b.min.y⟩, ⟨b.min.x, b.max.y⟩, ⟨b.max.x, b.min.y⟩, ⟨b.max.x, b.max.y⟩]
/-- `/repo/src/bounding_box_2d.rs` L228-243 -/
def sqrDistance (b : BoundingBox2D α) (p : Point2D α) : Panics (NonNegative α) :=
  let dx := max3 (b.min.x - p.x) zero (p.x - b.max.x)
  let dy := max3 (b.min.y - p.y) zero (p.y - b.max.y)
  NonNegative.new (dx * dx + dy * dy)
/-- `/repo/src/bounding_box_2d.rs` L220-226 -/
def distance (b : BoundingBox2D α) (p : Point2D α) : Panics (NonNegative α) := do
  let d ← b.sqrDistance p
  NonNegative.new (Scalar.sqrt d.val)
/-- `/repo/src/bounding_box_2d.rs` L248-255 -/
def default : BoundingBox2D α := ⟨⟨lit (-1/2), lit (-1/2)⟩, ⟨lit (1/2), lit (1/2)⟩⟩
/-- `/repo/src/bounding_box_2d.rs` L279-284 -/
def moveBy (b : BoundingBox2D α) (x y : α) : BoundingBox2D α := ⟨b.min.moveBy x y, b.max.moveBy x y⟩
/-- `/repo/src/bounding_box_2d.rs` L286-290: `new(min, max).unwrap()` -/
def boundingBox (b : BoundingBox2D α) : Panics (BoundingBox2D α) := (new b.min b.max).toOption
/-- one dimension of `/repo/src/bounding_box_2d.rs` L300-313 -/
def gap (smin smax omin omax : α) : α :=
  if omax <. smin then omax - smin else if omin >. smax then omin - smax else zero
/-- `/repo/src/bounding_box_2d.rs` L298-317 `HasDistanceTo<BoundingBox2D>` -/
def sqrDistanceBB (b o : BoundingBox2D α) : Panics (NonNegative α) :=
  let dx := gap b.min.x b.max.x o.min.x o.max.x
  let dy := gap b.min.y b.max.y o.min.y o.max.y
  NonNegative.new (dx * dx + dy * dy)
/-- `/repo/src/bounding_box_2d.rs` L319-330 (`self` still has its old sizes in all four lines) -/
def scale (b : BoundingBox2D α) (factor : Positive α) : Panics (BoundingBox2D α) := do
  let c := b.centerBB
  let sx ← b.sizeX
  let sy ← b.sizeY
  return ⟨⟨c.x - lit (1/2) * factor.val * sx.val, c.y - lit (1/2) * factor.val * sy.val⟩,
          ⟨c.x + lit (1/2) * factor.val * sx.val, c.y + lit (1/2) * factor.val * sy.val⟩⟩
/-- `/repo/src/bounding_box_2d.rs` L333-353 -/
def consume (b o : BoundingBox2D α) : BoundingBox2D α :=
  let minX := if o.min.x <. b.min.x then o.min.x else b.min.x
  let minY := if o.min.y <. b.min.y then o.min.y else b.min.y
  let maxX := if o.max.x >. b.max.x then o.max.x else b.max.x
  let maxY := if o.max.y >. b.max.y then o.max.y else b.max.y
  ⟨⟨minX, minY⟩, ⟨maxX, maxY⟩⟩
/-- `/repo/src/bounding_box_2d.rs` L355-377 -/
def combine (b o : BoundingBox2D α) : BoundingBox2D α :=
  let minX := if o.min.x <. b.min.x then o.min.x else b.min.x
  let minY := if o.min.y <. b.min.y then o.min.y else b.min.y
  let maxX := if o.max.x >. b.max.x then o.max.x else b.max.x
  let maxY := if o.max.y >. b.max.y then o.max.y else b.max.y
  ⟨⟨minX, minY⟩, ⟨maxX, maxY⟩⟩

end BoundingBox2D

namespace BoundingBox3D

/-- `/repo/src/bounding_box_3d.rs` L38-61 -/
def new (min max : Point3D α) : Res (BoundingBox3D α) :=
  if min.x ==. max.x || min.y ==. max.y || min.z ==. max.z then .error .MinMaxEqual
  else if min.x >. max.x || min.y >. max.y || min.z >. max.z then .error .MinMaxSwapped
  else .ok ⟨min, max⟩

/-- loop body of `/repo/src/bounding_box_3d.rs` L88-106 (and L151-169) -/
def step (s : Point3D α × Point3D α × Nat) (p : Point3D α) : Point3D α × Point3D α × Nat :=
  let minx := if p.x <. s.1.x then p.x else s.1.x
  let miny := if p.y <. s.1.y then p.y else s.1.y
  let minz := if p.z <. s.1.z then p.z else s.1.z
  let maxx := if p.x >. s.2.1.x then p.x else s.2.1.x
  let maxy := if p.y >. s.2.1.y then p.y else s.2.1.y
  let maxz := if p.z >. s.2.1.z then p.z else s.2.1.z
  (⟨minx, miny, minz⟩, ⟨maxx, maxy, maxz⟩, s.2.2 + 1)

/-- `/repo/src/bounding_box_3d.rs` L63-124 `from_iterator` and L126-187 `from_into_iterator` -/
def fromIterator : List (Point3D α) → Res (BoundingBox3D α)
  | [] => .error .TooFewPoints
  | p :: ps =>
    let s := ps.foldl step (p, p, 1)
    if s.2.2 ≥ 2 then new s.1 s.2.1 else .error .TooFewPoints

/-- `/repo/src/bounding_box_3d.rs` L197-199 -/
def sizeX (b : BoundingBox3D α) : Panics (Positive α) := Positive.new (Scalar.abs (b.max.x - b.min.x))
/-- `/repo/src/bounding_box_3d.rs` L201-203 -/
def sizeY (b : BoundingBox3D α) : Panics (Positive α) := Positive.new (Scalar.abs (b.max.y - b.min.y))
/-- `/repo/src/bounding_box_3d.rs` L205-207 -/
def sizeZ (b : BoundingBox3D α) : Panics (Positive α) := Positive.new (Scalar.abs (b.max.z - b.min.z))
/-- `/repo/src/bounding_box_3d.rs` L213-219 -/
def centerBB (b : BoundingBox3D α) : Point3D α :=
  ⟨b.min.x + (b.max.x - b.min.x) / lit 2, b.min.y + (b.max.y - b.min.y) / lit 2,
   b.min.z + (b.max.z - b.min.z) / lit 2⟩
/-- `/repo/src/bounding_box_3d.rs` L221-228 -/
def isInside (b o : BoundingBox3D α) : Bool :=
  b.min.x >. o.min.x && b.min.y >. o.min.y && b.min.z >. o.min.z &&
  b.max.x <. o.max.x && b.max.y <. o.max.y && b.max.z <. o.max.z
/-- `/repo/src/bounding_box_3d.rs` L230-241 -/
def contains (b : BoundingBox3D α) (p : Point3D α) : Bool :=
  p.x >. b.min.x && p.x <. b.max.x && p.y >. b.min.y && p.y <. b.max.y &&
  p.z >. b.min.z && p.z <. b.max.z
/-- `/repo/src/bounding_box_3d.rs` L243-250 -/
def hasInside (b o : BoundingBox3D α) : Bool :=
  b.min.x <. o.min.x && b.min.y <. o.min.y && b.min.z <. o.min.z &&
  b.max.x >. o.max.x && b.max.y >. o.max.y && b.max.z >. o.max.z
/-- `/repo/src/bounding_box_3d.rs` L252-258 (lazy `&&`) -/
def collidesWith (b o : BoundingBox3D α) : Panics Bool := do
  let sx ← b.sizeX
  let ox ← o.sizeX
  if lit 2 * Scalar.abs (b.centerBB.x - o.centerBB.x) <. (sx.add ox).val then
    let sy ← b.sizeY
    let oy ← o.sizeY
    if lit 2 * Scalar.abs (b.centerBB.y - o.centerBB.y) <. (sy.add oy).val then
      let sz ← b.sizeZ
      let oz ← o.sizeZ
      return lit 2 * Scalar.abs (b.centerBB.z - o.centerBB.z) <. (sz.add oz).val
    else return false
  else return false
/-- `/repo/src/bounding_box_3d.rs` L260-262 -/
def crossingXValue (b : BoundingBox3D α) (x : α) : Bool := b.min.x <. x && b.max.x >. x
/-- `/repo/src/bounding_box_3d.rs` L264-266 -/
def crossingYValue (b : BoundingBox3D α) (y : α) : Bool := b.min.y <. y && b.max.y >. y
/-- `/repo/src/bounding_box_3d.rs` L268-270 -/
def crossingZValue (b : BoundingBox3D α) (z : α) : Bool := b.min.z <. z && b.max.z >. z
/-- `/repo/src/bounding_box_3d.rs` L272-283 -/
def corners (b : BoundingBox3D α) : List (Point3D α) :=
  [⟨b.min.x, b.min.y, b.min.z⟩, ⟨b.min.x, b.min.y, b.max.z⟩,
   ⟨b.min.x, b.max.y, b.min.z⟩, ⟨b.min.x, b.max.y, b.max.z⟩,
   ⟨b.max.x, b.min.y, b.min.z⟩, ⟨b.max.x, b.min.y, b.max.z⟩,
   ⟨b.max.x, b.max.y, b.min.z⟩, ⟨b.max.x, b.max.y, b.max.z⟩]
/-- `/repo/src/bounding_box_3d.rs` L293-313 -/
def sqrDistance (b : BoundingBox3D α) (p : Point3D α) : Panics (NonNegative α) :=
  let dx := max3 (b.min.x - p.x) zero (p.x - b.max.x)
  let dy := max3 (b.min.y - p.y) zero (p.y - b.max.y)
  let dz := max3 (b.min.z - p.z) zero (p.z - b.max.z)
  NonNegative.new (dx * dx + dy * dy + dz * dz)
/-- `/repo/src/bounding_box_3d.rs` L285-291 -/
def distance (b : BoundingBox3D α) (p : Point3D α) : Panics (NonNegative α) := do
  let d ← b.sqrDistance p
  NonNegative.new (Scalar.sqrt d.val)
/-- `/repo/src/bounding_box_3d.rs` L318-333 -/
def default : BoundingBox3D α :=
  ⟨⟨lit (-1/2), lit (-1/2), lit (-1/2)⟩, ⟨lit (1/2), lit (1/2), lit (1/2)⟩⟩
/-- `/repo/src/bounding_box_3d.rs` L362-367 -/
def moveBy (b : BoundingBox3D α) (x y z : α) : BoundingBox3D α :=
  ⟨b.min.moveBy x y z, b.max.moveBy x y z⟩
/-- `/repo/src/bounding_box_3d.rs` L369-373 -/
def boundingBox (b : BoundingBox3D α) : Panics (BoundingBox3D α) := (new b.min b.max).toOption
/-- `/repo/src/bounding_box_3d.rs` L381-407 (per-dimension case distinction as in 2D) -/
def sqrDistanceBB (b o : BoundingBox3D α) : Panics (NonNegative α) :=
  let dx := BoundingBox2D.gap b.min.x b.max.x o.min.x o.max.x
  let dy := BoundingBox2D.gap b.min.y b.max.y o.min.y o.max.y
  let dz := BoundingBox2D.gap b.min.z b.max.z o.min.z o.max.z
  NonNegative.new (dx * dx + dy * dy + dz * dz)
/-- `/repo/src/bounding_box_3d.rs` L409-422 -/
def scale (b : BoundingBox3D α) (factor : Positive α) : Panics (BoundingBox3D α) := do
  let c := b.centerBB
  let sx ← b.sizeX
  let sy ← b.sizeY
  let sz ← b.sizeZ
  return ⟨⟨c.x - lit (1/2) * factor.val * sx.val, c.y - lit (1/2) * factor.val * sy.val,
           c.z - lit (1/2) * factor.val * sz.val⟩,
          ⟨c.x + lit (1/2) * factor.val * sx.val, c.y + lit (1/2) * factor.val * sy.val,
           c.z + lit (1/2) * factor.val * sz.val⟩⟩
/-- `/repo/src/bounding_box_3d.rs` L425-451 -/
def consume (b o : BoundingBox3D α) : BoundingBox3D α :=
  let minX := if o.min.x <. b.min.x then o.min.x else b.min.x
  let minY := if o.min.y <. b.min.y then o.min.y else b.min.y
  let minZ := if o.min.z <. b.min.z then o.min.z else b.min.z
  let maxX := if o.max.x >. b.max.x then o.max.x else b.max.x
  let maxY := if o.max.y >. b.max.y then o.max.y else b.max.y
  let maxZ := if o.max.z >. b.max.z then o.max.z else b.max.z
  ⟨⟨minX, minY, minZ⟩, ⟨maxX, maxY, maxZ⟩⟩
/-- `/repo/src/bounding_box_3d.rs` L453-481 -/
def combine (b o : BoundingBox3D α) : BoundingBox3D α :=
  let minX := if o.min.x <. b.min.x then o.min.x else b.min.x
  let minY := if o.min.y <. b.min.y then o.min.y else b.min.y
  let minZ := if o.min.z <. b.min.z then o.min.z else b.min.z
  let maxX := if o.max.x >. b.max.x then o.max.x else b.max.x
  let maxY := if o.max.y >. b.max.y then o.max.y else b.max.y
  let maxZ := if o.max.z >. b.max.z then o.max.z else b.max.z
  ⟨⟨minX, minY, minZ⟩, ⟨maxX, maxY, maxZ⟩⟩

end BoundingBox3D
end R3D

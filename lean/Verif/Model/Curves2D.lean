import Verif.Model.PointCloud
/-
2D algorithms on point lists: convex hull, Douglas-Peucker, Bezier / cosine / linear interpolation and the
curve factories. The trigonometric functions and `PI` come from the class `Trig` (`Model/Matrix.lean`).
-/
namespace R3D
open Scalar

section
variable {α : Type} [Scalar α]

/-! ### convex hull -/

/-- `/repo/src/convex_hull_2d.rs` L79-86 -/
def ccw (p1 p2 p3 : Point2D α) : α :=
  (p2.x - p1.x) * (p3.y - p1.y) - (p2.y - p1.y) * (p3.x - p1.x)

/-- inner loop of `/repo/src/convex_hull_2d.rs` L46-50 (and L56-60): the growing `Vec` is kept with its last
element first -/
def hullPop (p : Point2D α) : List (Point2D α) → List (Point2D α)
  | b :: a :: l => if ccw a b p <=. zero then hullPop p (a :: l) else b :: a :: l
  | l => l

/-- one iteration of `/repo/src/convex_hull_2d.rs` L45-52 (and L55-62) -/
def hullStep (stack : List (Point2D α)) (p : Point2D α) : List (Point2D α) := p :: hullPop p stack

/-- the loops `/repo/src/convex_hull_2d.rs` L44-52 and L54-62; the result is the `Vec` in its order -/
def hullChain (pts : List (Point2D α)) : List (Point2D α) := (pts.foldl hullStep []).reverse

/-- `/repo/src/convex_hull_2d.rs` L32-75 -/
def convexHull2D (ra : List (Point2D α)) : List (Point2D α) :=
  let sorted := sortVec2DX ra
  let lower := hullChain sorted
  let upper := hullChain sorted.reverse
  lower.dropLast ++ upper.dropLast

/-! ### Douglas-Peucker -/

/-- `/repo/src/douglas_peucker_2d.rs` L76-103 -/
def distancePointLine (p l1 l2 : Point2D α) : α :=
  let a1 := l1.x
  let a2 := l1.y
  let b1 := l2.x
  let b2 := l2.y
  let c1 := p.x
  let c2 := p.y
  let x := (a1 * a1 * c1 - a1 * a2 * b2 + a1 * a2 * c2 - lit 2 * a1 * b1 * c1 + a1 * b2 * b2
      - a1 * b2 * c2
      + a2 * a2 * b1
      - a2 * b1 * b2
      - a2 * b1 * c2
      + b1 * b1 * c1
      + b1 * b2 * c2)
      / (a1 * a1 - lit 2 * a1 * b1 + a2 * a2 - lit 2 * a2 * b2 + b1 * b1 + b2 * b2)
  let y := ((a2 - b2) * x + a1 * b2 - a2 * b1) / (a1 - b1)
  Scalar.sqrt (sq (x - p.x) + sq (y - p.y))

/-- the loop `/repo/src/douglas_peucker_2d.rs` L42-48 over the inner points; `i` is the index of the first
point of the list, the state is `(index, dmax)` -/
def dpFind (first last : Point2D α) : List (Point2D α) → Nat → Nat × α → Nat × α
  | [], _, s => s
  | p :: l, i, (index, dmax) =>
    let d := distancePointLine p first last
    dpFind first last l (i + 1) (if d >. dmax then (i, d) else (index, dmax))

/-- `/repo/src/douglas_peucker_2d.rs` L30-72. `fuel` bounds the recursion depth; `none` stands for a panic or an
endless recursion. -/
def douglasPeucker (epsilon : α) : Nat → List (Point2D α) → Panics (List (Point2D α))
  | _, [] => some []
  | 0, _ :: _ => none
  | fuel + 1, first :: rest => do
    let pc := first :: rest
    let last ← pc.getLast?
    let (index, dmax) := dpFind first last rest.dropLast 1 (0, zero)
    if dmax >. epsilon then do
      let pc1 ← douglasPeucker epsilon fuel (pc.take index)
      let pc2 ← douglasPeucker epsilon fuel (pc.drop index)
      if pc1.length = 0 then none
      else some (pc1.take (pc1.length - 1) ++ pc2)
    else some [first, last]

/-! ### interpolation -/

/-- `usize::MAX + 1` on a 64 bit platform; for `/repo/src/interpolate_2d.rs` L31-42 -/
def usizeLimit : Nat := 2 ^ 64

/-- `a * b` of `usize` with overflow checks (debug build); for `/repo/src/interpolate_2d.rs` L31-42 -/
def checkedMul (a b : Nat) : Panics Nat := if a * b < usizeLimit then some (a * b) else none

/-- loop of `/repo/src/interpolate_2d.rs` L34-36 -/
def factorialLoop : List Nat → Nat → Panics Nat
  | [], r => some r
  | i :: is, r => do
    let r ← checkedMul r i
    factorialLoop is r

/-- `/repo/src/interpolate_2d.rs` L31-38 -/
def factorial (number : Nat) : Panics Nat := factorialLoop (List.range' 1 number) 1

/-- `/repo/src/interpolate_2d.rs` L40-42; a division by zero is impossible, factorials are not zero -/
def binominalCoefficient (n k : Nat) : Panics Nat := do
  let fn ← factorial n
  let fk ← factorial k
  let fnk ← factorial (n - k)
  let d ← checkedMul fk fnk
  some (fn / d)

/-- `f64::powi` for a non negative exponent. The only instance is `ℝ` (below). How the platform multiplies and
rounds is not modelled; theorems on doubles (C107) hold for any `Powi F64` of a stated accuracy. `/repo/src/interpolate_2d.rs` L45 -/
class Powi (α : Type) where
  powi : α → Nat → α

/-- exact `powi`, for `/repo/src/interpolate_2d.rs` L45 -/
noncomputable instance instPowiReal : Powi ℝ where
  powi t n := t ^ n

/-- `/repo/src/interpolate_2d.rs` L44-46 (`i ≤ n` for all calls) -/
def bernsteinPolynomial [Powi α] (n i : Nat) (t : α) : Panics α := do
  let b ← binominalCoefficient n i
  some (lit b * Powi.powi t i * Powi.powi (lit 1 - t) (n - i))

/-- loop of `/repo/src/interpolate_2d.rs` L55-59 -/
def controlLoop [Powi α] (path : List (Point2D α)) (nPoints : Nat) (t : α) : List Nat → α × α → Panics (α × α)
  | [], s => some s
  | i :: is, (x, y) => do
    let bp ← bernsteinPolynomial nPoints i t
    let p ← path[i]?
    controlLoop path nPoints t is (x + bp * p.x, y + bp * p.y)

/-- `/repo/src/interpolate_2d.rs` L48-61 -/
def controlPolygon [Powi α] (path : List (Point2D α)) (nPoints : Nat) (t : α) : Panics (Point2D α) := do
  let (x, y) ← controlLoop path nPoints t (List.range (nPoints + 1)) (zero, zero)
  some ⟨x, y⟩

/-- `/repo/src/interpolate_2d.rs` L64-86 -/
def interpolateBezier [Powi α] (base : List (Point2D α)) (nPoints : Nat) : Panics (Res (List (Point2D α))) :=
  if base.length < 2 then some (.error .TooFewPoints)
  else do
    let pDist : α := lit 1 / lit nPoints
    let pts ← (List.range nPoints).mapM fun (i : Nat) => controlPolygon base (base.length - 1) (lit (i : Nat) * pDist)
    some (.ok pts)

/-- the search loop of `/repo/src/interpolate_2d.rs` L149-167 (and L107-125): the point for the target
`i * p_dist`, `none` if the loop ends without `break`. `build` makes the point from the proportion and the two
neighbours. -/
def walk (target : α) (build : α → Point2D α → Point2D α → Point2D α) :
    α → List (Point2D α) → Option (Point2D α)
  | before, p :: q :: l =>
    let traveled := before + Scalar.sqrt (sq (q.x - p.x) + sq (q.y - p.y))
    if traveled >=. target then some (build ((target - before) / (traveled - before)) p q)
    else walk target build traveled (q :: l)
  | _, _ => none

/-- `/repo/src/interpolate_2d.rs` L131-170. `n_points - 1` panics for 0 in a debug build; points which are not
found are skipped. -/
def interpolationLinear (base : List (Point2D α)) (nPoints : Nat) : Panics (Res (List (Point2D α))) :=
  if base.length < 2 then some (.error .TooFewPoints)
  else if nPoints = 0 then none
  else
    let pDist : α := PointCloud2D.length ⟨base⟩ / lit (nPoints - 1 : Nat)
    some (.ok ((List.range nPoints).filterMap fun (i : Nat) => walk (lit (i : Nat) * pDist)
      (fun f p q => ⟨p.x + f * (q.x - p.x), p.y + f * (q.y - p.y)⟩) zero base))

/-- `/repo/src/interpolate_2d.rs` L89-128, see `interpolationLinear` -/
def interpolateCosine [Trig α] (base : List (Point2D α)) (nPoints : Nat) : Panics (Res (List (Point2D α))) :=
  if base.length < 2 then some (.error .TooFewPoints)
  else if nPoints = 0 then none
  else
    let pDist : α := PointCloud2D.length ⟨base⟩ / lit (nPoints - 1 : Nat)
    some (.ok ((List.range nPoints).filterMap fun (i : Nat) => walk (lit (i : Nat) * pDist)
      (fun f p q =>
        let f2 := (lit 1 - Trig.cos (f * Trig.pi)) / lit 2
        ⟨p.x + f * (q.x - p.x), p.y * (lit 1 - f2) + q.y * f2⟩) zero base))

/-! ### factories -/

/-- `/repo/src/factory_2d.rs` L32-44 -/
def rectangle (center : Point2D α) (width height : Positive α) : List (Point2D α) :=
  let w := width.val
  let h := height.val
  [⟨center.x - w / lit 2, center.y - h / lit 2⟩, ⟨center.x + w / lit 2, center.y - h / lit 2⟩,
   ⟨center.x + w / lit 2, center.y + h / lit 2⟩, ⟨center.x - w / lit 2, center.y + h / lit 2⟩]

/-- `/repo/src/factory_2d.rs` L47-69 (`n_points - 1` panics for 0 in a debug build) -/
def involutCircle [Trig α] (center : Point2D α) (nPoints : Nat) (diameter : Positive α) (start end_ : α) :
    Panics (List (Point2D α)) :=
  if nPoints = 0 then none
  else
    let d := diameter.val
    let pDist : α := Scalar.abs (end_ - start) / lit (nPoints - 1 : Nat)
    some ((List.range nPoints).map fun (i : Nat) =>
      let current : α := lit (i : Nat) * pDist
      ⟨center.x + d / lit 2 * (Trig.cos current + current * Trig.sin current),
       center.y + d / lit 2 * (Trig.sin current - current * Trig.cos current)⟩)

/-- `/repo/src/factory_2d.rs` L72-94 -/
def arc [Trig α] (center : Point2D α) (nPoints : Nat) (diameter : Positive α) (start end_ : α) :
    Panics (List (Point2D α)) :=
  if nPoints = 0 then none
  else
    let d := diameter.val
    let pDist : α := Scalar.abs (end_ - start) / lit (nPoints - 1 : Nat)
    some ((List.range nPoints).map fun (i : Nat) =>
      let radians : α := start + lit (i : Nat) * pDist
      ⟨center.x + d / lit 2 * Trig.cos radians, center.y + d / lit 2 * Trig.sin radians⟩)

/-- `/repo/src/factory_2d.rs` L97-115 -/
def ellipse [Trig α] (center : Point2D α) (nPoints : Nat) (ap bp : Positive α) : Panics (List (Point2D α)) :=
  if nPoints = 0 then none
  else
    let pDist : α := Trig.pi / lit (nPoints - 1 : Nat)
    let a := ap.val
    let b := bp.val
    let angle : α := zero
    some ((List.range nPoints).map fun (i : Nat) =>
      let radians : α := lit (i : Nat) * pDist
      ⟨center.x + a * Trig.cos radians * Trig.cos angle - b * Trig.sin radians * Trig.sin angle,
       center.y + a * Trig.cos radians * Trig.sin angle + b * Trig.sin radians * Trig.cos angle⟩)

end
end R3D

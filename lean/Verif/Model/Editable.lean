import Verif.Model.Shapes
import Verif.Model.Matrix
import Verif.Model.PointCloud
/-
The traits for positions: `/repo/src/is_2d.rs`, `/repo/src/is_3d.rs`, `/repo/src/is_buildable_2d.rs`, `/repo/src/is_buildable_3d.rs`,
`/repo/src/is_editable_2d.rs`, `/repo/src/is_editable_3d.rs` with their provided methods, and the implementors `Point2D`, `Point3D`,
`Box2D`, `Box3D`, `Circle`, `Sphere`. The filters `FilterBox2D`, `FilterBox3D`, `FilterCircle`, `FilterSphere` hold one of these shapes
and hand every call on to it (`/repo/src/filter_box_2d.rs` L54-L113, `/repo/src/filter_box_3d.rs` L54-L123,
`/repo/src/filter_circle.rs` L53-L112, `/repo/src/filter_sphere.rs` L51-L121, the last one with the `z` of `FilterSphere` being
`sphere.y()`, the same value as that of `Sphere`), so that they are covered by the shapes. `Box<P>` hands on the reading functions
(`/repo/src/impls/boxx.rs` L42-L70).
`&mut self` is the argument and the value afterwards.
-/
namespace R3D
open Scalar

/-- `/repo/src/is_2d.rs` L30-34 -/
class Is2D (α : outParam Type) (P : Type) where
  x : P → α
  y : P → α

/-- `/repo/src/is_3d.rs` L30-36 -/
class Is3D (α : outParam Type) (P : Type) where
  x : P → α
  y : P → α
  z : P → α

/-- `/repo/src/is_editable_2d.rs` L30-34 -/
class IsEditable2D (α : outParam Type) (P : Type) extends Is2D α P where
  setX : P → α → P
  setY : P → α → P

/-- `/repo/src/is_editable_3d.rs` L30-36 -/
class IsEditable3D (α : outParam Type) (P : Type) extends Is3D α P where
  setX : P → α → P
  setY : P → α → P
  setZ : P → α → P

/-- `/repo/src/is_buildable_2d.rs` L36-41; `fromOther p x y` is `p.from(&other)` of an `other` at `x`, `y` -/
class IsBuildable2D (α : outParam Type) (P : Type) extends Is2D α P where
  new : α → α → P
  fromOther : P → α → α → P

/-- `/repo/src/is_buildable_3d.rs` L34-39; as for `IsBuildable2D` -/
class IsBuildable3D (α : outParam Type) (P : Type) extends Is3D α P where
  new : α → α → α → P
  fromOther : P → α → α → α → P

section provided
variable {α : Type} [Scalar α]

section
variable {P O : Type} [IsEditable2D α P] [Is2D α O]

/-- `/repo/src/is_editable_2d.rs` L37-41 -/
def IsEditable2D.setXy (p : P) (x y : α) : P := setY (setX p x) y
/-- `/repo/src/is_editable_2d.rs` L44-52 -/
def IsEditable2D.increaseDistanceToBy (p : P) (other : O) (factor : Positive α) : P :=
  let x := Is2D.x other + factor.val * (Is2D.x p - Is2D.x other)
  let y := Is2D.y other + factor.val * (Is2D.y p - Is2D.y other)
  setXy p x y
/-- `/repo/src/is_editable_2d.rs` L55-63 -/
def IsEditable2D.add (p : P) (other : O) : P :=
  let x := Is2D.x p + Is2D.x other
  let y := Is2D.y p + Is2D.y other
  setY (setX p x) y
/-- `/repo/src/is_editable_2d.rs` L66-74 -/
def IsEditable2D.subtract (p : P) (other : O) : P :=
  let x := Is2D.x p - Is2D.x other
  let y := Is2D.y p - Is2D.y other
  setY (setX p x) y
/-- `/repo/src/is_editable_2d.rs` L77-82 -/
def IsEditable2D.scalePos (p : P) (val : α) : P :=
  let x := val * Is2D.x p
  let y := val * Is2D.y p
  setY (setX p x) y
/-- `/repo/src/is_editable_2d.rs` L85-97 -/
def IsEditable2D.rotate [Trig α] (p : P) (rad : α) (center : O) : P :=
  let newx := Is2D.x center + Trig.cos rad * (Is2D.x p - Is2D.x center) - Trig.sin rad * (Is2D.y p - Is2D.y center)
  let newy := Is2D.y center + Trig.sin rad * (Is2D.x p - Is2D.x center) + Trig.cos rad * (Is2D.y p - Is2D.y center)
  setY (setX p newx) newy
end

section
variable {P O : Type} [IsEditable3D α P] [Is3D α O]

/-- `/repo/src/is_editable_3d.rs` L39-44 -/
def IsEditable3D.setXyz (p : P) (x y z : α) : P := setZ (setY (setX p x) y) z
/-- `/repo/src/is_editable_3d.rs` L46-50 -/
def IsEditable3D.setXy (p : P) (x y : α) : P := setY (setX p x) y
/-- `/repo/src/is_editable_3d.rs` L52-56 -/
def IsEditable3D.setXz (p : P) (x z : α) : P := setZ (setX p x) z
/-- `/repo/src/is_editable_3d.rs` L58-62 -/
def IsEditable3D.setYz (p : P) (y z : α) : P := setZ (setY p y) z
/-- `/repo/src/is_editable_3d.rs` L64-73 -/
def IsEditable3D.increaseDistanceToBy (p : P) (other : O) (factor : Positive α) : P :=
  let x := Is3D.x other + factor.val * (Is3D.x p - Is3D.x other)
  let y := Is3D.y other + factor.val * (Is3D.y p - Is3D.y other)
  let z := Is3D.z other + factor.val * (Is3D.z p - Is3D.z other)
  setXyz p x y z
/-- `/repo/src/is_editable_3d.rs` L76-86 -/
def IsEditable3D.add (p : P) (other : O) : P :=
  let x := Is3D.x p + Is3D.x other
  let y := Is3D.y p + Is3D.y other
  let z := Is3D.z p + Is3D.z other
  setZ (setY (setX p x) y) z
/-- `/repo/src/is_editable_3d.rs` L89-99 -/
def IsEditable3D.subtract (p : P) (other : O) : P :=
  let x := Is3D.x p - Is3D.x other
  let y := Is3D.y p - Is3D.y other
  let z := Is3D.z p - Is3D.z other
  setZ (setY (setX p x) y) z
/-- `/repo/src/is_editable_3d.rs` L102-109 -/
def IsEditable3D.scalePos (p : P) (val : α) : P :=
  let x := val * Is3D.x p
  let y := val * Is3D.y p
  let z := val * Is3D.z p
  setZ (setY (setX p x) y) z
end

section
variable {P O : Type} [IsBuildable2D α P] [Is2D α O]

/-- `/repo/src/is_buildable_2d.rs` L44-50 -/
def IsBuildable2D.newFrom (P : Type) [IsBuildable2D α P] (other : O) : P := new (Is2D.x other) (Is2D.y other)
/-- `/repo/src/is_buildable_2d.rs` L60-63 -/
def IsBuildable2D.zero (P : Type) [IsBuildable2D α P] : P := new (lit 0) (lit 0)
/-- `/repo/src/is_buildable_2d.rs` L85-90 -/
def IsBuildable2D.center (p : P) (other : O) : P :=
  new (lit (1 / 2) * (Is2D.x p + Is2D.x other)) (lit (1 / 2) * (Is2D.y p + Is2D.y other))
end

section
variable {P O : Type} [IsBuildable3D α P] [Is3D α O]

/-- `/repo/src/is_buildable_3d.rs` L42-48 -/
def IsBuildable3D.newFrom (P : Type) [IsBuildable3D α P] (other : O) : P :=
  new (Is3D.x other) (Is3D.y other) (Is3D.z other)
/-- `/repo/src/is_buildable_3d.rs` L75-78 -/
def IsBuildable3D.zero (P : Type) [IsBuildable3D α P] : P := new (lit 0) (lit 0) (lit 0)
/-- `/repo/src/is_buildable_3d.rs` L94-103 -/
def IsBuildable3D.center (p : P) (other : O) : P :=
  new (lit (1 / 2) * (Is3D.x p + Is3D.x other)) (lit (1 / 2) * (Is3D.y p + Is3D.y other))
    (lit (1 / 2) * (Is3D.z p + Is3D.z other))
end

end provided

section implementors
variable {α : Type}

/-- `/repo/src/point_2d.rs` L233-243, L299-309 -/
instance instIsEditable2DPoint2D : IsEditable2D α (Point2D α) where
  x p := p.x
  y p := p.y
  setX p v := { p with x := v }
  setY p v := { p with y := v }

/-- `/repo/src/point_2d.rs` L272-286 -/
instance instIsBuildable2DPoint2D : IsBuildable2D α (Point2D α) where
  x p := p.x
  y p := p.y
  new x y := ⟨x, y⟩
  fromOther p x y := { p with x := x, y := y }

/-- `/repo/src/point_3d.rs` L250-263, L323-338 -/
instance instIsEditable3DPoint3D : IsEditable3D α (Point3D α) where
  x p := p.x
  y p := p.y
  z p := p.z
  setX p v := { p with x := v }
  setY p v := { p with y := v }
  setZ p v := { p with z := v }

/-- `/repo/src/point_3d.rs` L294-309 -/
instance instIsBuildable3DPoint3D : IsBuildable3D α (Point3D α) where
  x p := p.x
  y p := p.y
  z p := p.z
  new x y z := ⟨x, y, z⟩
  fromOther p x y z := { p with x := x, y := y, z := z }

/-- `/repo/src/box_2d.rs` L90-100, L146-156: the center is read and written -/
instance instIsEditable2DBox2D : IsEditable2D α (Box2D α) where
  x := Box2D.x
  y := Box2D.y
  setX b v := { b with center := { b.center with x := v } }
  setY b v := { b with center := { b.center with y := v } }

/-- `/repo/src/circle.rs` L63-73, L117-127 -/
instance instIsEditable2DCircle : IsEditable2D α (Circle α) where
  x := Circle.x
  y := Circle.y
  setX b v := { b with center := { b.center with x := v } }
  setY b v := { b with center := { b.center with y := v } }

/-- `/repo/src/box_3d.rs` L96-111, L159-174 -/
instance instIsEditable3DBox3D : IsEditable3D α (Box3D α) where
  x := Box3D.x
  y := Box3D.y
  z := Box3D.z
  setX b v := { b with center := { b.center with x := v } }
  setY b v := { b with center := { b.center with y := v } }
  setZ b v := { b with center := { b.center with z := v } }

/-- `/repo/src/sphere.rs` L63-78, L122-137; `Sphere.z` is the y coordinate of the center -/
instance instIsEditable3DSphere : IsEditable3D α (Sphere α) where
  x := Sphere.x
  y := Sphere.y
  z := Sphere.z
  setX b v := { b with center := { b.center with x := v } }
  setY b v := { b with center := { b.center with y := v } }
  setZ b v := { b with center := { b.center with z := v } }

variable [Scalar α]

/-- `/repo/src/box_2d.rs` L121-138 -/
instance instIsBuildable2DBox2D : IsBuildable2D α (Box2D α) where
  x := Box2D.x
  y := Box2D.y
  new x y := ⟨⟨x, y⟩, Positive.one, Positive.one⟩
  fromOther b x y := { b with center := IsBuildable2D.fromOther b.center x y }

/-- `/repo/src/circle.rs` L93-109 -/
instance instIsBuildable2DCircle : IsBuildable2D α (Circle α) where
  x := Circle.x
  y := Circle.y
  new x y := ⟨⟨x, y⟩, Positive.one⟩
  fromOther b x y := { b with center := IsBuildable2D.fromOther b.center x y }

/-- `/repo/src/box_3d.rs` L133-151 -/
instance instIsBuildable3DBox3D : IsBuildable3D α (Box3D α) where
  x := Box3D.x
  y := Box3D.y
  z := Box3D.z
  new x y z := ⟨⟨x, y, z⟩, Positive.one, Positive.one, Positive.one⟩
  fromOther b x y z := { b with center := IsBuildable3D.fromOther b.center x y z }

/-- `/repo/src/sphere.rs` L98-114 -/
instance instIsBuildable3DSphere : IsBuildable3D α (Sphere α) where
  x := Sphere.x
  y := Sphere.y
  z := Sphere.z
  new x y z := ⟨⟨x, y, z⟩, Positive.one⟩
  fromOther b x y z := { b with center := IsBuildable3D.fromOther b.center x y z }

end implementors
end R3D

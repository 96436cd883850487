import Verif.Model.Point
import Mathlib.Data.Fin.VecNotation
import Mathlib.Analysis.SpecialFunctions.Trigonometric.Deriv
import Mathlib.Analysis.SpecialFunctions.Trigonometric.Basic
/-
Matrices, transformations by matrices, and the transformation pipes.

Matrices are functions of row and column. The `for i, for j` loops filling `result.data` become one function
of `i` and `j`; every element is assigned, so the initial `default()` value never shows.
-/
namespace R3D
open Scalar

/-- The trigonometric `f64` functions used by the library. The only instance is `ℝ` (below). The versions of
the platform are not modelled; theorems on doubles (C104) hold for any `Trig F64` of a stated accuracy. `/repo/src/matrix3.rs` L66-67, `/repo/src/matrix4.rs` L92-126 -/
class Trig (α : Type) where
  sin : α → α
  cos : α → α
  tan : α → α
  /-- `std::f64::consts::PI` -/
  pi : α

/-- exact trigonometry, for `/repo/src/matrix3.rs` L66-67, `/repo/src/matrix4.rs` L92-126 -/
noncomputable instance instTrigReal : Trig ℝ where
  sin := Real.sin
  cos := Real.cos
  tan := Real.tan
  pi := Real.pi

/-- `/repo/src/matrix3.rs` L33-35 -/
structure Matrix3 (α : Type) where
  data : Fin 3 → Fin 3 → α

/-- `/repo/src/matrix4.rs` L33-35 -/
structure Matrix4 (α : Type) where
  data : Fin 4 → Fin 4 → α

variable {α : Type} [Scalar α]

namespace Matrix3

/-- `/repo/src/matrix3.rs` L39-43 (and `Default`, L74-78) -/
def identity : Matrix3 α :=
  ⟨![![lit 1, lit 0, lit 0], ![lit 0, lit 1, lit 0], ![lit 0, lit 0, lit 1]]⟩
/-- `/repo/src/matrix3.rs` L45-49 -/
def zeroes : Matrix3 α :=
  ⟨![![lit 0, lit 0, lit 0], ![lit 0, lit 0, lit 0], ![lit 0, lit 0, lit 0]]⟩
/-- `/repo/src/matrix3.rs` L51-55 -/
def translation (x y : α) : Matrix3 α :=
  ⟨![![lit 1, lit 0, x], ![lit 0, lit 1, y], ![lit 0, lit 0, lit 1]]⟩
/-- `/repo/src/matrix3.rs` L57-61 -/
def scale (x y : α) : Matrix3 α :=
  ⟨![![x, lit 0, lit 0], ![lit 0, y, lit 0], ![lit 0, lit 0, lit 1]]⟩
/-- `/repo/src/matrix3.rs` L63-71 -/
def rotation [Trig α] (rad : α) : Matrix3 α :=
  ⟨![![Trig.cos rad, -Trig.sin rad, lit 0], ![Trig.sin rad, Trig.cos rad, lit 0], ![lit 0, lit 0, lit 1]]⟩
/-- `/repo/src/matrix3.rs` L80-126 (three identical bodies) -/
def mul (a b : Matrix3 α) : Matrix3 α :=
  ⟨fun i j => a.data i 0 * b.data 0 j + a.data i 1 * b.data 1 j + a.data i 2 * b.data 2 j⟩
/-- `/repo/src/matrix3.rs` L128-154 -/
def smul (a : Matrix3 α) (f : α) : Matrix3 α := ⟨fun i j => f * a.data i j⟩

end Matrix3

namespace Matrix4

/-- `/repo/src/matrix4.rs` L39-48 (and `Default`, L224-228) -/
def identity : Matrix4 α :=
  ⟨![![lit 1, lit 0, lit 0, lit 0], ![lit 0, lit 1, lit 0, lit 0], ![lit 0, lit 0, lit 1, lit 0],
     ![lit 0, lit 0, lit 0, lit 1]]⟩
/-- `/repo/src/matrix4.rs` L50-59 -/
def zeroes : Matrix4 α :=
  ⟨![![lit 0, lit 0, lit 0, lit 0], ![lit 0, lit 0, lit 0, lit 0], ![lit 0, lit 0, lit 0, lit 0],
     ![lit 0, lit 0, lit 0, lit 0]]⟩
/-- `/repo/src/matrix4.rs` L61-70 -/
def translation (x y z : α) : Matrix4 α :=
  ⟨![![lit 1, lit 0, lit 0, x], ![lit 0, lit 1, lit 0, y], ![lit 0, lit 0, lit 1, z],
     ![lit 0, lit 0, lit 0, lit 1]]⟩
/-- `/repo/src/matrix4.rs` L72-81 -/
def scale (x y z : α) : Matrix4 α :=
  ⟨![![x, lit 0, lit 0, lit 0], ![lit 0, y, lit 0, lit 0], ![lit 0, lit 0, z, lit 0],
     ![lit 0, lit 0, lit 0, lit 1]]⟩
/-- `/repo/src/matrix4.rs` L230-279 (three identical bodies) -/
def mul (a b : Matrix4 α) : Matrix4 α :=
  ⟨fun i j => a.data i 0 * b.data 0 j + a.data i 1 * b.data 1 j + a.data i 2 * b.data 2 j
    + a.data i 3 * b.data 3 j⟩
/-- `/repo/src/matrix4.rs` L281-307 -/
def smul (a : Matrix4 α) (f : α) : Matrix4 α := ⟨fun i j => f * a.data i j⟩

/-- `mx` of `/repo/src/matrix4.rs` L87-102 -/
def rotX [Trig α] (r : α) : Matrix4 α :=
  ⟨![![lit 1, lit 0, lit 0, lit 0],
     ![lit 0, Trig.cos r, -Trig.sin r, lit 0],
     ![lit 0, Trig.sin r, Trig.cos r, lit 0],
     ![lit 0, lit 0, lit 0, lit 1]]⟩
/-- `my` of `/repo/src/matrix4.rs` L104-119 -/
def rotY [Trig α] (r : α) : Matrix4 α :=
  ⟨![![Trig.cos r, lit 0, Trig.sin r, lit 0],
     ![lit 0, lit 1, lit 0, lit 0],
     ![-Trig.sin r, lit 0, Trig.cos r, lit 0],
     ![lit 0, lit 0, lit 0, lit 1]]⟩
/-- `mz` of `/repo/src/matrix4.rs` L121-136 -/
def rotZ [Trig α] (r : α) : Matrix4 α :=
  ⟨![![Trig.cos r, -Trig.sin r, lit 0, lit 0],
     ![Trig.sin r, Trig.cos r, lit 0, lit 0],
     ![lit 0, lit 0, lit 1, lit 0],
     ![lit 0, lit 0, lit 0, lit 1]]⟩
/-- `/repo/src/matrix4.rs` L83-139 -/
def rotation [Trig α] (x y z : α) : Matrix4 α := ((rotX x).mul (rotY y)).mul (rotZ z)

/-- `/repo/src/matrix4.rs` L141-165; `u` are the coordinates of the `IsNormalized3D` -/
def rotationAxis [Trig α] (u : Point3D α) (r : α) : Matrix4 α :=
  let c := Trig.cos r
  let s := Trig.sin r
  ⟨![![c + u.x * u.x * (lit 1 - c), u.x * u.y * (lit 1 - c) - u.z * s,
       u.x * u.z * (lit 1 - c) + u.y * s, lit 0],
     ![u.y * u.x * (lit 1 - c) + u.z * s, c + u.y * u.y * (lit 1 - c),
       u.y * u.z * (lit 1 - c) - u.x * s, lit 0],
     ![u.z * u.x * (lit 1 - c) - u.y * s, u.z * u.y * (lit 1 - c) + u.x * s,
       c + u.z * u.z * (lit 1 - c), lit 0],
     ![lit 0, lit 0, lit 0, lit 1]]⟩

/-- `/repo/src/matrix4.rs` L167-190 -/
def perspective [Trig α] (close away fov : α) : Matrix4 α :=
  let range := close - away
  let t := Trig.tan (fov / lit 2)
  ⟨![![lit 1 / (t * away), lit 0, lit 0, lit 0],
     ![lit 0, lit 1 / t, lit 0, lit 0],
     ![lit 0, lit 0, (-close - away) / range, lit 2 * away * close / range],
     ![lit 0, lit 0, lit 1, lit 1]]⟩

end Matrix4

/-- `/repo/src/is_buildable_3d.rs` L67-73 `normalized`; the outer `Option` is the panic of `abs` -/
def Point3D.normalized (p : Point3D α) : Panics (Res (Point3D α)) := do
  let l ← p.abs
  return if l.val ==. zero then .error .NormalizeVecWithoutLength
    else .ok ⟨p.x / l.val, p.y / l.val, p.z / l.val⟩

/-- `/repo/src/is_buildable_2d.rs` L52-58 `normalized` -/
def Point2D.normalized (p : Point2D α) : Panics (Res (Point2D α)) := do
  let l ← p.abs
  return if l.val ==. zero then .error .NormalizeVecWithoutLength
    else .ok ⟨p.x / l.val, p.y / l.val⟩

/-- `/repo/src/matrix4.rs` L192-219; `up` are the coordinates of the `IsNormalized3D` -/
def Matrix4.lookAt (target up : Point3D α) : Panics (Res (Matrix4 α)) := do
  match ← target.normalized with
  | .error e => return .error e
  | .ok n =>
    let u := up.cross target
    let v := n.cross u
    return .ok ⟨![![u.x, u.y, u.z, lit 0], ![v.x, v.y, v.z, lit 0], ![n.x, n.y, n.z, lit 0],
      ![lit 0, lit 0, lit 0, lit 1]]⟩

/-- `/repo/src/is_buildable_2d.rs` L65-69 `multiply_m` and `/repo/src/point_2d.rs` L320-328
`transformed` / `transform` -/
def Point2D.transformed (p : Point2D α) (m : Matrix3 α) : Point2D α :=
  ⟨p.x * m.data 0 0 + p.y * m.data 0 1 + m.data 0 2,
   p.x * m.data 1 0 + p.y * m.data 1 1 + m.data 1 2⟩

/-- `/repo/src/is_buildable_3d.rs` L51-65 `multiply_m` and `/repo/src/point_3d.rs` L349-357
`transformed` / `transform` -/
def Point3D.transformed (p : Point3D α) (m : Matrix4 α) : Point3D α :=
  ⟨p.x * m.data 0 0 + p.y * m.data 0 1 + p.z * m.data 0 2 + m.data 0 3,
   p.x * m.data 1 0 + p.y * m.data 1 1 + p.z * m.data 1 2 + m.data 1 3,
   p.x * m.data 2 0 + p.y * m.data 2 1 + p.z * m.data 2 2 + m.data 2 3⟩

/-- `/repo/src/is_editable_2d.rs` L85-97 -/
def Point2D.rotate [Trig α] (p : Point2D α) (rad : α) (center : Point2D α) : Point2D α :=
  ⟨center.x + Trig.cos rad * (p.x - center.x) - Trig.sin rad * (p.y - center.y),
   center.y + Trig.sin rad * (p.x - center.x) + Trig.cos rad * (p.y - center.y)⟩

/-- `/repo/src/matrix3_pipe.rs` L31-35 -/
structure Matrix3Pipe (α : Type) where
  mtranslation : Matrix3 α
  mrotation : Matrix3 α
  mscale : Matrix3 α

namespace Matrix3Pipe
variable [Trig α]

/-- `/repo/src/matrix3_pipe.rs` L29 derived `Default` -/
def default : Matrix3Pipe α := ⟨.identity, .identity, .identity⟩
/-- `/repo/src/matrix3_pipe.rs` L39-41 -/
def result (p : Matrix3Pipe α) : Matrix3 α := (p.mtranslation.mul p.mrotation).mul p.mscale
/-- `/repo/src/matrix3_pipe.rs` L43-45 -/
def addTranslation (p : Matrix3Pipe α) (x y : α) : Matrix3Pipe α := { p with mtranslation := .translation x y }
/-- `/repo/src/matrix3_pipe.rs` L47-49 -/
def removeTranslation (p : Matrix3Pipe α) : Matrix3Pipe α := { p with mtranslation := .identity }
/-- `/repo/src/matrix3_pipe.rs` L52-54 -/
def addRotation (p : Matrix3Pipe α) (r : α) : Matrix3Pipe α := { p with mrotation := .rotation r }
/-- `/repo/src/matrix3_pipe.rs` L56-58 -/
def removeRotation (p : Matrix3Pipe α) : Matrix3Pipe α := { p with mrotation := .identity }
/-- `/repo/src/matrix3_pipe.rs` L61-63 -/
def addScale (p : Matrix3Pipe α) (x y : α) : Matrix3Pipe α := { p with mscale := .scale x y }
/-- `/repo/src/matrix3_pipe.rs` L65-67 -/
def removeScale (p : Matrix3Pipe α) : Matrix3Pipe α := { p with mscale := .identity }

end Matrix3Pipe

/-- `/repo/src/matrix4_pipe.rs` L31-38 -/
structure Matrix4Pipe (α : Type) where
  mtranslation : Matrix4 α
  mrotation : Matrix4 α
  mscale : Matrix4 α
  mperspective : Matrix4 α
  mcamtrans : Matrix4 α
  mcamlook : Matrix4 α

namespace Matrix4Pipe
variable [Trig α]

/-- `/repo/src/matrix4_pipe.rs` L29 derived `Default` -/
def default : Matrix4Pipe α := ⟨.identity, .identity, .identity, .identity, .identity, .identity⟩
/-- `/repo/src/matrix4_pipe.rs` L42-49 -/
def result (p : Matrix4Pipe α) : Matrix4 α :=
  ((((p.mperspective.mul p.mcamlook).mul p.mcamtrans).mul p.mtranslation).mul p.mrotation).mul p.mscale
/-- `/repo/src/matrix4_pipe.rs` L51-53 -/
def addTranslation (p : Matrix4Pipe α) (x y z : α) : Matrix4Pipe α :=
  { p with mtranslation := .translation x y z }
/-- `/repo/src/matrix4_pipe.rs` L55-57 -/
def removeTranslation (p : Matrix4Pipe α) : Matrix4Pipe α := { p with mtranslation := .identity }
/-- `/repo/src/matrix4_pipe.rs` L60-62 -/
def addRotation (p : Matrix4Pipe α) (x y z : α) : Matrix4Pipe α := { p with mrotation := .rotation x y z }
/-- `/repo/src/matrix4_pipe.rs` L64-69 -/
def addRotationAxis (p : Matrix4Pipe α) (u : Point3D α) (r : α) : Matrix4Pipe α :=
  { p with mrotation := .rotationAxis u r }
/-- `/repo/src/matrix4_pipe.rs` L71-73 -/
def removeRotation (p : Matrix4Pipe α) : Matrix4Pipe α := { p with mrotation := .identity }
/-- `/repo/src/matrix4_pipe.rs` L76-78 -/
def addScale (p : Matrix4Pipe α) (x y z : α) : Matrix4Pipe α := { p with mscale := .scale x y z }
/-- `/repo/src/matrix4_pipe.rs` L80-82 -/
def removeScale (p : Matrix4Pipe α) : Matrix4Pipe α := { p with mscale := .identity }
/-- `/repo/src/matrix4_pipe.rs` L85-87 -/
def addPerspective (p : Matrix4Pipe α) (close away fov : α) : Matrix4Pipe α :=
  { p with mperspective := .perspective close away fov }
/-- `/repo/src/matrix4_pipe.rs` L89-91 -/
def removePerspective (p : Matrix4Pipe α) : Matrix4Pipe α := { p with mperspective := .identity }
/-- `/repo/src/matrix4_pipe.rs` L94-96 -/
def addCameraTranslation (p : Matrix4Pipe α) (x y z : α) : Matrix4Pipe α :=
  { p with mcamtrans := .translation (-x) (-y) (-z) }
/-- `/repo/src/matrix4_pipe.rs` L98-100 -/
def removeCameraTranslation (p : Matrix4Pipe α) : Matrix4Pipe α := { p with mcamtrans := .identity }
/-- `/repo/src/matrix4_pipe.rs` L103-110 -/
def addLookAt (p : Matrix4Pipe α) (target up : Point3D α) : Panics (Res (Matrix4Pipe α)) := do
  match ← Matrix4.lookAt target up with
  | .error e => return .error e
  | .ok m => return .ok { p with mcamlook := m }
/-- `/repo/src/matrix4_pipe.rs` L112-114 -/
def removeLookAt (p : Matrix4Pipe α) : Matrix4Pipe α := { p with mcamlook := .identity }

end Matrix4Pipe
end R3D

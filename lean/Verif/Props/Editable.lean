import Verif.Model.Editable
import Verif.Model.F64
import Mathlib.Tactic.Linarith
import Mathlib.Tactic.Ring
import Mathlib.Tactic.LinearCombination
/-!
C93: editing the position of points, boxes, circles and spheres.
-/
namespace R3D
open Scalar

namespace Spec
/-- the distance squared of two places -/
def gap2 {n : Nat} (p q : Fin n → ℝ) : ℝ := ∑ d, (p d - q d) ^ 2

/-- reading and writing coordinates of a `P` is reading and writing the coordinates `pos` of its position; `rest` is everything
else there is to know about it -/
structure Editable2 {α P R : Type} [IsEditable2D α P] (pos : P → Fin 2 → α) (rest : P → R) : Prop where
  x : ∀ p : P, Is2D.x p = pos p 0
  y : ∀ p : P, Is2D.y p = pos p 1
  setX : ∀ (p : P) v, pos (IsEditable2D.setX p v) = ![v, pos p 1] ∧ rest (IsEditable2D.setX p v) = rest p
  setY : ∀ (p : P) v, pos (IsEditable2D.setY p v) = ![pos p 0, v] ∧ rest (IsEditable2D.setY p v) = rest p

structure Editable3 {α P R : Type} [IsEditable3D α P] (pos : P → Fin 3 → α) (rest : P → R) : Prop where
  x : ∀ p : P, Is3D.x p = pos p 0
  y : ∀ p : P, Is3D.y p = pos p 1
  z : ∀ p : P, Is3D.z p = pos p 2
  setX : ∀ (p : P) v, pos (IsEditable3D.setX p v) = ![v, pos p 1, pos p 2] ∧ rest (IsEditable3D.setX p v) = rest p
  setY : ∀ (p : P) v, pos (IsEditable3D.setY p v) = ![pos p 0, v, pos p 2] ∧ rest (IsEditable3D.setY p v) = rest p
  setZ : ∀ (p : P) v, pos (IsEditable3D.setZ p v) = ![pos p 0, pos p 1, v] ∧ rest (IsEditable3D.setZ p v) = rest p

/-- the coordinates of a point -/
def coords2 {α : Type} (p : Point2D α) : Fin 2 → α := ![p.x, p.y]
def coords3 {α : Type} (p : Point3D α) : Fin 3 → α := ![p.x, p.y, p.z]
end Spec
open Spec

/-- **C93** points, boxes and circles: setting one coordinate changes this coordinate of the center and nothing else. -/
theorem c93_set {α : Type} [Scalar α] :
    Editable2 (P := Point2D α) coords2 (fun _ => ()) ∧
    Editable2 (P := Box2D α) (fun b => coords2 b.center) (fun b => (b.sizeX, b.sizeY)) ∧
    Editable2 (P := Circle α) (fun c => coords2 c.center) (fun c => c.radius) ∧
    Editable3 (P := Point3D α) coords3 (fun _ => ()) ∧
    Editable3 (P := Box3D α) (fun b => coords3 b.center) (fun b => (b.sizeX, b.sizeY, b.sizeZ)) :=
  ⟨⟨fun _ => rfl, fun _ => rfl, fun _ _ => ⟨rfl, rfl⟩, fun _ _ => ⟨rfl, rfl⟩⟩,
   ⟨fun _ => rfl, fun _ => rfl, fun _ _ => ⟨rfl, rfl⟩, fun _ _ => ⟨rfl, rfl⟩⟩,
   ⟨fun _ => rfl, fun _ => rfl, fun _ _ => ⟨rfl, rfl⟩, fun _ _ => ⟨rfl, rfl⟩⟩,
   ⟨fun _ => rfl, fun _ => rfl, fun _ => rfl, fun _ _ => ⟨rfl, rfl⟩, fun _ _ => ⟨rfl, rfl⟩, fun _ _ => ⟨rfl, rfl⟩⟩,
   ⟨fun _ => rfl, fun _ => rfl, fun _ => rfl, fun _ _ => ⟨rfl, rfl⟩, fun _ _ => ⟨rfl, rfl⟩, fun _ _ => ⟨rfl, rfl⟩⟩⟩

section edits2
variable {α : Type} [Scalar α] {P R O S : Type} [IsEditable2D α P] [IsEditable2D α O] {pos : P → Fin 2 → α} {rest : P → R}
  {opos : O → Fin 2 → α} {orest : O → S}

theorem setBoth2 (h : Editable2 pos rest) (p : P) (x y : α) :
    pos (IsEditable2D.setY (IsEditable2D.setX p x) y) = ![x, y] ∧ rest (IsEditable2D.setY (IsEditable2D.setX p x) y) = rest p := by
  refine ⟨?_, by rw [(h.setY _ _).2, (h.setX _ _).2]⟩
  rw [(h.setY _ _).1, (h.setX _ _).1]; rfl

/-- **C93** the provided editing functions of everything that reads and writes its position: exactly the named coordinates change,
to the documented values, computed from the position before the call, and nothing else changes. -/
theorem c93_edit_2d (h : Editable2 pos rest) (ho : Editable2 opos orest) (p : P) (o : O) (x y k : α) (f : Positive α) :
    (pos (IsEditable2D.setXy p x y) = ![x, y] ∧ rest (IsEditable2D.setXy p x y) = rest p) ∧
    (pos (IsEditable2D.add p o) = (fun d => pos p d + opos o d) ∧ rest (IsEditable2D.add p o) = rest p) ∧
    (pos (IsEditable2D.subtract p o) = (fun d => pos p d - opos o d) ∧ rest (IsEditable2D.subtract p o) = rest p) ∧
    (pos (IsEditable2D.scalePos p k) = (fun d => k * pos p d) ∧ rest (IsEditable2D.scalePos p k) = rest p) ∧
    (pos (IsEditable2D.increaseDistanceToBy p o f) = (fun d => opos o d + f.val * (pos p d - opos o d)) ∧
      rest (IsEditable2D.increaseDistanceToBy p o f) = rest p) := by
  refine ⟨setBoth2 h p x y, ?_, ?_, ?_, ?_⟩
  all_goals
    refine ⟨?_, (setBoth2 h p _ _).2⟩
    refine (setBoth2 h p _ _).1.trans ?_
    funext d
    fin_cases d <;> simp [h.x, h.y, ho.x, ho.y]

end edits2

section edits3
variable {α : Type} [Scalar α] {P R O S : Type} [IsEditable3D α P] [IsEditable3D α O] {pos : P → Fin 3 → α} {rest : P → R}
  {opos : O → Fin 3 → α} {orest : O → S}

theorem setAll3 (h : Editable3 pos rest) (p : P) (x y z : α) :
    pos (IsEditable3D.setZ (IsEditable3D.setY (IsEditable3D.setX p x) y) z) = ![x, y, z] ∧
    rest (IsEditable3D.setZ (IsEditable3D.setY (IsEditable3D.setX p x) y) z) = rest p := by
  refine ⟨?_, by rw [(h.setZ _ _).2, (h.setY _ _).2, (h.setX _ _).2]⟩
  rw [(h.setZ _ _).1, (h.setY _ _).1, (h.setX _ _).1]; rfl

/-- **C93** as `c93_edit_2d` -/
theorem c93_edit_3d (h : Editable3 pos rest) (ho : Editable3 opos orest) (p : P) (o : O) (x y z k : α) (f : Positive α) :
    (pos (IsEditable3D.setXyz p x y z) = ![x, y, z] ∧ rest (IsEditable3D.setXyz p x y z) = rest p) ∧
    (pos (IsEditable3D.setXy p x y) = ![x, y, pos p 2] ∧ rest (IsEditable3D.setXy p x y) = rest p) ∧
    (pos (IsEditable3D.setXz p x z) = ![x, pos p 1, z] ∧ rest (IsEditable3D.setXz p x z) = rest p) ∧
    (pos (IsEditable3D.setYz p y z) = ![pos p 0, y, z] ∧ rest (IsEditable3D.setYz p y z) = rest p) ∧
    (pos (IsEditable3D.add p o) = (fun d => pos p d + opos o d) ∧ rest (IsEditable3D.add p o) = rest p) ∧
    (pos (IsEditable3D.subtract p o) = (fun d => pos p d - opos o d) ∧ rest (IsEditable3D.subtract p o) = rest p) ∧
    (pos (IsEditable3D.scalePos p k) = (fun d => k * pos p d) ∧ rest (IsEditable3D.scalePos p k) = rest p) ∧
    (pos (IsEditable3D.increaseDistanceToBy p o f) = (fun d => opos o d + f.val * (pos p d - opos o d)) ∧
      rest (IsEditable3D.increaseDistanceToBy p o f) = rest p) := by
  refine ⟨setAll3 h p x y z, ?_, ?_, ?_, ?_, ?_, ?_, ?_⟩
  · refine ⟨?_, by rw [IsEditable3D.setXy, (h.setY _ _).2, (h.setX _ _).2]⟩
    rw [IsEditable3D.setXy, (h.setY _ _).1, (h.setX _ _).1]; rfl
  · refine ⟨?_, by rw [IsEditable3D.setXz, (h.setZ _ _).2, (h.setX _ _).2]⟩
    rw [IsEditable3D.setXz, (h.setZ _ _).1, (h.setX _ _).1]; rfl
  · refine ⟨?_, by rw [IsEditable3D.setYz, (h.setZ _ _).2, (h.setY _ _).2]⟩
    rw [IsEditable3D.setYz, (h.setZ _ _).1, (h.setY _ _).1]; rfl
  all_goals
    refine ⟨?_, (setAll3 h p _ _ _).2⟩
    refine (setAll3 h p _ _ _).1.trans ?_
    funext d
    fin_cases d <;> simp [h.x, h.y, h.z, ho.x, ho.y, ho.z]

end edits3

section laws
variable {P R O S : Type} [IsEditable2D ℝ P] [IsEditable2D ℝ O] {pos : P → Fin 2 → ℝ} {rest : P → R} {opos : O → Fin 2 → ℝ} {orest : O → S}

theorem rotate_pos (h : Editable2 pos rest) (ho : Editable2 opos orest) (p : P) (o : O) (a : ℝ) :
    pos (IsEditable2D.rotate p a o) =
      ![opos o 0 + Real.cos a * (pos p 0 - opos o 0) - Real.sin a * (pos p 1 - opos o 1),
        opos o 1 + Real.sin a * (pos p 0 - opos o 0) + Real.cos a * (pos p 1 - opos o 1)] ∧
    rest (IsEditable2D.rotate p a o) = rest p := by
  refine ⟨?_, (setBoth2 h p _ _).2⟩
  refine (setBoth2 h p _ _).1.trans ?_
  rw [h.x, h.y, ho.x, ho.y]; rfl

/-- **C93**, exact arithmetic: rotating around a center keeps the distance to it and everything but the position; rotations around the
same center add up; a quarter turn moves the point right of the center above it (counter clockwise). -/
theorem c93_rotate (h : Editable2 pos rest) (ho : Editable2 opos orest) (p : P) (o : O) (a b r : ℝ) :
    gap2 (pos (IsEditable2D.rotate p a o)) (opos o) = gap2 (pos p) (opos o) ∧
    rest (IsEditable2D.rotate p a o) = rest p ∧
    pos (IsEditable2D.rotate (IsEditable2D.rotate p a o) b o) = pos (IsEditable2D.rotate p (a + b) o) ∧
    (pos p = ![opos o 0 + r, opos o 1] → pos (IsEditable2D.rotate p (Real.pi / 2) o) = ![opos o 0, opos o 1 + r]) := by
  refine ⟨?_, (rotate_pos h ho p o a).2, ?_, ?_⟩
  · rw [(rotate_pos h ho p o a).1]
    simp only [gap2, Fin.sum_univ_two, Matrix.cons_val_zero, Matrix.cons_val_one]
    linear_combination ((pos p 0 - opos o 0) ^ 2 + (pos p 1 - opos o 1) ^ 2) * Real.sin_sq_add_cos_sq a
  · rw [(rotate_pos h ho _ o b).1, (rotate_pos h ho p o a).1, (rotate_pos h ho p o (a + b)).1, Real.sin_add, Real.cos_add]
    funext d
    fin_cases d <;> simp <;> ring
  · intro hp
    rw [(rotate_pos h ho p o _).1, hp]
    funext d
    fin_cases d <;> simp

/-- **C93**, exact arithmetic: `subtract` undoes `add` and `increase_distance_to_by` multiplies the distance. -/
theorem c93_laws_2d (h : Editable2 pos rest) (ho : Editable2 opos orest) (p : P) (o : O) (f : Positive ℝ) :
    pos (IsEditable2D.subtract (IsEditable2D.add p o) o) = pos p ∧
    gap2 (pos (IsEditable2D.increaseDistanceToBy p o f)) (opos o) = f.val ^ 2 * gap2 (pos p) (opos o) := by
  refine ⟨?_, ?_⟩
  · rw [(c93_edit_2d h ho (IsEditable2D.add p o) o 0 0 0 f).2.2.1.1, (c93_edit_2d h ho p o 0 0 0 f).2.1.1]
    funext d; simp
  · rw [(c93_edit_2d h ho p o 0 0 0 f).2.2.2.2.1]
    simp only [gap2, Fin.sum_univ_two]; ring

end laws

section laws3
variable {P R O S : Type} [IsEditable3D ℝ P] [IsEditable3D ℝ O] {pos : P → Fin 3 → ℝ} {rest : P → R} {opos : O → Fin 3 → ℝ} {orest : O → S}

/-- **C93**, exact arithmetic, as `c93_laws_2d` -/
theorem c93_laws_3d (h : Editable3 pos rest) (ho : Editable3 opos orest) (p : P) (o : O) (f : Positive ℝ) :
    pos (IsEditable3D.subtract (IsEditable3D.add p o) o) = pos p ∧
    gap2 (pos (IsEditable3D.increaseDistanceToBy p o f)) (opos o) = f.val ^ 2 * gap2 (pos p) (opos o) := by
  refine ⟨?_, ?_⟩
  · rw [(c93_edit_3d h ho (IsEditable3D.add p o) o 0 0 0 0 f).2.2.2.2.2.1.1, (c93_edit_3d h ho p o 0 0 0 0 f).2.2.2.2.1.1]
    funext d; simp
  · rw [(c93_edit_3d h ho p o 0 0 0 0 f).2.2.2.2.2.2.2.1]
    simp only [gap2, Fin.sum_univ_three]; ring

end laws3

/-- **C93** building: a new shape is at the given place, taking over the position of another keeps everything else, and the center of
two objects is halfway between the positions they report. -/
theorem c93_build {α : Type} [Scalar α] (p q : Point3D α) (b : Box3D α) (r s : Point2D α) (c : Box2D α) (k : Circle α) :
    coords3 (IsBuildable3D.newFrom (Point3D α) b) = coords3 b.center ∧
    coords3 (IsBuildable3D.newFrom (Box3D α) p).center = coords3 p ∧
    (IsBuildable3D.fromOther b p.x p.y p.z = { b with center := p }) ∧
    coords3 (IsBuildable3D.center p q) = (fun d => lit (1 / 2) * (coords3 p d + coords3 q d)) ∧
    coords3 (IsBuildable3D.zero (Point3D α)) = (fun _ => lit 0) ∧
    coords2 (IsBuildable2D.newFrom (Point2D α) c) = coords2 c.center ∧ coords2 (IsBuildable2D.newFrom (Point2D α) k) = coords2 k.center ∧
    coords2 (IsBuildable2D.newFrom (Box2D α) r).center = coords2 r ∧ coords2 (IsBuildable2D.newFrom (Circle α) r).center = coords2 r ∧
    (IsBuildable2D.fromOther c r.x r.y = { c with center := r }) ∧ (IsBuildable2D.fromOther k r.x r.y = { k with center := r }) ∧
    coords2 (IsBuildable2D.center r s) = (fun d => lit (1 / 2) * (coords2 r d + coords2 s d)) ∧
    coords2 (IsBuildable2D.zero (Point2D α)) = (fun _ => lit 0) := by
  refine ⟨rfl, rfl, rfl, ?_, ?_, rfl, rfl, rfl, rfl, rfl, rfl, ?_, ?_⟩ <;> funext d <;> fin_cases d <;> rfl

/-- **C93** violated by spheres: writing works, but since `z` reads the y coordinate, every function that computes the new position from
the old one puts z to the value computed for y, and a point built from a sphere is in the wrong place. -/
theorem c93_sphere {α : Type} [Scalar α] (s : Sphere α) (o : Point3D α) (k x y z : α) :
    IsEditable3D.setXyz s x y z = { s with center := ⟨x, y, z⟩ } ∧
    IsEditable3D.scalePos s k = { s with center := ⟨k * s.center.x, k * s.center.y, k * s.center.y⟩ } ∧
    IsEditable3D.add s o = { s with center := ⟨s.center.x + o.x, s.center.y + o.y, s.center.y + o.z⟩ } ∧
    IsEditable3D.subtract s o = { s with center := ⟨s.center.x - o.x, s.center.y - o.y, s.center.y - o.z⟩ } ∧
    IsBuildable3D.newFrom (Point3D α) s = ⟨s.center.x, s.center.y, s.center.y⟩ :=
  ⟨rfl, rfl, rfl, rfl, rfl⟩

/-- **C93** violated: moving a sphere by nothing keeps it in place exactly if its y and z coordinates are equal. -/
theorem c93_violated (s : Sphere ℝ) :
    IsEditable3D.add s (⟨0, 0, 0⟩ : Point3D ℝ) = s ↔ s.center.y = s.center.z := by
  obtain ⟨⟨x, y, z⟩, r⟩ := s
  constructor
  · intro h
    have := congrArg (fun s : Sphere ℝ => s.center.z) h
    simpa [IsEditable3D.add, IsEditable3D.setX, IsEditable3D.setY, IsEditable3D.setZ, Is3D.z, Sphere.z] using this
  · rintro h
    simp only at h
    subst h
    simp [IsEditable3D.add, IsEditable3D.setX, IsEditable3D.setY, IsEditable3D.setZ, Is3D.x, Is3D.y, Is3D.z, Sphere.x, Sphere.y, Sphere.z]

/-- the same for doubles: the sphere around (0, 0, 1) is pulled to the origin -/
theorem c93_violated_f64 : ∃ s : Sphere F64, IsEditable3D.add s (IsBuildable3D.zero (Point3D F64)) ≠ s ∧
    IsEditable3D.scalePos s (lit 1) ≠ s :=
  ⟨⟨⟨.ofRat 0, .ofRat 0, .ofRat 1⟩, ⟨.ofRat 1⟩⟩, by decide +kernel, by decide +kernel⟩

/-- non-vacuity -/
example (b : Box2D ℝ) (p : Point2D ℝ) := c93_rotate (c93_set (α := ℝ)).2.1 (c93_set (α := ℝ)).1 b p 1 2 3

end R3D

import Verif.Model.BoundingBox
import Verif.Lemmas.Scalar
/-
Specification vocabulary for points and boxes, independent of the functions of the model:
coordinates by dimension, numerical comparison through the extended real value of a scalar.
-/
namespace R3D.Spec
open LawfulScalar

variable {α : Type}

/-- coordinate of a 2D point by dimension -/
def at2 (p : Point2D α) : Fin 2 → α := ![p.x, p.y]
/-- coordinate of a 3D point by dimension -/
def at3 (p : Point3D α) : Fin 3 → α := ![p.x, p.y, p.z]

theorem forall_fin3 {P : Fin 3 → Prop} : (∀ d, P d) ↔ P 0 ∧ P 1 ∧ P 2 :=
  ⟨fun h => ⟨h 0, h 1, h 2⟩, fun h d => by
    match d with
    | 0 => exact h.1
    | 1 => exact h.2.1
    | 2 => exact h.2.2⟩

theorem exists_fin3 {P : Fin 3 → Prop} : (∃ d, P d) ↔ P 0 ∨ P 1 ∨ P 2 :=
  ⟨fun ⟨d, h⟩ => by
    match d with
    | 0 => exact .inl h
    | 1 => exact .inr (.inl h)
    | 2 => exact .inr (.inr h),
   fun h => h.elim (⟨0, ·⟩) (fun h => h.elim (⟨1, ·⟩) (⟨2, ·⟩))⟩

@[simp] theorem at2_zero (p : Point2D α) : at2 p 0 = p.x := rfl
@[simp] theorem at2_one (p : Point2D α) : at2 p 1 = p.y := rfl
@[simp] theorem at3_zero (p : Point3D α) : at3 p 0 = p.x := rfl
@[simp] theorem at3_one (p : Point3D α) : at3 p 1 = p.y := rfl
@[simp] theorem at3_two (p : Point3D α) : at3 p 2 = p.z := rfl

theorem ext2 {p q : Point2D α} (h : ∀ d, at2 p d = at2 q d) : p = q := by
  cases p; cases q
  simpa [Fin.forall_fin_two] using h

theorem ext3 {p q : Point3D α} (h : ∀ d, at3 p d = at3 q d) : p = q := by
  cases p; cases q
  simpa [forall_fin3] using h

/-- a box given by its corners as functions of the dimension -/
structure Box (n : Nat) (α : Type) where
  lo : Fin n → α
  hi : Fin n → α

/-- the box of a `BoundingBox2D` -/
def box2 (b : BoundingBox2D α) : Box 2 α := ⟨at2 b.min, at2 b.max⟩
/-- the box of a `BoundingBox3D` -/
def box3 (b : BoundingBox3D α) : Box 3 α := ⟨at3 b.min, at3 b.max⟩

namespace Box
variable {n : Nat} [Scalar α] [LawfulScalar α]

/-- no coordinate is NaN -/
def Ok (b : Box n α) : Prop := ∀ d, ok (b.lo d) ∧ ok (b.hi d)
/-- ordered in every dimension -/
def Valid (b : Box n α) : Prop := b.Ok ∧ ∀ d, key (b.lo d) < key (b.hi d)
/-- `a` encloses `b` (closed boxes) -/
def Encloses (a b : Box n α) : Prop := ∀ d, key (a.lo d) ≤ key (b.lo d) ∧ key (b.hi d) ≤ key (a.hi d)
/-- numerically equal (`==` of the library) -/
def NumEq (a b : Box n α) : Prop := ∀ d, key (a.lo d) = key (b.lo d) ∧ key (a.hi d) = key (b.hi d)
/-- in the closed box -/
def Mem (b : Box n α) (p : Fin n → α) : Prop :=
  ∀ d, key (b.lo d) ≤ key (p d) ∧ key (p d) ≤ key (b.hi d)
/-- in the interior -/
def MemInt (b : Box n α) (p : Fin n → α) : Prop :=
  ∀ d, key (b.lo d) < key (p d) ∧ key (p d) < key (b.hi d)

end Box

/-- squared euclidean distance of real points -/
noncomputable def sqrDist {n : Nat} (p q : Fin n → ℝ) : ℝ := ∑ d, (p d - q d) ^ 2

end R3D.Spec

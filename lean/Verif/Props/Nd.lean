import Verif.Model.Nd
import Verif.Lemmas.F64
import Verif.Props.AABBTree
/-
C89: the dimension independent interface of points agrees with the 2D and 3D one.
-/
namespace R3D
open Scalar

/-! ### distances -/

/-- adding a square to 0.0 changes nothing, also with doubles -/
theorem zero_add_sq_f64 (a : F64) : (lit 0 : F64) + sq a = sq a := by
  have h0 : (lit 0 : F64) = .fin false 0 := by decide +kernel
  rw [h0]
  show F64.add (.fin false 0) (F64.mul a a) = F64.mul a a
  have key : ∀ b : F64, F64.Rep b → (b = .nan ∨ b = .inf false ∨ ∃ r, b = .fin false r) → F64.add (.fin false 0) b = b := by
    rintro b hb (rfl | rfl | ⟨r, rfl⟩)
    · rfl
    · rfl
    · have hr := hb.1
      simp only [F64.add]
      have e : F64.val false 0 + F64.val false r = r := by simp [F64.val]
      rw [e]
      by_cases h : r = 0
      · subst h; rfl
      · rw [if_neg h]
        unfold F64.ofRat
        rw [if_neg (not_lt.2 hr)]
        exact F64.round_exact false hb
  cases a with
  | nan => exact key _ trivial (.inl rfl)
  | inf s => exact key _ trivial (.inr (.inl (by simp [F64.mul])))
  | fin s m =>
    have e : F64.mul (.fin s m) (.fin s m) = F64.round false (m * m) := by simp [F64.mul]
    rw [e]
    refine key _ (F64.round_rep _ _) ?_
    unfold F64.round
    split_ifs
    · exact .inr (.inr ⟨_, rfl⟩)
    · dsimp only
      split_ifs
      · exact .inr (.inl rfl)
      · exact .inr (.inr ⟨_, rfl⟩)

/-- **C89**, distances: `sqr_dist_nd` and `dist_nd` of points are `sqr_dist_2d`, … bit by bit, for all doubles (also infinite ones and
NaN); points of different dimensions are refused. -/
theorem c89_dist :
    (∀ p q : Point3D F64, sqrDistNd p q = .ok (p.sqrDist q) ∧ distNd p q = .ok (p.dist q)) ∧
    (∀ p q : Point2D F64, sqrDistNd p q = .ok (p.sqrDist q) ∧ distNd p q = .ok (p.dist q)) ∧
    (∀ (p : Point2D F64) (q : Point3D F64), distNd p q = .error .DimensionsDontMatch ∧
      distNd q p = .error .DimensionsDontMatch) := by
  have h3 : ∀ p q : Point3D F64, sqrDistNd p q = .ok (p.sqrDist q) := by
    intro p q
    show Except.ok ((lit 0 : F64) + sq (p.x - q.x) + sq (p.y - q.y) + sq (p.z - q.z)) = _
    rw [zero_add_sq_f64]
    rfl
  have h2 : ∀ p q : Point2D F64, sqrDistNd p q = .ok (p.sqrDist q) := by
    intro p q
    show Except.ok ((lit 0 : F64) + sq (p.x - q.x) + sq (p.y - q.y)) = _
    rw [zero_add_sq_f64]
    rfl
  refine ⟨fun p q => ⟨h3 p q, ?_⟩, fun p q => ⟨h2 p q, ?_⟩, fun p q => ⟨rfl, rfl⟩⟩
  · unfold distNd; rw [h3]; rfl
  · unfold distNd; rw [h2]; rfl

/-! ### coordinates -/

/-- **C89**, coordinates: `new_nd` takes exactly as many coordinates as there are dimensions, and `position_nd` gives them back (`None`
beyond) -/
theorem c89_new {α : Type} (coords : List α) :
    (coords.length ≠ 3 → IsBuildableND.newNd (P := Point3D α) coords = some (.error .DimensionsDontMatch)) ∧
    (coords.length = 3 → ∃ p : Point3D α, IsBuildableND.newNd coords = some (.ok p) ∧ ∀ i, IsND.pos p i = coords[i]?) ∧
    (coords.length ≠ 2 → IsBuildableND.newNd (P := Point2D α) coords = some (.error .DimensionsDontMatch)) ∧
    (coords.length = 2 → ∃ p : Point2D α, IsBuildableND.newNd coords = some (.ok p) ∧ ∀ i, IsND.pos p i = coords[i]?) := by
  refine ⟨?_, ?_, ?_, ?_⟩
  · intro h; simp [IsBuildableND.newNd, h]
  · intro h
    obtain ⟨x, y, z, rfl⟩ := List.length_eq_three.1 h
    refine ⟨⟨x, y, z⟩, rfl, ?_⟩
    rintro (_ | _ | _ | i)
    · rfl
    · rfl
    · rfl
    · simp [IsND.pos]
  · intro h; simp [IsBuildableND.newNd, h]
  · intro h
    obtain ⟨x, y, rfl⟩ := List.length_eq_two.1 h
    refine ⟨⟨x, y⟩, rfl, ?_⟩
    rintro (_ | _ | i)
    · rfl
    · rfl
    · simp [IsND.pos]

/-- **C89**: `set_position` changes exactly the coordinate asked for, and fails without a change beyond the dimensions -/
theorem c89_set {α : Type} (v : α) (d : Nat) :
    (∀ p : Point3D α, (d < 3 → (p.setPosition d v).2 = .ok () ∧
        ∀ i, IsND.pos (p.setPosition d v).1 i = if i = d then some v else IsND.pos p i) ∧
      (3 ≤ d → p.setPosition d v = (p, .error .DimensionsDontMatch))) ∧
    (∀ p : Point2D α, (d < 2 → (p.setPosition d v).2 = .ok () ∧
        ∀ i, IsND.pos (p.setPosition d v).1 i = if i = d then some v else IsND.pos p i) ∧
      (2 ≤ d → p.setPosition d v = (p, .error .DimensionsDontMatch))) := by
  constructor
  · intro p
    rcases d with _ | _ | _ | d
    · refine ⟨fun _ => ⟨rfl, ?_⟩, fun h => by omega⟩
      rintro (_ | _ | _ | i) <;> simp [IsND.pos, Point3D.setPosition]
    · refine ⟨fun _ => ⟨rfl, ?_⟩, fun h => by omega⟩
      rintro (_ | _ | _ | i) <;> simp [IsND.pos, Point3D.setPosition]
    · refine ⟨fun _ => ⟨rfl, ?_⟩, fun h => by omega⟩
      rintro (_ | _ | _ | i) <;> simp [IsND.pos, Point3D.setPosition]
    · exact ⟨fun h => by omega, fun _ => rfl⟩
  · intro p
    rcases d with _ | _ | d
    · refine ⟨fun _ => ⟨rfl, ?_⟩, fun h => by omega⟩
      rintro (_ | _ | i) <;> simp [IsND.pos, Point2D.setPosition]
    · refine ⟨fun _ => ⟨rfl, ?_⟩, fun h => by omega⟩
      rintro (_ | _ | i) <;> simp [IsND.pos, Point2D.setPosition]
    · exact ⟨fun h => by omega, fun _ => rfl⟩

/-- **C89**: `from_nd` takes all coordinates of a point of the same dimension, and fails without a change for another dimension -/
theorem c89_from {α : Type} (p q : Point3D α) (r s : Point2D α) :
    p.fromNd q = (q, .ok ()) ∧ r.fromNd s = (s, .ok ()) ∧
    p.fromNd r = (p, .error .DimensionsDontMatch) ∧ r.fromNd p = (r, .error .DimensionsDontMatch) :=
  ⟨rfl, rfl, rfl, rfl⟩

/-- **C89**: `zero_nd` never panics and gives the origin -/
theorem c89_zero {α : Type} [Scalar α] : zeroNd (P := Point3D α) = some ⟨lit 0, lit 0, lit 0⟩ ∧
    zeroNd (P := Point2D α) = some ⟨lit 0, lit 0⟩ := ⟨rfl, rfl⟩

/-! ### center -/

/-- **C89** (partial, see `c89_violated`): over the real numbers `center_nd` is the point in the middle; other dimensions are refused -/
theorem c89_center_partial :
    (∀ p q : Point3D ℝ, centerNd p q = some (.ok ⟨(p.x + q.x) / 2, (p.y + q.y) / 2, (p.z + q.z) / 2⟩)) ∧
    (∀ p q : Point2D ℝ, centerNd p q = some (.ok ⟨(p.x + q.x) / 2, (p.y + q.y) / 2⟩)) ∧
    (∀ (p : Point3D ℝ) (q : Point2D ℝ), centerNd p q = some (.error .IncorrectDimension) ∧
      centerNd q p = some (.error .IncorrectDimension)) := by
  have hl : (lit (1 / 2) : ℝ) = 1 / 2 := by simp
  refine ⟨?_, ?_, fun _ _ => ⟨rfl, rfl⟩⟩
  · intro p q
    show some (Except.ok (⟨lit (1 / 2) * (p.x + q.x), lit (1 / 2) * (p.y + q.y), lit (1 / 2) * (p.z + q.z)⟩ : Point3D ℝ)) = _
    rw [hl]
    congr 3 <;> ring
  · intro p q
    show some (Except.ok (⟨lit (1 / 2) * (p.x + q.x), lit (1 / 2) * (p.y + q.y)⟩ : Point2D ℝ)) = _
    rw [hl]
    congr 3 <;> ring

/-- **C89** violated: the center of two equal, finite points may be infinite -/
theorem c89_violated : ∃ p c : Point2D F64, F64.IsFin p.x ∧ F64.IsFin p.y ∧ centerNd p p = some (.ok c) ∧ c.x = .inf false :=
  ⟨⟨f (2 ^ 1023), f 0⟩, ⟨.inf false, f 0⟩, ⟨false, 2 ^ 1023, by decide +kernel⟩, ⟨false, 0, by decide +kernel⟩, by decide +kernel,
    rfl⟩

end R3D

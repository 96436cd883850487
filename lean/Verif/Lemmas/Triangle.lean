import Verif.Spec.Geom
import Mathlib.Analysis.InnerProductSpace.PiL2
/-!
The triangle inequality for the distances of `Spec/Geom.lean`.
-/
namespace R3D
open Spec
/-- how far a distance is off when its end points are -/
theorem sqrDist_tri {n : ℕ} (p q P Q : Fin n → ℝ) :
    |√(Spec.sqrDist p q) - √(Spec.sqrDist P Q)| ≤ ∑ d, |p d - P d| + ∑ d, |q d - Q d| := by
  have e : ∀ a b : Fin n → ℝ, √(Spec.sqrDist a b) = dist (WithLp.toLp 2 a : EuclideanSpace ℝ (Fin n)) (WithLp.toLp 2 b) := by
    intro a b
    rw [EuclideanSpace.dist_eq]
    simp [Spec.sqrDist, Real.dist_eq, sq_abs]
  have l : ∀ a b : Fin n → ℝ, √(Spec.sqrDist a b) ≤ ∑ d, |a d - b d| := by
    intro a b
    refine Real.sqrt_le_iff.2 ⟨Finset.sum_nonneg fun _ _ => abs_nonneg _, ?_⟩
    unfold Spec.sqrDist
    simp only [← sq_abs (a _ - b _)]
    exact Finset.sum_sq_le_sq_sum_of_nonneg (fun _ _ => abs_nonneg _)
  refine le_trans ?_ (add_le_add (l p P) (l q Q))
  rw [e, e, e, e]
  generalize (WithLp.toLp 2 p : EuclideanSpace ℝ (Fin n)) = a
  generalize (WithLp.toLp 2 q : EuclideanSpace ℝ (Fin n)) = b
  generalize (WithLp.toLp 2 P : EuclideanSpace ℝ (Fin n)) = A
  generalize (WithLp.toLp 2 Q : EuclideanSpace ℝ (Fin n)) = B
  have h1 := dist_triangle4 a A B b
  have h2 := dist_triangle4 A a b B
  rw [dist_comm B b] at h1
  rw [dist_comm A a] at h2
  rw [abs_le]; constructor <;> linarith
end R3D

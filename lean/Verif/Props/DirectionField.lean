import Verif.Model.DirectionField
import Verif.Props.RayTriangle
import Verif.Props.AABBTree
/-
C88: filters by the direction of a normal.
-/
namespace R3D
open Scalar

/-! ### 3D -/

/-- **C88** (3D, partial, see `c88_violated_3d`): over the real numbers, for unit vectors, the filter never panics and allows exactly the
directions whose angle to the expected one is at most `eps`: the angle is the number between 0 and π whose cosine is the scalar product. -/
theorem c88_3d_partial (field : Point3D ℝ → Point3D ℝ) (hf : ∀ p, Spec.len (field p) = 1) (eps : ℝ) (p n : Point3D ℝ)
    (hn : Spec.len n = 1) : ∃ b, filterDirectionField3D field eps p n = some b ∧
      (b = true ↔ ∃ θ, 0 ≤ θ ∧ θ ≤ Real.pi ∧
        Real.cos θ = (field p).x * n.x + (field p).y * n.y + (field p).z * n.z ∧ θ ≤ eps) := by
  have unit : ∀ q : Point3D ℝ, Spec.len q = 1 → q.x ^ 2 + q.y ^ 2 + q.z ^ 2 = 1 := by
    intro q hq
    have := Real.sqrt_eq_one.1 hq
    linarith
  have h1 := unit _ (hf p)
  have h2 := unit _ hn
  have habs : ∀ q : Point3D ℝ, Spec.len q = 1 → q.abs = some ⟨1⟩ := by
    intro q hq
    rw [Point3D.abs_real, ← Spec.len, hq]
  generalize hd : (field p).x * n.x + (field p).y * n.y + (field p).z * n.z = d
  have hle : d ^ 2 ≤ 1 := by
    rw [← hd]
    nlinarith [sq_nonneg ((field p).x * n.y - (field p).y * n.x), sq_nonneg ((field p).y * n.z - (field p).z * n.y),
      sq_nonneg ((field p).x * n.z - (field p).z * n.x)]
  have hd1 : -1 ≤ d := by nlinarith
  have hd2 : d ≤ 1 := by nlinarith
  refine ⟨decide (Real.arccos d ≤ eps), ?_, ?_⟩
  · unfold filterDirectionField3D Point3D.radTo
    rw [habs _ (hf p), habs _ hn]
    have e : (field p).dot n / ((⟨1⟩ : NonNegative ℝ).mul ⟨1⟩).val = d := by
      rw [← hd]
      simp [Point3D.dot, NonNegative.mul]
    simp only [Option.bind_eq_bind, Option.bind_some, e]
    rw [if_neg (by simp)]
    rfl
  · rw [decide_eq_true_iff]
    constructor
    · intro h
      exact ⟨_, Real.arccos_nonneg d, Real.arccos_le_pi d, Real.cos_arccos hd1 hd2, h⟩
    · rintro ⟨θ, t1, t2, t3, t4⟩
      rw [← t3, Real.arccos_cos t1 t2]
      exact t4

example : Spec.len ⟨0, 0, 1⟩ = 1 ∧ Spec.len ⟨3 / 5, 0, 4 / 5⟩ = 1 := by
  constructor
  · simp [Spec.len]
  · unfold Spec.len
    rw [Real.sqrt_eq_one]
    norm_num

/-- **C88** (3D): without a direction, that is if the normal or the expected one has length zero, nothing is allowed (with doubles
`Norm3D::new` gives such normals for vectors too long to have a length, see the second example). -/
theorem c88_3d_zero (field : Point3D ℝ → Point3D ℝ) (eps : ℝ) (p n : Point3D ℝ) (h : Spec.len (field p) = 0 ∨ Spec.len n = 0) :
    filterDirectionField3D field eps p n = some false := by
  unfold filterDirectionField3D Point3D.radTo
  rw [Point3D.abs_real, Point3D.abs_real]
  have e : (√((field p).x ^ 2 + (field p).y ^ 2 + (field p).z ^ 2) ==. zero || √(n.x ^ 2 + n.y ^ 2 + n.z ^ 2) ==. zero) = true := by
    simpa [Spec.len, Real.scalar_eq] using h
  simp only [Option.bind_eq_bind, Option.bind_some]
  rw [if_pos e]
  rfl

example : Spec.len ⟨0, 0, 0⟩ = 0 := by simp [Spec.len]

example : Norm3D.new (⟨f (2 ^ 600), f 0, f 1⟩ : Point3D F64) = some (.ok ⟨f 0, f 0, f 0⟩) := by decide +kernel

/-- **C88** (3D) violated with doubles: whatever `acos` is, if it is no number beyond 1, there is a unit vector (a result of `Norm3D::new`)
that is not allowed where exactly it is expected, for every `eps`. -/
theorem c88_violated_3d [Angle F64] (hacos : ∀ x : F64, (x >. lit 1) = true → Angle.acos x = F64.nan) :
    ∃ v n : Point3D F64, Norm3D.new v = some (.ok n) ∧ ∀ eps p, filterDirectionField3D (fun _ => n) eps p n = some false := by
  have key : ∃ v n : Point3D F64, Norm3D.new v = some (.ok n) ∧ ∃ l, n.abs = some l ∧
      (l.val ==. zero) = false ∧ (n.dot n / (l.mul l).val >. lit 1) = true :=
    ⟨⟨f 0, f 1, f 2⟩, ⟨f 0, f (8056283928194521 / 18014398509481984), f (8056283928194521 / 9007199254740992)⟩, by decide +kernel,
      ⟨f (9007199254740991 / 9007199254740992)⟩, by decide +kernel, by decide +kernel, by decide +kernel⟩
  obtain ⟨v, n, h1, l, h2, h3, h4⟩ := key
  refine ⟨v, n, h1, ?_⟩
  intro eps p
  unfold filterDirectionField3D Point3D.radTo
  rw [h2]
  simp only [Option.bind_eq_bind, Option.bind_some, h3, Bool.or_self]
  rw [hacos _ h4]
  rfl

/-! ### 2D -/

/-- **C88** (2D, partial): over the real numbers the expected direction itself is allowed -/
theorem c88_2d_partial (field : Point2D ℝ → Point2D ℝ) (eps : ℝ) (h : 0 ≤ eps) (p : Point2D ℝ) :
    filterDirectionField2D field eps p (field p) = true := by
  unfold filterDirectionField2D Point2D.radTo
  have e : Angle.atan2 ((field p).y - (field p).y) ((field p).x - (field p).x) = (0 : ℝ) := by
    show Complex.arg ⟨_, _⟩ = 0
    rw [sub_self, sub_self]
    exact Complex.arg_zero
  rw [e]
  simpa using h

/-- **C88** (2D) violated: every direction that is lower than the expected one is allowed, for every `eps` that is not negative … -/
theorem c88_violated_2d_lower (field : Point2D ℝ → Point2D ℝ) (eps : ℝ) (h : 0 ≤ eps) (p n : Point2D ℝ) (hn : n.y < (field p).y) :
    filterDirectionField2D field eps p n = true := by
  unfold filterDirectionField2D Point2D.radTo
  have e : Angle.atan2 (n.y - (field p).y) (n.x - (field p).x) < (0 : ℝ) :=
    Complex.arg_neg_iff.2 (sub_neg.2 hn)
  simpa using e.le.trans h

/-- … for example the opposite of every expected direction that points up … -/
theorem c88_violated_2d_opposite (field : Point2D ℝ → Point2D ℝ) (p : Point2D ℝ) (hup : 0 < (field p).y) :
    filterDirectionField2D field 0 p ⟨-(field p).x, -(field p).y⟩ = true :=
  c88_violated_2d_lower field 0 le_rfl p _ (by show -(field p).y < (field p).y; linarith)

/-- … and where x is expected, every direction turned left by any angle `t`, however small, is denied for every `eps ≤ π/2`. -/
theorem c88_violated_2d_near (t eps : ℝ) (h0 : 0 < t) (h1 : t < Real.pi) (he : eps ≤ Real.pi / 2) (p : Point2D ℝ) :
    filterDirectionField2D (fun _ => ⟨1, 0⟩) eps p ⟨Real.cos t, Real.sin t⟩ = false := by
  unfold filterDirectionField2D Point2D.radTo
  have hs := Real.sin_pos_of_pos_of_lt_pi h0 h1
  have hc : Real.cos t < 1 := by
    have := Real.sin_sq_add_cos_sq t
    nlinarith
  have e : Real.pi / 2 < Angle.atan2 (Real.sin t - 0) (Real.cos t - 1) := by
    show Real.pi / 2 < Complex.arg ⟨_, _⟩
    rw [← not_le, Complex.arg_le_pi_div_two_iff]
    push Not
    exact ⟨by simpa using hc, by simpa using hs.le⟩
  have : ¬ Angle.atan2 (Real.sin t - 0) (Real.cos t - 1) ≤ eps := not_le.2 (lt_of_le_of_lt he e)
  simpa using this

example : (0:ℝ) < 1 ∧ (1:ℝ) < Real.pi := ⟨one_pos, by linarith [Real.two_le_pi]⟩

/-- an arc cosine that is NaN beyond one, as in Rust, and a constant field -/
example : (∃ A : Angle F64, ∀ x : F64, (x >. lit 1) = true → A.acos x = F64.nan) ∧
    ∃ field : Point2D ℝ → Point2D ℝ, ∀ p, 0 < (field p).y ∧ (⟨1, 0⟩ : Point2D ℝ).y < (field p).y :=
  ⟨⟨⟨fun x => if (x >. lit 1) = true then .nan else x, fun x _ => x⟩, fun _ h => if_pos h⟩, fun _ => ⟨0, 1⟩,
    fun _ => ⟨one_pos, one_pos⟩⟩

end R3D

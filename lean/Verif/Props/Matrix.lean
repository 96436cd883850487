import Verif.Model.Matrix
import Verif.Model.F64
import Verif.Lemmas.Scalar
import Verif.Lemmas.KdTree
/-!
# C39 products, C40 rotations, C41 pipes, C75 `look_at` (exact arithmetic)
-/
namespace R3D
open Scalar

/-! ## C39 -/

/-- a matrix whose last row is `0 0 1`, as built by `identity`, `translation`, `scale`, `rotation` -/
def Matrix3.Affine (m : Matrix3 ℝ) : Prop := m.data 2 0 = 0 ∧ m.data 2 1 = 0 ∧ m.data 2 2 = 1
/-- a matrix whose last row is `0 0 0 1` -/
def Matrix4.Affine (m : Matrix4 ℝ) : Prop :=
  m.data 3 0 = 0 ∧ m.data 3 1 = 0 ∧ m.data 3 2 = 0 ∧ m.data 3 3 = 1

theorem Real.trig_sin (x : ℝ) : Trig.sin x = Real.sin x := rfl
theorem Real.trig_cos (x : ℝ) : Trig.cos x = Real.cos x := rfl
theorem Real.trig_tan (x : ℝ) : Trig.tan x = Real.tan x := rfl

/-- C39: transforming with a product is transforming with the right factor first, then with the left one,
when the right factor is affine (the left one may be anything). The unrestricted statement is false, see
`c39_violated`: `multiply_m` never looks at the last row. -/
theorem c39_compose_2d_partial (a b : Matrix3 ℝ) (p : Point2D ℝ) (hb : b.Affine) :
    p.transformed (a.mul b) = (p.transformed b).transformed a := by
  obtain ⟨h0, h1, h2⟩ := hb
  simp only [Point2D.transformed, Matrix3.mul, Point2D.mk.injEq, h0, h1, h2]
  constructor <;> ring

theorem c39_compose_3d_partial (a b : Matrix4 ℝ) (p : Point3D ℝ) (hb : b.Affine) :
    p.transformed (a.mul b) = (p.transformed b).transformed a := by
  obtain ⟨h0, h1, h2, h3⟩ := hb
  simp only [Point3D.transformed, Matrix4.mul, Point3D.mk.injEq, h0, h1, h2, h3]
  refine ⟨?_, ?_, ?_⟩ <;> ring

/-- C39 is violated for general matrices: with the perspective-like `b` (last row not `0 0 0 1`) composing
differs from applying one after the other. -/
theorem c39_violated :
    (∃ (a b : Matrix3 ℝ) (p : Point2D ℝ), p.transformed (a.mul b) ≠ (p.transformed b).transformed a) ∧
    (∃ (a b : Matrix4 ℝ) (p : Point3D ℝ), p.transformed (a.mul b) ≠ (p.transformed b).transformed a) := by
  constructor
  · refine ⟨.translation 1 0, ⟨![![1, 0, 0], ![0, 1, 0], ![1, 0, 1]]⟩, ⟨1, 0⟩, ?_⟩
    intro h
    have := congrArg Point2D.x h
    simp [Point2D.transformed, Matrix3.mul, Matrix3.translation] at this
  · refine ⟨.translation 1 0 0, ⟨![![1, 0, 0, 0], ![0, 1, 0, 0], ![0, 0, 1, 0], ![1, 0, 0, 1]]⟩, ⟨1, 0, 0⟩, ?_⟩
    intro h
    have := congrArg Point3D.x h
    simp [Point3D.transformed, Matrix4.mul, Matrix4.translation] at this

/-- C39: products of affine matrices are affine and so are the matrices built by the constructors -/
theorem c39_affine_2d (a b : Matrix3 ℝ) (ha : a.Affine) (hb : b.Affine) (x y r : ℝ) :
    (a.mul b).Affine ∧ (Matrix3.identity : Matrix3 ℝ).Affine ∧ (Matrix3.translation x y).Affine ∧
    (Matrix3.scale x y).Affine ∧ (Matrix3.rotation r).Affine := by
  obtain ⟨a0, a1, a2⟩ := ha
  obtain ⟨b0, b1, b2⟩ := hb
  simp [Matrix3.Affine, Matrix3.mul, Matrix3.identity, Matrix3.translation, Matrix3.scale, Matrix3.rotation, *]

theorem c39_affine_3d (a b : Matrix4 ℝ) (ha : a.Affine) (hb : b.Affine) (x y z r : ℝ) (u : Point3D ℝ) :
    (a.mul b).Affine ∧ (Matrix4.identity : Matrix4 ℝ).Affine ∧ (Matrix4.translation x y z).Affine ∧
    (Matrix4.scale x y z).Affine ∧ (Matrix4.rotation x y z).Affine ∧ (Matrix4.rotationAxis u r).Affine := by
  obtain ⟨a0, a1, a2, a3⟩ := ha
  obtain ⟨b0, b1, b2, b3⟩ := hb
  simp [Matrix4.Affine, Matrix4.mul, Matrix4.identity, Matrix4.translation, Matrix4.scale, Matrix4.rotation,
    Matrix4.rotX, Matrix4.rotY, Matrix4.rotZ, Matrix4.rotationAxis, *]

/-- C39: the product is associative, the identity is neutral and transforms every point to itself, zeroes
annihilate, and multiplying by a number multiplies every element -/
theorem c39_algebra_2d (a b c : Matrix3 ℝ) (p : Point2D ℝ) (f : ℝ) :
    ((a.mul b).mul c = a.mul (b.mul c)) ∧ Matrix3.identity.mul a = a ∧ a.mul .identity = a ∧
    p.transformed .identity = p ∧ Matrix3.zeroes.mul a = .zeroes ∧ a.mul .zeroes = .zeroes ∧
    (a.smul f).mul b = (a.mul b).smul f ∧ (∀ i j, (a.smul f).data i j = f * a.data i j) := by
  obtain ⟨a⟩ := a
  obtain ⟨b⟩ := b
  obtain ⟨c⟩ := c
  refine ⟨?_, ?_, ?_, ?_, ?_, ?_, ?_, ?_⟩
  · simp only [Matrix3.mul, Matrix3.mk.injEq]; funext i j; ring
  · simp only [Matrix3.mul, Matrix3.identity, Matrix3.mk.injEq]; funext i j; fin_cases i <;> simp
  · simp only [Matrix3.mul, Matrix3.identity, Matrix3.mk.injEq]; funext i j; fin_cases j <;> simp
  · simp [Point2D.transformed, Matrix3.identity]
  · simp only [Matrix3.mul, Matrix3.zeroes, Matrix3.mk.injEq]; funext i j; fin_cases i <;> fin_cases j <;> simp
  · simp only [Matrix3.mul, Matrix3.zeroes, Matrix3.mk.injEq]; funext i j; fin_cases i <;> fin_cases j <;> simp
  · simp only [Matrix3.mul, Matrix3.smul, Matrix3.mk.injEq]; funext i j; ring
  · intro i j; rfl

theorem c39_algebra_3d (a b c : Matrix4 ℝ) (p : Point3D ℝ) (f : ℝ) :
    ((a.mul b).mul c = a.mul (b.mul c)) ∧ Matrix4.identity.mul a = a ∧ a.mul .identity = a ∧
    p.transformed .identity = p ∧ Matrix4.zeroes.mul a = .zeroes ∧ a.mul .zeroes = .zeroes ∧
    (a.smul f).mul b = (a.mul b).smul f ∧ (∀ i j, (a.smul f).data i j = f * a.data i j) := by
  obtain ⟨a⟩ := a
  obtain ⟨b⟩ := b
  obtain ⟨c⟩ := c
  refine ⟨?_, ?_, ?_, ?_, ?_, ?_, ?_, ?_⟩
  · simp only [Matrix4.mul, Matrix4.mk.injEq]; funext i j; ring
  · simp only [Matrix4.mul, Matrix4.identity, Matrix4.mk.injEq]; funext i j; fin_cases i <;> simp
  · simp only [Matrix4.mul, Matrix4.identity, Matrix4.mk.injEq]; funext i j; fin_cases j <;> simp
  · simp [Point3D.transformed, Matrix4.identity]
  · simp only [Matrix4.mul, Matrix4.zeroes, Matrix4.mk.injEq]; funext i j; fin_cases i <;> fin_cases j <;> simp
  · simp only [Matrix4.mul, Matrix4.zeroes, Matrix4.mk.injEq]; funext i j; fin_cases i <;> fin_cases j <;> simp
  · simp only [Matrix4.mul, Matrix4.smul, Matrix4.mk.injEq]; funext i j; ring
  · intro i j; rfl

/-- two matrices giving different products in the two orders meet the hypotheses of the composition law -/
example : (Matrix3.translation (1:ℝ) 0).Affine ∧ (Matrix3.scale (2:ℝ) 3).Affine ∧
    (Matrix3.translation (1:ℝ) 0).mul (.scale 2 3) ≠ (Matrix3.scale (2:ℝ) 3).mul (.translation 1 0) := by
  refine ⟨by simp [Matrix3.Affine, Matrix3.translation], by simp [Matrix3.Affine, Matrix3.scale], ?_⟩
  intro h
  have := congrArg (fun m : Matrix3 ℝ => m.data 0 2) h
  simp [Matrix3.mul, Matrix3.translation, Matrix3.scale] at this

/-! ## C40 -/

/-- C40: what translation, scale and rotation matrices do to a point of the plane -/
theorem c40_action_2d (p : Point2D ℝ) (x y a : ℝ) :
    p.transformed (.translation x y) = ⟨p.x + x, p.y + y⟩ ∧
    p.transformed (.scale x y) = ⟨x * p.x, y * p.y⟩ ∧
    (∀ r t : ℝ, (Point2D.mk (r * Real.cos t) (r * Real.sin t)).transformed (.rotation a)
      = ⟨r * Real.cos (t + a), r * Real.sin (t + a)⟩) := by
  refine ⟨by simp [Point2D.transformed, Matrix3.translation], by
    simp [Point2D.transformed, Matrix3.scale, mul_comm], fun r t => ?_⟩
  simp [Point2D.transformed, Matrix3.rotation, Real.trig_cos, Real.trig_sin, Real.cos_add, Real.sin_add]
  constructor <;> ring

/-- C40: rotating keeps distances and the origin, and rotations add up -/
theorem c40_rotation_2d (a b : ℝ) (p q : Point2D ℝ) :
    (p.transformed (.rotation a)).dist (q.transformed (.rotation a)) = p.dist q ∧
    (Point2D.mk 0 0 : Point2D ℝ).transformed (.rotation a) = ⟨0, 0⟩ ∧
    (Matrix3.rotation a).mul (.rotation b) = .rotation (a + b) ∧
    (Matrix3.rotation (-a)).mul (.rotation a) = .identity ∧
    (p.transformed (.rotation a)).transformed (.rotation (-a)) = p := by
  have hs := Real.sin_sq_add_cos_sq a
  refine ⟨?_, ?_, ?_, ?_, ?_⟩
  · simp only [Point2D.dist, Point2D.sqrDist, Point2D.transformed, Matrix3.rotation, Scalar.sq, Real.trig_cos,
      Real.trig_sin, Real.scalar_lit, Matrix.cons_val, Rat.cast_zero]
    congr 1
    linear_combination ((p.x - q.x) ^ 2 + (p.y - q.y) ^ 2) * hs
  · simp [Point2D.transformed, Matrix3.rotation]
  · simp only [Matrix3.mul, Matrix3.rotation, Real.trig_cos, Real.trig_sin, Matrix3.mk.injEq]
    funext i j
    fin_cases i <;> fin_cases j <;> simp [Real.cos_add, Real.sin_add] <;> ring
  · simp only [Matrix3.mul, Matrix3.rotation, Matrix3.identity, Real.trig_cos, Real.trig_sin, Matrix3.mk.injEq]
    funext i j
    fin_cases i <;> fin_cases j <;> simp <;> first | ring1 | linear_combination hs
  · simp only [Point2D.transformed, Matrix3.rotation, Real.trig_cos, Real.trig_sin, Real.cos_neg, Real.sin_neg,
      Matrix.cons_val, Real.scalar_lit, Rat.cast_zero]
    obtain ⟨px, py⟩ := p
    simp only [Point2D.mk.injEq]
    constructor
    · linear_combination px * hs
    · linear_combination py * hs

/-- C40: `rotate` turns around the given center: distances to it stay, the direction turns by the angle -/
theorem c40_rotate (a : ℝ) (p c : Point2D ℝ) :
    (p.rotate a c).dist c = p.dist c ∧ c.rotate a c = c ∧
    (∀ r t : ℝ, p = ⟨c.x + r * Real.cos t, c.y + r * Real.sin t⟩ →
      p.rotate a c = ⟨c.x + r * Real.cos (t + a), c.y + r * Real.sin (t + a)⟩) ∧
    (p.rotate a c).rotate (-a) c = p := by
  have hs := Real.sin_sq_add_cos_sq a
  refine ⟨?_, ?_, ?_, ?_⟩
  · simp only [Point2D.dist, Point2D.sqrDist, Point2D.rotate, Scalar.sq, Real.trig_cos, Real.trig_sin]
    congr 1
    linear_combination ((p.x - c.x) ^ 2 + (p.y - c.y) ^ 2) * hs
  · simp [Point2D.rotate]
  · rintro r t rfl
    simp only [Point2D.rotate, Real.trig_cos, Real.trig_sin, Real.cos_add, Real.sin_add, Point2D.mk.injEq]
    constructor <;> ring
  · simp only [Point2D.rotate, Real.trig_cos, Real.trig_sin, Real.cos_neg, Real.sin_neg]
    obtain ⟨px, py⟩ := p
    simp only [Point2D.mk.injEq]
    constructor
    · linear_combination (px - c.x) * hs
    · linear_combination (py - c.y) * hs

/-- C40: what translation and scale matrices do to a point in space -/
theorem c40_action_3d (p : Point3D ℝ) (x y z : ℝ) :
    p.transformed (.translation x y z) = ⟨p.x + x, p.y + y, p.z + z⟩ ∧
    p.transformed (.scale x y z) = ⟨x * p.x, y * p.y, z * p.z⟩ := by
  constructor <;> simp [Point3D.transformed, Matrix4.translation, Matrix4.scale, mul_comm]

/-- the unit axes -/
def axisX : Point3D ℝ := ⟨1, 0, 0⟩
def axisY : Point3D ℝ := ⟨0, 1, 0⟩
def axisZ : Point3D ℝ := ⟨0, 0, 1⟩

/-- Rodrigues' formula: the rotation by `a` around the unit vector `u`, right handed -/
noncomputable def Spec.rodrigues (u p : Point3D ℝ) (a : ℝ) : Point3D ℝ :=
  let d := u.x * p.x + u.y * p.y + u.z * p.z
  ⟨p.x * Real.cos a + (u.y * p.z - u.z * p.y) * Real.sin a + u.x * d * (1 - Real.cos a),
   p.y * Real.cos a + (u.z * p.x - u.x * p.z) * Real.sin a + u.y * d * (1 - Real.cos a),
   p.z * Real.cos a + (u.x * p.y - u.y * p.x) * Real.sin a + u.z * d * (1 - Real.cos a)⟩

/-- C40: `rotation_axis` rotates around the axis as Rodrigues' formula says; for a unit axis it keeps
distances, the origin and the axis, angles add up, and the opposite angle undoes it -/
theorem c40_rotation_axis (u p q : Point3D ℝ) (a b : ℝ) (hu : u.x ^ 2 + u.y ^ 2 + u.z ^ 2 = 1) :
    p.transformed (.rotationAxis u a) = Spec.rodrigues u p a ∧
    (p.transformed (.rotationAxis u a)).dist (q.transformed (.rotationAxis u a)) = p.dist q ∧
    (Point3D.mk 0 0 0 : Point3D ℝ).transformed (.rotationAxis u a) = ⟨0, 0, 0⟩ ∧
    u.transformed (.rotationAxis u a) = u ∧
    (p.transformed (.rotationAxis u a)).transformed (.rotationAxis u b)
      = p.transformed (.rotationAxis u (a + b)) ∧
    (p.transformed (.rotationAxis u a)).transformed (.rotationAxis u (-a)) = p := by
  obtain ⟨ux, uy, uz⟩ := u
  obtain ⟨px, py, pz⟩ := p
  obtain ⟨qx, qy, qz⟩ := q
  have hadd : ∀ a b : ℝ, ((Point3D.mk px py pz).transformed (.rotationAxis ⟨ux, uy, uz⟩ a)).transformed
      (.rotationAxis ⟨ux, uy, uz⟩ b) = (Point3D.mk px py pz).transformed (.rotationAxis ⟨ux, uy, uz⟩ (a + b)) := by
    intro a b
    dsimp only at hu
    simp only [Point3D.transformed, Matrix4.rotationAxis, Real.trig_cos, Real.trig_sin, Matrix.cons_val,
      Real.scalar_lit, Rat.cast_zero, Rat.cast_one, Real.cos_add, Real.sin_add, Point3D.mk.injEq]
    generalize Real.cos a = ca, Real.sin a = sa, Real.cos b = cb, Real.sin b = sb
    have hz : uz ^ 2 = 1 - ux ^ 2 - uy ^ 2 := by linear_combination hu
    refine ⟨?_, ?_, ?_⟩
    · linear_combination (ux * (ux * px + uy * py + uz * pz) * (1 - ca) * (1 - cb) - px * sa * sb) * hu
    · linear_combination (uy * (ux * px + uy * py + uz * pz) * (1 - ca) * (1 - cb) - py * sa * sb) * hu
    · linear_combination (uz * (ux * px + uy * py + uz * pz) * (1 - ca) * (1 - cb) - pz * sa * sb) * hu
  refine ⟨?_, ?_, ?_, ?_, hadd a b, ?_⟩
  · simp only [Point3D.transformed, Matrix4.rotationAxis, Real.trig_cos, Real.trig_sin, Matrix.cons_val,
      Real.scalar_lit, Rat.cast_zero, Rat.cast_one, Spec.rodrigues, Point3D.mk.injEq]
    refine ⟨?_, ?_, ?_⟩ <;> ring
  · have hs := Real.sin_sq_add_cos_sq a
    dsimp only at hu
    simp only [Point3D.dist, Point3D.sqrDist, Point3D.transformed, Matrix4.rotationAxis, Scalar.sq, Real.trig_cos,
      Real.trig_sin, Real.scalar_lit, Matrix.cons_val, Rat.cast_zero, Rat.cast_one]
    generalize Real.cos a = ca, Real.sin a = sa at hs ⊢
    congr 1
    obtain ⟨x, hx⟩ : ∃ x, x = px - qx := ⟨_, rfl⟩
    obtain ⟨y, hy⟩ : ∃ y, y = py - qy := ⟨_, rfl⟩
    obtain ⟨z, hz⟩ : ∃ z, z = pz - qz := ⟨_, rfl⟩
    have e1 : px = x + qx := by rw [hx]; ring
    have e2 : py = y + qy := by rw [hy]; ring
    have e3 : pz = z + qz := by rw [hz]; ring
    subst e1 e2 e3
    have hs' : sa ^ 2 = 1 - ca ^ 2 := by linear_combination hs
    linear_combination ((1 - ca) ^ 2 * (ux * x + uy * y + uz * z) ^ 2
      + sa ^ 2 * (x ^ 2 + y ^ 2 + z ^ 2)) * hu
      + ((x ^ 2 + y ^ 2 + z ^ 2) - (ux * x + uy * y + uz * z) ^ 2) * hs
  · simp [Point3D.transformed, Matrix4.rotationAxis]
  · dsimp only at hu
    simp only [Point3D.transformed, Matrix4.rotationAxis, Real.trig_cos, Real.trig_sin, Matrix.cons_val,
      Real.scalar_lit, Rat.cast_zero, Rat.cast_one, Point3D.mk.injEq]
    refine ⟨?_, ?_, ?_⟩
    · linear_combination ux * (1 - Real.cos a) * hu
    · linear_combination uy * (1 - Real.cos a) * hu
    · linear_combination uz * (1 - Real.cos a) * hu
  · rw [hadd, add_neg_cancel]
    simp [Point3D.transformed, Matrix4.rotationAxis, Real.trig_cos, Real.trig_sin]

example : axisX.x ^ 2 + axisX.y ^ 2 + axisX.z ^ 2 = 1 := by norm_num [axisX]

/-- C40: `rotation(x, y, z)` rotates around the z axis first, then around y, then around x (right handed,
each as `rotation_axis` does), so it keeps distances and the origin; each single rotation is undone by the
opposite angle -/
theorem c40_rotation_3d (x y z : ℝ) (p q : Point3D ℝ) :
    p.transformed (.rotation x y z)
      = ((p.transformed (.rotationAxis axisZ z)).transformed (.rotationAxis axisY y)).transformed
          (.rotationAxis axisX x) ∧
    (p.transformed (.rotation x y z)).dist (q.transformed (.rotation x y z)) = p.dist q ∧
    (Point3D.mk 0 0 0 : Point3D ℝ).transformed (.rotation x y z) = ⟨0, 0, 0⟩ := by
  have h : ∀ p : Point3D ℝ, p.transformed (.rotation x y z)
      = ((p.transformed (.rotationAxis axisZ z)).transformed (.rotationAxis axisY y)).transformed
          (.rotationAxis axisX x) := by
    intro p
    simp only [Matrix4.rotation]
    have ha := c39_affine_3d .identity .identity (by simp [Matrix4.Affine, Matrix4.identity])
      (by simp [Matrix4.Affine, Matrix4.identity])
    have hx : Matrix4.rotX x = .rotationAxis axisX x := by
      simp only [Matrix4.rotX, Matrix4.rotationAxis, axisX, Matrix4.mk.injEq]
      funext i j; fin_cases i <;> fin_cases j <;> simp
    have hy : Matrix4.rotY y = .rotationAxis axisY y := by
      simp only [Matrix4.rotY, Matrix4.rotationAxis, axisY, Matrix4.mk.injEq]
      funext i j; fin_cases i <;> fin_cases j <;> simp
    have hz : Matrix4.rotZ z = .rotationAxis axisZ z := by
      simp only [Matrix4.rotZ, Matrix4.rotationAxis, axisZ, Matrix4.mk.injEq]
      funext i j; fin_cases i <;> fin_cases j <;> simp
    rw [hx, hy, hz, c39_compose_3d_partial _ _ _ (ha 0 0 0 z axisZ).2.2.2.2.2,
      c39_compose_3d_partial _ _ _ (ha 0 0 0 y axisY).2.2.2.2.2]
  have ux : axisX.x ^ 2 + axisX.y ^ 2 + axisX.z ^ 2 = 1 := by norm_num [axisX]
  have uy : axisY.x ^ 2 + axisY.y ^ 2 + axisY.z ^ 2 = 1 := by norm_num [axisY]
  have uz : axisZ.x ^ 2 + axisZ.y ^ 2 + axisZ.z ^ 2 = 1 := by norm_num [axisZ]
  refine ⟨h p, ?_, ?_⟩
  · rw [h p, h q, (c40_rotation_axis _ _ _ _ 0 ux).2.1, (c40_rotation_axis _ _ _ _ 0 uy).2.1,
      (c40_rotation_axis _ _ _ _ 0 uz).2.1]
  · have e := fun u a hu => (c40_rotation_axis u ⟨0, 0, 0⟩ ⟨0, 0, 0⟩ a 0 hu).2.2.1
    rw [h, e _ _ uz, e _ _ uy, e _ _ ux]

/-! ## C41 -/

/-- settings of a 2D pipe: what was added last and not removed since -/
structure Spec.Config2 where
  trans : Option (ℝ × ℝ) := none
  rot : Option ℝ := none
  scale : Option (ℝ × ℝ) := none

/-- user actions on a 2D pipe -/
inductive Spec.Act2
  | addTranslation (x y : ℝ) | removeTranslation
  | addRotation (r : ℝ) | removeRotation
  | addScale (x y : ℝ) | removeScale

namespace Spec

noncomputable def Act2.run (p : Matrix3Pipe ℝ) : Act2 → Matrix3Pipe ℝ
  | addTranslation x y => p.addTranslation x y
  | removeTranslation => p.removeTranslation
  | addRotation r => p.addRotation r
  | removeRotation => p.removeRotation
  | addScale x y => p.addScale x y
  | removeScale => p.removeScale

def Act2.conf (c : Config2) : Act2 → Config2
  | addTranslation x y => { c with trans := some (x, y) }
  | removeTranslation => { c with trans := none }
  | addRotation r => { c with rot := some r }
  | removeRotation => { c with rot := none }
  | addScale x y => { c with scale := some (x, y) }
  | removeScale => { c with scale := none }

noncomputable def doScale2 (s : Option (ℝ × ℝ)) (p : Point2D ℝ) : Point2D ℝ :=
  match s with | none => p | some (x, y) => ⟨x * p.x, y * p.y⟩
noncomputable def doRot2 (s : Option ℝ) (p : Point2D ℝ) : Point2D ℝ :=
  match s with
  | none => p
  | some a => ⟨Real.cos a * p.x - Real.sin a * p.y, Real.sin a * p.x + Real.cos a * p.y⟩
noncomputable def doTrans2 (s : Option (ℝ × ℝ)) (p : Point2D ℝ) : Point2D ℝ :=
  match s with | none => p | some (x, y) => ⟨p.x + x, p.y + y⟩

end Spec

open Spec in
/-- C41: whatever is added to and removed from a 2D pipe, in any order, the resulting matrix scales first, then
rotates, then translates, with the settings added last and not removed -/
theorem c41_pipe_2d (acts : List Act2) (p : Point2D ℝ) :
    let c := acts.foldl Act2.conf {}
    p.transformed (acts.foldl Act2.run .default).result = doTrans2 c.trans (doRot2 c.rot (doScale2 c.scale p)) := by
  have key : ∀ (acts : List Act2) (pipe : Matrix3Pipe ℝ) (c : Config2),
      (pipe.mtranslation.Affine ∧ ∀ q : Point2D ℝ, q.transformed pipe.mtranslation = doTrans2 c.trans q) →
      (pipe.mrotation.Affine ∧ ∀ q : Point2D ℝ, q.transformed pipe.mrotation = doRot2 c.rot q) →
      (pipe.mscale.Affine ∧ ∀ q : Point2D ℝ, q.transformed pipe.mscale = doScale2 c.scale q) →
      p.transformed (acts.foldl Act2.run pipe).result =
        doTrans2 (acts.foldl Act2.conf c).trans (doRot2 (acts.foldl Act2.conf c).rot
          (doScale2 (acts.foldl Act2.conf c).scale p)) := by
    intro acts
    have hi := c39_affine_2d .identity .identity (by simp [Matrix3.Affine, Matrix3.identity])
      (by simp [Matrix3.Affine, Matrix3.identity])
    have hid : ∀ q : Point2D ℝ, q.transformed .identity = q :=
      fun q => (c39_algebra_2d .identity .identity .identity q 0).2.2.2.1
    induction acts with
    | nil =>
      intro pipe c h1 h2 h3
      simp only [List.foldl_nil, Matrix3Pipe.result]
      rw [c39_compose_2d_partial _ _ _ h3.1, c39_compose_2d_partial _ _ _ h2.1, h3.2, h2.2, h1.2]
    | cons a as ih =>
      intro pipe c h1 h2 h3
      simp only [List.foldl_cons]
      apply ih
      · cases a with
        | addTranslation x y => exact ⟨(hi x y 0).2.2.1, fun q => (c40_action_2d q x y 0).1⟩
        | removeTranslation => exact ⟨(hi 0 0 0).2.1, hid⟩
        | _ => exact h1
      · cases a with
        | addRotation r =>
          refine ⟨(hi 0 0 r).2.2.2.2, fun q => ?_⟩
          simp only [Act2.run, Act2.conf, Matrix3Pipe.addRotation, doRot2]
          simp [Point2D.transformed, Matrix3.rotation, Real.trig_cos, Real.trig_sin]
          constructor <;> ring
        | removeRotation => exact ⟨(hi 0 0 0).2.1, hid⟩
        | _ => exact h2
      · cases a with
        | addScale x y => exact ⟨(hi x y 0).2.2.2.1, fun q => (c40_action_2d q x y 0).2.1⟩
        | removeScale => exact ⟨(hi 0 0 0).2.1, hid⟩
        | _ => exact h3
  have hid : ∀ q : Point2D ℝ, q.transformed .identity = q :=
    fun q => (c39_algebra_2d .identity .identity .identity q 0).2.2.2.1
  have hia : (Matrix3.identity : Matrix3 ℝ).Affine := by simp [Matrix3.Affine, Matrix3.identity]
  exact key acts .default {} ⟨hia, hid⟩ ⟨hia, hid⟩ ⟨hia, hid⟩

/-! ## C75 -/

theorem Point3D.abs_real (p : Point3D ℝ) :
    p.abs = some ⟨Real.sqrt (p.x ^ 2 + p.y ^ 2 + p.z ^ 2)⟩ := by
  simp only [Point3D.abs, NonNegative.new, Scalar.sq, Real.scalar_sqrt, Real.scalar_le, Real.scalar_zero]
  rw [if_pos (by simp)]
  simp only [_root_.sq]

/-- the length of a vector -/
noncomputable def Spec.len (p : Point3D ℝ) : ℝ := Real.sqrt (p.x ^ 2 + p.y ^ 2 + p.z ^ 2)

theorem Spec.len_sq (p : Point3D ℝ) : Spec.len p ^ 2 = p.x ^ 2 + p.y ^ 2 + p.z ^ 2 :=
  Real.sq_sqrt (by positivity)

theorem Spec.len_eq_zero (p : Point3D ℝ) : Spec.len p = 0 ↔ p = ⟨0, 0, 0⟩ := by
  constructor
  · intro h
    have h2 := Spec.len_sq p
    rw [h] at h2
    obtain ⟨x, y, z⟩ := p
    dsimp only at h2
    have hx : x = 0 := by nlinarith [sq_nonneg x, sq_nonneg y, sq_nonneg z]
    have hy : y = 0 := by nlinarith [sq_nonneg x, sq_nonneg y, sq_nonneg z]
    have hz : z = 0 := by nlinarith [sq_nonneg x, sq_nonneg y, sq_nonneg z]
    rw [hx, hy, hz]
  · rintro rfl; simp [Spec.len]

theorem Matrix4.lookAt_real (t up : Point3D ℝ) : Matrix4.lookAt t up =
    if t = ⟨0, 0, 0⟩ then some (.error .NormalizeVecWithoutLength) else
      let n : Point3D ℝ := ⟨t.x / Spec.len t, t.y / Spec.len t, t.z / Spec.len t⟩
      let u := up.cross t
      let v := n.cross u
      some (.ok ⟨![![u.x, u.y, u.z, 0], ![v.x, v.y, v.z, 0], ![n.x, n.y, n.z, 0], ![0, 0, 0, 1]]⟩) := by
  unfold Matrix4.lookAt Point3D.normalized
  rw [Point3D.abs_real]
  simp only [Option.bind_eq_bind, Option.bind_some, Option.pure_def, Real.scalar_eq, Real.scalar_zero]
  by_cases h : t = ⟨0, 0, 0⟩
  · have h' : Real.sqrt (t.x ^ 2 + t.y ^ 2 + t.z ^ 2) = 0 := (Spec.len_eq_zero t).2 h
    rw [if_pos h]; simp only [h', decide_true, if_true]
  · have h' : Real.sqrt (t.x ^ 2 + t.y ^ 2 + t.z ^ 2) ≠ 0 := fun e => h ((Spec.len_eq_zero t).1 e)
    rw [if_neg h]; simp only [h', decide_false, Bool.false_eq_true, if_false, Real.scalar_lit, Rat.cast_zero, Rat.cast_one]
    rfl

/-- C75: `look_at` fails exactly for the zero vector; otherwise it turns the target onto the positive z axis
at its distance, keeps the origin, and (only) for a target at distance one that is orthogonal to the unit
vector `up` it keeps distances and turns `up` onto the positive y axis. In general it does not keep distances
(`c75_violated`), because the side vector is not normalised. -/
theorem c75_look_at_partial (t up : Point3D ℝ) :
    (Matrix4.lookAt t up = some (.error .NormalizeVecWithoutLength) ↔ t = ⟨0, 0, 0⟩) ∧
    (t ≠ ⟨0, 0, 0⟩ → ∃ m, Matrix4.lookAt t up = some (.ok m) ∧ m.Affine ∧
      t.transformed m = ⟨0, 0, Spec.len t⟩ ∧
      (Point3D.mk 0 0 0).transformed m = ⟨0, 0, 0⟩ ∧
      (Spec.len t = 1 → Spec.len up = 1 → up.x * t.x + up.y * t.y + up.z * t.z = 0 →
        up.transformed m = ⟨0, 1, 0⟩ ∧
        ∀ p q : Point3D ℝ, (p.transformed m).dist (q.transformed m) = p.dist q)) := by
  rw [Matrix4.lookAt_real]
  constructor
  · split_ifs with h
    · simp [h]
    · simp [h]
  · intro h
    rw [if_neg h]
    refine ⟨_, rfl, ?_, ?_, ?_, ?_⟩
    · simp [Matrix4.Affine]
    · have hl : Spec.len t ≠ 0 := fun e => h ((Spec.len_eq_zero t).1 e)
      have hl2 := Spec.len_sq t
      simp only [Point3D.transformed, Matrix.cons_val, Point3D.cross, Point3D.mk.injEq]
      generalize Spec.len t = l at hl hl2
      refine ⟨by ring, ?_, ?_⟩
      · field_simp; ring
      · field_simp; linear_combination -hl2
    · simp [Point3D.transformed]
    · intro h1 h2 h3
      have ht := Spec.len_sq t
      have hu := Spec.len_sq up
      rw [h1] at ht
      rw [h2] at hu
      simp only [h1, div_one]
      obtain ⟨tx, ty, tz⟩ := t
      obtain ⟨ux, uy, uz⟩ := up
      dsimp only at ht hu h3
      constructor
      · simp only [Point3D.transformed, Matrix.cons_val, Point3D.cross, Point3D.mk.injEq]
        refine ⟨by ring, ?_, by linear_combination h3⟩
        linear_combination -(ux^2+uy^2+uz^2) * ht - hu - (tx*ux+ty*uy+tz*uz) * h3
      · rintro ⟨px, py, pz⟩ ⟨qx, qy, qz⟩
        simp only [Point3D.dist, Point3D.sqrDist, Point3D.transformed, Scalar.sq, Matrix.cons_val, Point3D.cross]
        congr 1
        obtain ⟨x, hx⟩ : ∃ x, x = px - qx := ⟨_, rfl⟩
        obtain ⟨y, hy⟩ : ∃ y, y = py - qy := ⟨_, rfl⟩
        obtain ⟨z, hz⟩ : ∃ z, z = pz - qz := ⟨_, rfl⟩
        have e1 : px = x + qx := by rw [hx]; ring
        have e2 : py = y + qy := by rw [hy]; ring
        have e3 : pz = z + qz := by rw [hz]; ring
        subst e1 e2 e3
        obtain ⟨G, hG⟩ : ∃ G, G = (uy * tz - uz * ty) * x + (uz * tx - ux * tz) * y + (ux * ty - uy * tx) * z := ⟨_, rfl⟩
        obtain ⟨A, hA⟩ : ∃ A, A = ux * x + uy * y + uz * z := ⟨_, rfl⟩
        obtain ⟨B, hB⟩ : ∃ B, B = tx * x + ty * y + tz * z := ⟨_, rfl⟩
        have gram : G ^ 2 = x ^ 2 + y ^ 2 + z ^ 2 - A ^ 2 - B ^ 2 := by
          have g1 : G ^ 2 = (ux^2+uy^2+uz^2) * (tx^2+ty^2+tz^2) * (x^2+y^2+z^2)
              + 2 * (ux*tx+uy*ty+uz*tz) * A * B - (ux^2+uy^2+uz^2) * B ^ 2 - (tx^2+ty^2+tz^2) * A ^ 2
              - (x^2+y^2+z^2) * (ux*tx+uy*ty+uz*tz) ^ 2 := by rw [hG, hA, hB]; ring
          rw [g1, h3, ← ht, ← hu]; ring
        have hV : (ty * (ux * ty - uy * tx) - tz * (uz * tx - ux * tz)) * x
            + (tz * (uy * tz - uz * ty) - tx * (ux * ty - uy * tx)) * y
            + (tx * (uz * tx - ux * tz) - ty * (uy * tz - uz * ty)) * z = A := by
          have : (ty * (ux * ty - uy * tx) - tz * (uz * tx - ux * tz)) * x
            + (tz * (uy * tz - uz * ty) - tx * (ux * ty - uy * tx)) * y
            + (tx * (uz * tx - ux * tz) - ty * (uy * tz - uz * ty)) * z
            = (tx^2+ty^2+tz^2) * A - (ux*tx+uy*ty+uz*tz) * B := by rw [hA, hB]; ring
          rw [this, h3, ← ht]; ring
        calc _ = G ^ 2 + ((ty * (ux * ty - uy * tx) - tz * (uz * tx - ux * tz)) * x
            + (tz * (uy * tz - uz * ty) - tx * (ux * ty - uy * tx)) * y
            + (tx * (uz * tx - ux * tz) - ty * (uy * tz - uz * ty)) * z) ^ 2 + B ^ 2 := by rw [hG, hB]; ring
          _ = _ := by rw [hV, gram]; ring

example : Spec.len ⟨0, 0, 1⟩ = 1 ∧ Spec.len ⟨0, 1, 0⟩ = 1 := by simp [Spec.len]

/-- C75 is violated: looking at a target two units away doubles distances across -/
theorem c75_violated : ∃ (t up p q : Point3D ℝ) (m : Matrix4 ℝ), Spec.len up = 1 ∧
    up.x * t.x + up.y * t.y + up.z * t.z = 0 ∧
    Matrix4.lookAt t up = some (.ok m) ∧ (p.transformed m).dist (q.transformed m) = 2 * p.dist q ∧ p.dist q = 1 := by
  have hl : Spec.len ⟨0, 0, 2⟩ = 2 := by simp [Spec.len]
  refine ⟨⟨0, 0, 2⟩, ⟨0, 1, 0⟩, ⟨0, 0, 0⟩, ⟨1, 0, 0⟩, ⟨![![2, 0, 0, 0], ![0, 2, 0, 0], ![0, 0, 1, 0], ![0, 0, 0, 1]]⟩,
    by simp [Spec.len], by simp, ?_, ?_, ?_⟩
  · rw [Matrix4.lookAt_real, if_neg (by simp), hl]
    simp [Point3D.cross]
  · simp [Point3D.transformed, Point3D.dist, Point3D.sqrDist, Scalar.sq, Point3D.cross]
  · simp [Point3D.dist, Point3D.sqrDist, Scalar.sq]

/-! ## C41 in space -/

namespace Spec

/-- settings of a 3D pipe -/
structure Config4 where
  trans : Option (ℝ × ℝ × ℝ) := none
  rot : Option ((ℝ × ℝ × ℝ) ⊕ (Point3D ℝ × ℝ)) := none
  scale : Option (ℝ × ℝ × ℝ) := none
  camTrans : Option (ℝ × ℝ × ℝ) := none
  look : Option (Point3D ℝ × Point3D ℝ) := none
  persp : Option (ℝ × ℝ × ℝ) := none

/-- user actions on a 3D pipe -/
inductive Act4
  | addTranslation (x y z : ℝ) | removeTranslation
  | addRotation (x y z : ℝ) | addRotationAxis (u : Point3D ℝ) (r : ℝ) | removeRotation
  | addScale (x y z : ℝ) | removeScale
  | addCameraTranslation (x y z : ℝ) | removeCameraTranslation
  | addLookAt (t up : Point3D ℝ) | removeLookAt
  | addPerspective (close away fov : ℝ) | removePerspective

/-- a failing `add_look_at` (`Err`) changes nothing; a panic would leave nothing to observe and is given a
wrong value here, so that the theorem also excludes it -/
noncomputable def Act4.run (p : Matrix4Pipe ℝ) : Act4 → Matrix4Pipe ℝ
  | addTranslation x y z => p.addTranslation x y z
  | removeTranslation => p.removeTranslation
  | addRotation x y z => p.addRotation x y z
  | addRotationAxis u r => p.addRotationAxis u r
  | removeRotation => p.removeRotation
  | addScale x y z => p.addScale x y z
  | removeScale => p.removeScale
  | addCameraTranslation x y z => p.addCameraTranslation x y z
  | removeCameraTranslation => p.removeCameraTranslation
  | addLookAt t up =>
    match p.addLookAt t up with
    | some (.ok q) => q
    | some (.error _) => p
    | none => { p with mcamlook := .zeroes }
  | removeLookAt => p.removeLookAt
  | addPerspective c a f => p.addPerspective c a f
  | removePerspective => p.removePerspective

open Classical in
noncomputable def Act4.conf (c : Config4) : Act4 → Config4
  | addTranslation x y z => { c with trans := some (x, y, z) }
  | removeTranslation => { c with trans := none }
  | addRotation x y z => { c with rot := some (.inl (x, y, z)) }
  | addRotationAxis u r => { c with rot := some (.inr (u, r)) }
  | removeRotation => { c with rot := none }
  | addScale x y z => { c with scale := some (x, y, z) }
  | removeScale => { c with scale := none }
  | addCameraTranslation x y z => { c with camTrans := some (x, y, z) }
  | removeCameraTranslation => { c with camTrans := none }
  | addLookAt t up => if t = ⟨0, 0, 0⟩ then c else { c with look := some (t, up) }
  | removeLookAt => { c with look := none }
  | addPerspective cl a f => { c with persp := some (cl, a, f) }
  | removePerspective => { c with persp := none }

noncomputable def doScale4 (s : Option (ℝ × ℝ × ℝ)) (p : Point3D ℝ) : Point3D ℝ :=
  match s with | none => p | some (x, y, z) => ⟨x * p.x, y * p.y, z * p.z⟩
noncomputable def doRot4 (s : Option ((ℝ × ℝ × ℝ) ⊕ (Point3D ℝ × ℝ))) (p : Point3D ℝ) : Point3D ℝ :=
  match s with
  | none => p
  | some (.inl (x, y, z)) => rodrigues axisX (rodrigues axisY (rodrigues axisZ p z) y) x
  | some (.inr (u, a)) => rodrigues u p a
noncomputable def doTrans4 (s : Option (ℝ × ℝ × ℝ)) (p : Point3D ℝ) : Point3D ℝ :=
  match s with | none => p | some (x, y, z) => ⟨p.x + x, p.y + y, p.z + z⟩
/-- moving the camera moves the world the other way -/
noncomputable def doCamTrans4 (s : Option (ℝ × ℝ × ℝ)) (p : Point3D ℝ) : Point3D ℝ :=
  match s with | none => p | some (x, y, z) => ⟨p.x - x, p.y - y, p.z - z⟩
/-- coordinates along `up × target`, `target × (up × target)` and `target`, the last two divided by the
distance of the target -/
noncomputable def doLook4 (s : Option (Point3D ℝ × Point3D ℝ)) (p : Point3D ℝ) : Point3D ℝ :=
  match s with
  | none => p
  | some (t, up) =>
    ⟨(up.cross t).dot p, (t.cross (up.cross t)).dot p / len t, t.dot p / len t⟩
noncomputable def doPersp4 (s : Option (ℝ × ℝ × ℝ)) (p : Point3D ℝ) : Point3D ℝ :=
  match s with
  | none => p
  | some (close, away, fov) =>
    ⟨p.x / (Real.tan (fov / 2) * away), p.y / Real.tan (fov / 2),
     (2 * away * close - (close + away) * p.z) / (close - away)⟩

end Spec

open Spec in
/-- C41: whatever is added to and removed from a 3D pipe, in any order, the resulting matrix scales first,
then rotates, translates, moves the camera, looks at the target, and applies the perspective, with the settings
added last and not removed. -/
theorem c41_pipe_3d (acts : List Act4) (p : Point3D ℝ) :
    let c := acts.foldl Act4.conf {}
    p.transformed (acts.foldl Act4.run .default).result =
      doPersp4 c.persp (doLook4 c.look (doCamTrans4 c.camTrans (doTrans4 c.trans (doRot4 c.rot (doScale4 c.scale p))))) := by
  have hi := c39_affine_3d .identity .identity (by simp [Matrix4.Affine, Matrix4.identity])
    (by simp [Matrix4.Affine, Matrix4.identity])
  have hid : ∀ q : Point3D ℝ, q.transformed .identity = q :=
    fun q => (c39_algebra_3d .identity .identity .identity q 0).2.2.2.1
  have hia : (Matrix4.identity : Matrix4 ℝ).Affine := by simp [Matrix4.Affine, Matrix4.identity]
  have hax : ∀ (u q : Point3D ℝ) (a : ℝ), q.transformed (.rotationAxis u a) = rodrigues u q a := by
    intro u q a
    simp only [Point3D.transformed, Matrix4.rotationAxis, Real.trig_cos, Real.trig_sin, Matrix.cons_val,
      Real.scalar_lit, Rat.cast_zero, Rat.cast_one, Spec.rodrigues, Point3D.mk.injEq]
    refine ⟨?_, ?_, ?_⟩ <;> ring
  have key : ∀ (acts : List Act4) (pipe : Matrix4Pipe ℝ) (c : Config4),
      (pipe.mtranslation.Affine ∧ ∀ q : Point3D ℝ, q.transformed pipe.mtranslation = doTrans4 c.trans q) →
      (pipe.mrotation.Affine ∧ ∀ q : Point3D ℝ, q.transformed pipe.mrotation = doRot4 c.rot q) →
      (pipe.mscale.Affine ∧ ∀ q : Point3D ℝ, q.transformed pipe.mscale = doScale4 c.scale q) →
      (pipe.mcamtrans.Affine ∧ ∀ q : Point3D ℝ, q.transformed pipe.mcamtrans = doCamTrans4 c.camTrans q) →
      (pipe.mcamlook.Affine ∧ ∀ q : Point3D ℝ, q.transformed pipe.mcamlook = doLook4 c.look q) →
      (∀ q : Point3D ℝ, q.transformed pipe.mperspective = doPersp4 c.persp q) →
      p.transformed (acts.foldl Act4.run pipe).result =
        doPersp4 (acts.foldl Act4.conf c).persp (doLook4 (acts.foldl Act4.conf c).look
          (doCamTrans4 (acts.foldl Act4.conf c).camTrans (doTrans4 (acts.foldl Act4.conf c).trans
            (doRot4 (acts.foldl Act4.conf c).rot (doScale4 (acts.foldl Act4.conf c).scale p))))) := by
    intro acts
    induction acts with
    | nil =>
      intro pipe c h1 h2 h3 h4 h5 h6
      simp only [List.foldl_nil, Matrix4Pipe.result]
      rw [c39_compose_3d_partial _ _ _ h3.1, c39_compose_3d_partial _ _ _ h2.1, c39_compose_3d_partial _ _ _ h1.1,
        c39_compose_3d_partial _ _ _ h4.1, c39_compose_3d_partial _ _ _ h5.1, h3.2, h2.2, h1.2, h4.2, h5.2, h6]
    | cons a as ih =>
      intro pipe c h1 h2 h3 h4 h5 h6
      simp only [List.foldl_cons]
      have hlook : ∀ t up, Act4.run pipe (.addLookAt t up) = if t = ⟨0, 0, 0⟩ then pipe else
          { pipe with mcamlook := (Act4.run pipe (.addLookAt t up)).mcamlook } := by
        intro t up
        simp only [Act4.run, Matrix4Pipe.addLookAt, Matrix4.lookAt_real]
        split_ifs with h <;> rfl
      apply ih
      · cases a with
        | addTranslation x y z => exact ⟨(hi x y z 0 axisX).2.2.1, fun q => (c40_action_3d q x y z).1⟩
        | removeTranslation => exact ⟨hia, hid⟩
        | addLookAt t up =>
          rw [hlook]; simp only [Act4.conf]; split_ifs <;> exact h1
        | _ => exact h1
      · cases a with
        | addRotation x y z =>
          refine ⟨(hi x y z 0 axisX).2.2.2.2.1, fun q => ?_⟩
          have := (c40_rotation_3d x y z q q).1
          rw [hax, hax, hax] at this
          exact this
        | addRotationAxis u r => exact ⟨(hi 0 0 0 r u).2.2.2.2.2, fun q => hax u q r⟩
        | removeRotation => exact ⟨hia, hid⟩
        | addLookAt t up =>
          rw [hlook]; simp only [Act4.conf]; split_ifs <;> exact h2
        | _ => exact h2
      · cases a with
        | addScale x y z => exact ⟨(hi x y z 0 axisX).2.2.2.1, fun q => (c40_action_3d q x y z).2⟩
        | removeScale => exact ⟨hia, hid⟩
        | addLookAt t up =>
          rw [hlook]; simp only [Act4.conf]; split_ifs <;> exact h3
        | _ => exact h3
      · cases a with
        | addCameraTranslation x y z =>
          refine ⟨(hi (-x) (-y) (-z) 0 axisX).2.2.1, fun q => ?_⟩
          have := (c40_action_3d q (-x) (-y) (-z)).1
          simp only [← sub_eq_add_neg] at this
          exact this
        | removeCameraTranslation => exact ⟨hia, hid⟩
        | addLookAt t up =>
          rw [hlook]; simp only [Act4.conf]; split_ifs <;> exact h4
        | _ => exact h4
      · cases a with
        | addLookAt t up =>
          simp only [Act4.run, Act4.conf, Matrix4Pipe.addLookAt, Matrix4.lookAt_real]
          by_cases h : t = ⟨0, 0, 0⟩
          · simp only [if_pos h]; exact h5
          · simp only [if_neg h]
            have hl : Spec.len t ≠ 0 := fun e => h ((Spec.len_eq_zero t).1 e)
            refine ⟨by simp [Matrix4.Affine, bind], fun q => ?_⟩
            simp only [bind, Option.bind, pure, Point3D.transformed, Matrix.cons_val, doLook4, Point3D.dot, Point3D.cross,
              Point3D.mk.injEq]
            refine ⟨by ring, ?_, ?_⟩
            · field_simp; ring
            · field_simp; ring
        | removeLookAt => exact ⟨hia, hid⟩
        | _ => exact h5
      · cases a with
        | addPerspective cl a f =>
          intro q
          simp only [Act4.run, Act4.conf, Matrix4Pipe.addPerspective, doPersp4, Matrix4.perspective, Point3D.transformed,
            Matrix.cons_val, Real.trig_tan, Real.scalar_lit, Rat.cast_zero, Rat.cast_one, Rat.cast_ofNat, Point3D.mk.injEq]
          refine ⟨by ring, by ring, by ring⟩
        | removePerspective => exact hid
        | addLookAt t up =>
          rw [hlook]; simp only [Act4.conf]; split_ifs <;> exact h6
        | _ => exact h6
  exact key acts .default {} ⟨hia, hid⟩ ⟨hia, hid⟩ ⟨hia, hid⟩ ⟨hia, hid⟩ ⟨hia, hid⟩ hid

end R3D

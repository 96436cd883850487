import Verif.Props.RotFloat
import Verif.Props.Positive
/-!
# C104: rotations of space of doubles
-/
namespace R3D
open Scalar LawfulScalar Spec F64

/-! ### space -/
namespace F64

theorem pow_le_two' {k : ℕ} (hk : k ≤ 200) : (1 + uu) ^ k ≤ 2 := pow_uu_two (hk.trans (by norm_num))

/-- a product of an entry of at most 2 and one of at most 1 -/
theorem Appr.entry {a b : F64} {x y A B e : ℝ} {k l : ℕ} (ha : Appr a x A k e) (hb : Appr b y B l 0) (hA : A ≤ 2) (hB : B ≤ 1)
    (hk : k ≤ 200) (hl : l ≤ 200) (he : e ≤ 1) :
    Appr (a * b) (x * y) (A * B) (k + l + 1) (4 * e + 2 ^ (-1075 : ℤ)) := by
  have p1 := pow_le_two' hk
  have p2 := pow_le_two' hl
  have q1 := one_le_pow_uu k
  have q2 := one_le_pow_uu l
  have a0 := ha.pos
  have b0 := hb.pos
  have e0 := ha.nonneg
  have m : (1 + uu) ^ l * B ≤ 2 := by
    calc (1 + uu) ^ l * B ≤ 2 * 1 := mul_le_mul p2 hB b0 (by norm_num)
      _ = 2 := by norm_num
  refine (ha.mul hb ?_).mono le_rfl ?_
  · rw [add_zero]
    have m2 : (1 + uu) ^ k * A + e ≤ 5 := by
      have : (1 + uu) ^ k * A ≤ 2 * 2 := mul_le_mul p1 hA a0 (by norm_num)
      linarith
    have m3 : ((1 + uu) ^ k * A + e) * ((1 + uu) ^ l * B) ≤ 5 * 2 := mul_le_mul m2 m (by positivity) (by norm_num)
    exact m3.trans (le_trans (by norm_num) (zpow_le_zpow_right₀ one_le_two (show (4:ℤ) ≤ 1023 by norm_num)))
  · have := mul_le_mul_of_nonneg_left m e0
    simp only [mul_zero, zero_add, add_zero]
    linarith

theorem mul4_appr {a b : Matrix4 F64} {X Y A B : Fin 4 → Fin 4 → ℝ} {k l : ℕ} {e : ℝ}
    (ha : ∀ i j, Appr (a.data i j) (X i j) (A i j) k e) (hb : ∀ i j, Appr (b.data i j) (Y i j) (B i j) l 0)
    (hA : ∀ i j, A i j ≤ 2) (hB : ∀ i j, B i j ≤ 1) (hk : k ≤ 200) (hl : l ≤ 200) (he : e ≤ 1 / 1000) (i j : Fin 4) :
    Appr ((a.mul b).data i j) (X i 0 * Y 0 j + X i 1 * Y 1 j + X i 2 * Y 2 j + X i 3 * Y 3 j)
      (A i 0 * B 0 j + A i 1 * B 1 j + A i 2 * B 2 j + A i 3 * B 3 j) (k + l + 4) (22 * (4 * e + 2 ^ (-1075 : ℤ))) := by
  have g : ∀ m, Appr (a.data i m * b.data m j) (X i m * Y m j) (A i m * B m j) (k + l + 1) (4 * e + 2 ^ (-1075 : ℤ)) := fun m =>
    (ha i m).entry (hb m j) (hA i m) (hB m j) hk hl (he.trans (by norm_num))
  have c : ∀ m, A i m * B m j ≤ 2 := fun m => by
    calc A i m * B m j ≤ 2 * 1 := mul_le_mul (hA i m) (hB m j) (hb m j).pos (by norm_num)
      _ = 2 := by norm_num
  have e0 := (ha i 0).nonneg
  have t0 : (0:ℝ) < 2 ^ (-1075 : ℤ) := by positivity
  have t1 : (2:ℝ) ^ (-1075 : ℤ) ≤ 1 / 1024 := by
    rw [show (1:ℝ) / 1024 = 2 ^ (-10 : ℤ) by norm_num]; exact zpow_le_zpow_right₀ one_le_two (by norm_num)
  have big : ∀ {S : ℝ}, S ≤ 8 → S ≤ 2 ^ (1000 : ℤ) := fun h =>
    h.trans (le_trans (by norm_num) (zpow_le_zpow_right₀ one_le_two (show (3:ℤ) ≤ 1000 by norm_num)))
  have s1 := (g 0).add (g 1) (big_any (big (by linarith [c 0, c 1])) (by omega) (by linarith))
  have s2 := s1.add ((g 2).mono (Nat.le_succ _) le_rfl) (big_any (big (by linarith [c 0, c 1, c 2])) (by omega) (by linarith))
  have s3 := s2.add ((g 3).mono (l := k + l + 1 + 1 + 1) (by omega) le_rfl) (big_any (big (by linarith [c 0, c 1, c 2, c 3])) (by omega) (by linarith))
  exact s3.mono (by omega) (by linarith)

end F64

/-- the rotations of space about the axes -/
noncomputable def Spec.rotAxis : Fin 3 → ℝ → (Fin 3 → ℝ) → Fin 3 → ℝ
  | 0, t, v => ![v 0, v 1 * Real.cos t - v 2 * Real.sin t, v 1 * Real.sin t + v 2 * Real.cos t]
  | 1, t, v => ![v 0 * Real.cos t + v 2 * Real.sin t, v 1, -v 0 * Real.sin t + v 2 * Real.cos t]
  | 2, t, v => ![v 0 * Real.cos t - v 1 * Real.sin t, v 0 * Real.sin t + v 1 * Real.cos t, v 2]

theorem rotAxis_isometry (k : Fin 3) (t : ℝ) (v w : Fin 3 → ℝ) : Spec.sqrDist (rotAxis k t v) (rotAxis k t w) = Spec.sqrDist v w := by
  have h := Real.sin_sq_add_cos_sq t
  revert k
  rw [forall_fin3]
  refine ⟨?_, ?_, ?_⟩ <;> simp only [Spec.sqrDist, Fin.sum_univ_three, rotAxis, Matrix.cons_val_zero, Matrix.cons_val_one, Matrix.cons_val_two, Matrix.tail_cons, Matrix.head_cons]
  · linear_combination ((v 1 - w 1) ^ 2 + (v 2 - w 2) ^ 2) * h
  · linear_combination ((v 0 - w 0) ^ 2 + (v 2 - w 2) ^ 2) * h
  · linear_combination ((v 0 - w 0) ^ 2 + (v 1 - w 1) ^ 2) * h

/-- first about `z`, then about `y`, then about `x` -/
noncomputable def Spec.rot3 (x y z : ℝ) (v : Fin 3 → ℝ) : Fin 3 → ℝ := rotAxis 0 x (rotAxis 1 y (rotAxis 2 z v))

theorem rot3_isometry (x y z : ℝ) (v w : Fin 3 → ℝ) : Spec.sqrDist (rot3 x y z v) (rot3 x y z w) = Spec.sqrDist v w := by
  unfold rot3; rw [rotAxis_isometry, rotAxis_isometry, rotAxis_isometry]

/-- bounds of the entries -/
def Spec.bX : Fin 4 → Fin 4 → ℤ := ![![1, 0, 0, 0], ![0, 1, 1, 0], ![0, 1, 1, 0], ![0, 0, 0, 1]]
def Spec.bY : Fin 4 → Fin 4 → ℤ := ![![1, 0, 1, 0], ![0, 1, 0, 0], ![1, 0, 1, 0], ![0, 0, 0, 1]]
def Spec.bZ : Fin 4 → Fin 4 → ℤ := ![![1, 1, 0, 0], ![1, 1, 0, 0], ![0, 0, 1, 0], ![0, 0, 0, 1]]
def Spec.bXY : Fin 4 → Fin 4 → ℤ := ![![1, 0, 1, 0], ![1, 1, 1, 0], ![1, 1, 1, 0], ![0, 0, 0, 1]]
def Spec.bXYZ : Fin 4 → Fin 4 → ℤ := ![![1, 1, 1, 0], ![2, 2, 1, 0], ![2, 2, 1, 0], ![0, 0, 0, 1]]

section
variable [T : Trig F64]

theorem rotX_appr (hT : GoodTrig T) {x : F64} (hx : F64.Num x) (i j : Fin 4) :
    Appr ((Matrix4.rotX x).data i j) ((Matrix4.rotX (toR x)).data i j)
      ((bX i j : ℤ) : ℝ) 2 0 := by
  obtain ⟨hs, hc⟩ := hT.appr hx
  have h0 := lit0_appr 2
  have h1 := lit1_appr 2
  have r0 : (Scalar.lit 0 : ℝ) = 0 := by simp
  have r1 : (Scalar.lit 1 : ℝ) = 1 := by simp
  unfold Matrix4.rotX
  rw [r0, r1]
  have g0 : Appr (Scalar.lit 0 : F64) 0 ((0 : ℤ) : ℝ) 2 0 := by rw [Int.cast_zero]; exact h0
  have g1 : Appr (Scalar.lit 1 : F64) 1 ((1 : ℤ) : ℝ) 2 0 := by rw [Int.cast_one]; exact h1
  have gs : Appr (Trig.sin x) (Real.sin (toR x)) ((1 : ℤ) : ℝ) 2 0 := by rw [Int.cast_one]; exact hs
  have gc : Appr (Trig.cos x) (Real.cos (toR x)) ((1 : ℤ) : ℝ) 2 0 := by rw [Int.cast_one]; exact hc
  clear h0 h1 hs hc r0 r1
  fin_cases i <;> fin_cases j <;> first | exact g0 | exact g1 | exact gs | exact gc | exact gs.neg

theorem rotY_appr (hT : GoodTrig T) {x : F64} (hx : F64.Num x) (i j : Fin 4) :
    Appr ((Matrix4.rotY x).data i j) ((Matrix4.rotY (toR x)).data i j)
      ((bY i j : ℤ) : ℝ) 2 0 := by
  obtain ⟨hs, hc⟩ := hT.appr hx
  have h0 := lit0_appr 2
  have h1 := lit1_appr 2
  have r0 : (Scalar.lit 0 : ℝ) = 0 := by simp
  have r1 : (Scalar.lit 1 : ℝ) = 1 := by simp
  unfold Matrix4.rotY
  rw [r0, r1]
  have g0 : Appr (Scalar.lit 0 : F64) 0 ((0 : ℤ) : ℝ) 2 0 := by rw [Int.cast_zero]; exact h0
  have g1 : Appr (Scalar.lit 1 : F64) 1 ((1 : ℤ) : ℝ) 2 0 := by rw [Int.cast_one]; exact h1
  have gs : Appr (Trig.sin x) (Real.sin (toR x)) ((1 : ℤ) : ℝ) 2 0 := by rw [Int.cast_one]; exact hs
  have gc : Appr (Trig.cos x) (Real.cos (toR x)) ((1 : ℤ) : ℝ) 2 0 := by rw [Int.cast_one]; exact hc
  clear h0 h1 hs hc r0 r1
  fin_cases i <;> fin_cases j <;> first | exact g0 | exact g1 | exact gs | exact gc | exact gs.neg

theorem rotZ_appr (hT : GoodTrig T) {x : F64} (hx : F64.Num x) (i j : Fin 4) :
    Appr ((Matrix4.rotZ x).data i j) ((Matrix4.rotZ (toR x)).data i j)
      ((bZ i j : ℤ) : ℝ) 2 0 := by
  obtain ⟨hs, hc⟩ := hT.appr hx
  have h0 := lit0_appr 2
  have h1 := lit1_appr 2
  have r0 : (Scalar.lit 0 : ℝ) = 0 := by simp
  have r1 : (Scalar.lit 1 : ℝ) = 1 := by simp
  unfold Matrix4.rotZ
  rw [r0, r1]
  have g0 : Appr (Scalar.lit 0 : F64) 0 ((0 : ℤ) : ℝ) 2 0 := by rw [Int.cast_zero]; exact h0
  have g1 : Appr (Scalar.lit 1 : F64) 1 ((1 : ℤ) : ℝ) 2 0 := by rw [Int.cast_one]; exact h1
  have gs : Appr (Trig.sin x) (Real.sin (toR x)) ((1 : ℤ) : ℝ) 2 0 := by rw [Int.cast_one]; exact hs
  have gc : Appr (Trig.cos x) (Real.cos (toR x)) ((1 : ℤ) : ℝ) 2 0 := by rw [Int.cast_one]; exact hc
  clear h0 h1 hs hc r0 r1
  fin_cases i <;> fin_cases j <;> first | exact g0 | exact g1 | exact gs | exact gc | exact gs.neg

/-- the matrix of a rotation of space as computed -/
theorem rotation_appr (hT : GoodTrig T) {x y z : F64} (hx : F64.Num x) (hy : F64.Num y) (hz : F64.Num z) (i j : Fin 4) :
    Appr ((Matrix4.rotation x y z).data i j) ((Matrix4.rotation (toR x) (toR y) (toR z)).data i j)
      ((bXYZ i j : ℤ) : ℝ) 14 (2 ^ (-1063 : ℤ)) := by
  have t0 : (0:ℝ) < 2 ^ (-1075 : ℤ) := by positivity
  have t1 : (2:ℝ) ^ (-1075 : ℤ) ≤ 1 / 2 ^ 20 := by
    rw [show (1:ℝ) / 2 ^ 20 = 2 ^ (-20 : ℤ) by norm_num]; exact zpow_le_zpow_right₀ one_le_two (by norm_num)
  have e63 : (2:ℝ) ^ (-1063 : ℤ) = 4096 * 2 ^ (-1075 : ℤ) := by
    rw [show (-1063 : ℤ) = 12 + -1075 by norm_num, zpow_add₀ two_ne_zero]; norm_num
  have xy : ∀ i j, Appr (((Matrix4.rotX x).mul (Matrix4.rotY y)).data i j) (((Matrix4.rotX (toR x)).mul (Matrix4.rotY (toR y))).data i j)
      ((bXY i j : ℤ) : ℝ) 8 (22 * 2 ^ (-1075 : ℤ)) := by
    intro i j
    have := F64.mul4_appr (A := fun i j => ((bX i j : ℤ) : ℝ)) (B := fun i j => ((bY i j : ℤ) : ℝ)) (rotX_appr hT hx) (rotY_appr hT hy)
      (fun i j => by exact_mod_cast (by decide : ∀ i j, bX i j ≤ 2) i j) (fun i j => by exact_mod_cast (by decide : ∀ i j, bY i j ≤ 1) i j)
      (by norm_num) (by norm_num) (by norm_num) i j
    have e := (by decide : ∀ i j, bX i 0 * bY 0 j + bX i 1 * bY 1 j + bX i 2 * bY 2 j + bX i 3 * bY 3 j = bXY i j) i j
    have e' : (((bX i 0 * bY 0 j + bX i 1 * bY 1 j + bX i 2 * bY 2 j + bX i 3 * bY 3 j : ℤ)) : ℝ) = ((bXY i j : ℤ) : ℝ) := by rw [e]
    push_cast at e'
    rw [e'] at this
    exact this.mono le_rfl (by linarith)
  have := F64.mul4_appr (A := fun i j => ((bXY i j : ℤ) : ℝ)) (B := fun i j => ((bZ i j : ℤ) : ℝ)) xy (rotZ_appr hT hz)
      (fun i j => by exact_mod_cast (by decide : ∀ i j, bXY i j ≤ 2) i j) (fun i j => by exact_mod_cast (by decide : ∀ i j, bZ i j ≤ 1) i j)
      (by norm_num) (by norm_num) (by linarith) i j
  have e := (by decide : ∀ i j, bXY i 0 * bZ 0 j + bXY i 1 * bZ 1 j + bXY i 2 * bZ 2 j + bXY i 3 * bZ 3 j = bXYZ i j) i j
  have e' : (((bXY i 0 * bZ 0 j + bXY i 1 * bZ 1 j + bXY i 2 * bZ 2 j + bXY i 3 * bZ 3 j : ℤ)) : ℝ) = ((bXYZ i j : ℤ) : ℝ) := by rw [e]
  push_cast at e'
  rw [e'] at this
  refine this.mono le_rfl ?_
  rw [e63]; clear this xy; generalize (2:ℝ) ^ (-1075 : ℤ) = η at *; linarith

/-- C104: the matrix of a rotation of space, entry by entry -/
theorem c104_matrix (hT : GoodTrig T) {x y z : F64} (hx : F64.Num x) (hy : F64.Num y) (hz : F64.Num z) (i j : Fin 4) :
    F64.Num ((Matrix4.rotation x y z).data i j) ∧
    |toR ((Matrix4.rotation x y z).data i j) - (Matrix4.rotation (toR x) (toR y) (toR z)).data i j| ≤ 2 ^ (-47 : ℤ) := by
  have h := rotation_appr hT hx hy hz i j
  refine ⟨h.num, (err_of h (n := 28) (by norm_num) (by push_cast; linarith [uu_pos])).trans ?_⟩
  have e47 : (2:ℝ) ^ (-47 : ℤ) = 64 * uu := by unfold uu; rw [u_small]; norm_num
  have hb : ((bXYZ i j : ℤ) : ℝ) ≤ 2 := by exact_mod_cast (by decide : ∀ i j, bXYZ i j ≤ 2) i j
  have t : (2:ℝ) ^ (-1063 : ℤ) ≤ uu := by unfold uu; exact zpow_le_zpow_right₀ one_le_two (by norm_num)
  rw [e47]
  have := mul_le_mul_of_nonneg_left hb (show (0:ℝ) ≤ 28 * uu by linarith [uu_pos])
  push_cast
  linarith [uu_pos]

omit T in
/-- the exact matrix is the exact rotation -/
theorem rotation_rot3 (x y z : ℝ) (p : Fin 3 → ℝ) (d : Fin 3) : rot3 x y z p d =
    p 0 * (Matrix4.rotation x y z).data d.castSucc 0 + p 1 * (Matrix4.rotation x y z).data d.castSucc 1 +
      p 2 * (Matrix4.rotation x y z).data d.castSucc 2 + (Matrix4.rotation x y z).data d.castSucc 3 := by
  have l0 : (Scalar.lit 0 : ℝ) = 0 := by simp
  have l1 : (Scalar.lit 1 : ℝ) = 1 := by simp
  revert d
  rw [forall_fin3]
  refine ⟨?_, ?_, ?_⟩ <;>
    simp [rot3, rotAxis, Matrix4.rotation, Matrix4.mul, Matrix4.rotX, Matrix4.rotY, Matrix4.rotZ, Trig.sin, Trig.cos, Fin.castSucc, Fin.castAdd, Fin.castLE, l0, l1] <;> ring

omit T in
theorem big990 {x : ℝ} (h : x ≤ 2 ^ (990 : ℤ)) : 8 * x ≤ 2 ^ (1000 : ℤ) := by
  have := pow990 h
  have h2 := pow990 (le_refl ((2:ℝ) ^ (990 : ℤ)))
  have : (0:ℝ) < 2 ^ (1000 : ℤ) := by positivity
  clear h2
  generalize (2:ℝ) ^ (1000 : ℤ) = U at *
  linarith

/-- C104: rotating a point of space of doubles by a matrix -/
theorem c104_rotation_3d (hT : GoodTrig T) (p : Point3D F64) {x y z : F64} (hp : p.Num) (hx : F64.Num x) (hy : F64.Num y) (hz : F64.Num z)
    (hb : |toR p.x| + |toR p.y| + |toR p.z| ≤ 2 ^ (980 : ℤ)) (d : Fin 3) :
    F64.Num (at3 (p.transformed (.rotation x y z)) d) ∧
    |toR (at3 (p.transformed (.rotation x y z)) d) - rot3 (toR x) (toR y) (toR z) (at3 p.real) d| ≤
      2 ^ (-46 : ℤ) * (|toR p.x| + |toR p.y| + |toR p.z|) + 2 ^ (-1058 : ℤ) := by
  have R := fun j => rotation_appr hT hx hy hz d.castSucc j
  have B : ∀ j, ((bXYZ d.castSucc j : ℤ) : ℝ) ≤ 2 := fun j => by exact_mod_cast (by decide : ∀ i j, bXYZ i j ≤ 2) _ j
  have B3 : ((bXYZ d.castSucc 3 : ℤ) : ℝ) = 0 := by exact_mod_cast (by decide : ∀ d : Fin 3, bXYZ d.castSucc 3 = 0) d
  have n1 := abs_nonneg (toR p.x); have n2 := abs_nonneg (toR p.y); have n3 := abs_nonneg (toR p.z)
  have h990 : (2:ℝ) ^ (980 : ℤ) ≤ 2 ^ (990 : ℤ) := zpow_le_zpow_right₀ one_le_two (by norm_num)
  have hb' := hb.trans h990
  have up := big990 hb'
  have t1 : (2:ℝ) ^ (-1063 : ℤ) ≤ 1 := zpow_le_one_of_nonpos₀ one_le_two (by norm_num)
  have t63 : (0:ℝ) < 2 ^ (-1063 : ℤ) := by positivity
  have e75 : (2:ℝ) ^ (-1063 : ℤ) = 4096 * 2 ^ (-1075 : ℤ) := by
    rw [show (-1063 : ℤ) = 12 + -1075 by norm_num, zpow_add₀ two_ne_zero]; norm_num
  have l1 : |toR p.x| ≤ 2 ^ (990 : ℤ) := le_trans (by linarith) hb'
  have l2 : |toR p.y| ≤ 2 ^ (990 : ℤ) := le_trans (by linarith) hb'
  have l3 : |toR p.z| ≤ 2 ^ (990 : ℤ) := le_trans (by linarith) hb'
  have m1 := Appr.scale hp.1 (R 0) (B 0) (by norm_num) t1 l1
  have m2 := Appr.scale hp.2.1 (R 1) (B 1) (by norm_num) t1 l2
  have m3 := Appr.scale hp.2.2 (R 2) (B 2) (by norm_num) t1 l3
  have c1 := mul_le_mul_of_nonneg_left (B 0) n1
  have c2 := mul_le_mul_of_nonneg_left (B 1) n2
  have c3 := mul_le_mul_of_nonneg_left (B 2) n3
  have sw : (|toR p.x| + |toR p.y| + |toR p.z|) * 2 ^ (-1063 : ℤ) ≤ 1 := by
    refine (mul_le_mul_of_nonneg_right hb t63.le).trans ?_
    rw [← zpow_add₀ two_ne_zero]
    exact zpow_le_one_of_nonpos₀ one_le_two (by norm_num)
  have m4 := (R 3).mono (l := 14 + 1 + 1 + 1) (by norm_num) le_rfl
  rw [B3] at m4
  have k1 := mul_nonneg n1 t63.le
  have k2 := mul_nonneg n2 t63.le
  have k3 := mul_nonneg n3 t63.le
  have s1 := m1.add m2 (big_any (by
    clear m1 m2 m3 m4 hb hb' h990 l1 l2 l3 t1 t63 e75 sw k1 k2 k3; generalize (2:ℝ) ^ (1000 : ℤ) = U at *; linarith) (by norm_num) (by
    clear m1 m2 m3 m4 hb hb' h990 l1 l2 l3 up; generalize (2:ℝ) ^ (-1063 : ℤ) = w at *; generalize (2:ℝ) ^ (-1075 : ℤ) = η at *; linarith))
  have s2 := s1.add (m3.mono (l := 14 + 1 + 1) (by norm_num) le_rfl) (big_any (by
    clear m1 m2 m3 m4 hb hb' h990 l1 l2 l3 t1 t63 e75 sw s1 k1 k2 k3; generalize (2:ℝ) ^ (1000 : ℤ) = U at *; linarith) (by norm_num) (by
    clear m1 m2 m3 m4 hb hb' h990 l1 l2 l3 up s1; generalize (2:ℝ) ^ (-1063 : ℤ) = w at *; generalize (2:ℝ) ^ (-1075 : ℤ) = η at *; linarith))
  have s3 := s2.add m4 (big_any (by
    clear m1 m2 m3 m4 hb hb' h990 l1 l2 l3 t1 t63 e75 sw s1 s2 k1 k2 k3; generalize (2:ℝ) ^ (1000 : ℤ) = U at *; linarith) (by norm_num) (by
    clear m1 m2 m3 m4 hb hb' h990 l1 l2 l3 up s1 s2; generalize (2:ℝ) ^ (-1063 : ℤ) = w at *; generalize (2:ℝ) ^ (-1075 : ℤ) = η at *; linarith))
  have ec : at3 (p.transformed (.rotation x y z)) d = p.x * (Matrix4.rotation x y z).data d.castSucc 0 +
      p.y * (Matrix4.rotation x y z).data d.castSucc 1 + p.z * (Matrix4.rotation x y z).data d.castSucc 2 +
      (Matrix4.rotation x y z).data d.castSucc 3 := by
    clear R B B3 m1 m2 m3 m4 c1 c2 c3 s1 s2 s3
    revert d; rw [forall_fin3]; exact ⟨rfl, rfl, rfl⟩
  rw [ec]
  refine ⟨s3.num, ?_⟩
  have er := err_of s3 (n := 36) (by norm_num) (by push_cast; linarith [uu_pos])
  rw [rotation_rot3]
  refine er.trans ?_
  have e46 : (2:ℝ) ^ (-46 : ℤ) = 128 * uu := by unfold uu; rw [u_small]; norm_num
  have e58 : (2:ℝ) ^ (-1058 : ℤ) = 32 * 2 ^ (-1063 : ℤ) := by
    rw [show (-1058 : ℤ) = 5 + -1063 by norm_num, zpow_add₀ two_ne_zero]; norm_num
  have wu : (2:ℝ) ^ (-1063 : ℤ) ≤ uu := by unfold uu; exact zpow_le_zpow_right₀ one_le_two (by norm_num)
  rw [e46, e58]
  clear er s1 s2 s3 m1 m2 m3 m4 ec R B hb hb' h990 up l1 l2 l3 e46 e58 sw
  generalize |toR p.x| * ((bXYZ d.castSucc 0 : ℤ) : ℝ) = A1 at *
  generalize |toR p.y| * ((bXYZ d.castSucc 1 : ℤ) : ℝ) = A2 at *
  generalize |toR p.z| * ((bXYZ d.castSucc 2 : ℤ) : ℝ) = A3 at *
  have v1 := mul_le_mul_of_nonneg_left wu n1
  have v2 := mul_le_mul_of_nonneg_left wu n2
  have v3 := mul_le_mul_of_nonneg_left wu n3
  have u1 := mul_le_mul_of_nonneg_left c1 uu_pos.le
  have u2 := mul_le_mul_of_nonneg_left c2 uu_pos.le
  have u3 := mul_le_mul_of_nonneg_left c3 uu_pos.le
  generalize (2:ℝ) ^ (-1063 : ℤ) = w at *
  generalize (2:ℝ) ^ (-1075 : ℤ) = η at *
  push_cast
  have q1 := mul_nonneg uu_pos.le n1
  have q2 := mul_nonneg uu_pos.le n2
  have q3 := mul_nonneg uu_pos.le n3
  have x1 : 16 * (|toR p.x| * w + |toR p.y| * w + |toR p.z| * w) ≤ 16 * (|toR p.x| * uu + |toR p.y| * uu + |toR p.z| * uu) := by linarith
  nlinarith only [x1, u1, u2, u3, q1, q2, q3, k1, k2, k3, e75, t63]

/-- C104: the computed distance of two points of space rotated by a matrix -/
theorem c104_distance_3d (hT : GoodTrig T) (p q : Point3D F64) {x y z : F64} (hp : p.Num) (hq : q.Num) (hx : F64.Num x) (hy : F64.Num y)
    (hz : F64.Num z) (hb : |toR p.x| + |toR p.y| + |toR p.z| + (|toR q.x| + |toR q.y| + |toR q.z|) ≤ 2 ^ (500 : ℤ)) :
    ∃ D, (p.transformed (.rotation x y z)).dist (q.transformed (.rotation x y z)) = .fin false D ∧
      |(D : ℝ) - √(Spec.sqrDist (at3 p.real) (at3 q.real))| ≤
        2 ^ (-43 : ℤ) * (|toR p.x| + |toR p.y| + |toR p.z| + (|toR q.x| + |toR q.y| + |toR q.z|)) + 2 ^ (-535 : ℤ) := by
  have n1 := abs_nonneg (toR p.x); have n2 := abs_nonneg (toR p.y); have n3 := abs_nonneg (toR p.z)
  have n4 := abs_nonneg (toR q.x); have n5 := abs_nonneg (toR q.y); have n6 := abs_nonneg (toR q.z)
  have h980 : (2:ℝ) ^ (500 : ℤ) ≤ 2 ^ (980 : ℤ) := zpow_le_zpow_right₀ one_le_two (by norm_num)
  have rp := c104_rotation_3d hT p hp hx hy hz (le_trans (by linarith) (hb.trans h980))
  have rq := c104_rotation_3d hT q hq hx hy hz (le_trans (by linarith) (hb.trans h980))
  have hS : √(Spec.sqrDist (at3 p.real) (at3 q.real)) ≤ |toR p.x| + |toR p.y| + |toR p.z| + (|toR q.x| + |toR q.y| + |toR q.z|) := by
    have := sqrDist_zero_le (at3 p.real) (at3 q.real)
    simp only [Fin.sum_univ_three] at this
    exact this
  have e := rot3_isometry (toR x) (toR y) (toR z) (at3 p.real) (at3 q.real)
  rw [← e]
  rw [← e] at hS
  clear h980
  generalize hSS : |toR p.x| + |toR p.y| + |toR p.z| + (|toR q.x| + |toR q.y| + |toR q.z|) = S at hb hS ⊢
  have t58 := tiny_536
  have t1 : (2:ℝ) ^ (-536 : ℤ) ≤ 1 := zpow_le_one_of_nonpos₀ one_le_two (by norm_num)
  have k46 : (2:ℝ) ^ (-46 : ℤ) = 1 / 2 ^ 46 := by norm_num
  have k43 : (2:ℝ) ^ (-43 : ℤ) = 1 / 2 ^ 43 := by norm_num
  have k50 : (2:ℝ) ^ (-50 : ℤ) = 1 / 2 ^ 50 := by norm_num
  have p58 : (0:ℝ) < 2 ^ (-1058 : ℤ) := by positivity
  have up := up_511 hb (t := 6 * (2:ℝ) ^ (-1058 : ℤ)) (by linarith)
  obtain ⟨D, hD, he⟩ := dist_near_3d ⟨(rp 0).1, (rp 1).1, (rp 2).1⟩ ⟨(rq 0).1, (rq 1).1, (rq 2).1⟩ (fun d => (rp d).2) (fun d => (rq d).2)
    hS (by
      refine le_trans ?_ up
      rw [k46]; clear up; generalize (2:ℝ) ^ (-1058 : ℤ) = η at *; linarith)
  refine ⟨D, hD, he.trans ?_⟩
  rw [k46, k50, k43, two535]
  clear up
  generalize (2:ℝ) ^ (-1058 : ℤ) = η' at *
  generalize (2:ℝ) ^ (-536 : ℤ) = θ at *
  linarith

omit T in
theorem axis_entry {a b c w s : F64} {C S : ℝ} (ha : F64.Num a) (hb : F64.Num b) (hw : F64.Num w) (hc : Appr c C 1 2 0) (hs : Appr s S 1 2 0)
    (h1 : |toR a| ≤ 2) (h2 : |toR b| ≤ 2) (h3 : |toR w| ≤ 2) :
    Appr (a * b * (Scalar.lit 1 - c)) (toR a * toR b * (1 - C)) 8 5 (33 * 2 ^ (-1075 : ℤ)) ∧ Appr (w * s) (toR w * S) 2 3 (2 ^ (-1075 : ℤ)) := by
  have η0 : (0:ℝ) < 2 ^ (-1075 : ℤ) := by positivity
  have η1 : (2:ℝ) ^ (-1075 : ℤ) ≤ 1 / 1024 := by
    rw [show (1:ℝ) / 1024 = 2 ^ (-10 : ℤ) by norm_num]; exact zpow_le_zpow_right₀ one_le_two (by norm_num)
  have big : (200:ℝ) ≤ 2 ^ (1023 : ℤ) := le_trans (by norm_num) (zpow_le_zpow_right₀ one_le_two (show (8:ℤ) ≤ 1023 by norm_num))
  have p1 := pow_uu_two (k := 1) (by norm_num)
  have p2 := pow_uu_two (k := 2) (by norm_num)
  have p3 := pow_uu_two (k := 3) (by norm_num)
  have o1 := one_le_pow_uu 1
  have o2 := one_le_pow_uu 2
  have o3 := one_le_pow_uu 3
  have m := (Appr.exact ha h1).mul (Appr.exact hb h2) (by
    simp only [pow_zero, one_mul, add_zero]; refine le_trans ?_ big; norm_num)
  simp only [mul_zero, zero_mul, add_zero, zero_add] at m
  have q := (lit1_appr 2).sub hc (by simp only [add_zero]; refine le_trans ?_ big; linarith)
  simp only [mul_zero, add_zero] at q
  have r := m.mul q (by
    simp only [add_zero]
    refine le_trans (mul_le_mul (b := 9) (d := 4) ?_ ?_ (by positivity) (by norm_num)) (le_trans (by norm_num) big)
    · clear big m q; generalize (2:ℝ) ^ (-1075 : ℤ) = η at *; linarith
    · norm_num at p3 ⊢; linarith)
  have t := (Appr.exact hw h3).mul hs (by
    simp only [pow_zero, one_mul, add_zero, mul_one]
    refine le_trans (mul_le_mul (b := 2) (d := 2) le_rfl p2 (by positivity) (by norm_num)) (le_trans (by norm_num) big))
  simp only [mul_zero, zero_mul, add_zero, zero_add, mul_one] at t
  refine ⟨?_, t⟩
  have := r.mono (l := 5) (f := 33 * 2 ^ (-1075 : ℤ)) (by norm_num) (by
    simp only [mul_zero, add_zero, zero_add]
    have : (1 + uu) ^ (2 + 1) ≤ 2 := p3
    have := mul_le_mul_of_nonneg_left this η0.le
    clear big m q r t η1; generalize (2:ℝ) ^ (-1075 : ℤ) = η at *; linarith)
  norm_num at this ⊢
  exact this

/-- C104: the matrix of a rotation about an axis, entry by entry -/
theorem c104_axis (hT : GoodTrig T) {u : Point3D F64} {r : F64} (hu : u.Num) (hr : F64.Num r) (hb : ∀ d, |toR (at3 u d)| ≤ 2) (i j : Fin 4) :
    F64.Num ((Matrix4.rotationAxis u r).data i j) ∧
    |toR ((Matrix4.rotationAxis u r).data i j) - (Matrix4.rotationAxis u.real (toR r)).data i j| ≤ 2 ^ (-45 : ℤ) := by
  obtain ⟨hs, hc⟩ := hT.appr hr
  rw [forall_fin3] at hb
  simp only [at3_zero, at3_one, at3_two] at hb
  obtain ⟨bx, bz, by'⟩ := hb
  have big : (200:ℝ) ≤ 2 ^ (1023 : ℤ) := le_trans (by norm_num) (zpow_le_zpow_right₀ one_le_two (show (8:ℤ) ≤ 1023 by norm_num))
  have η0 : (0:ℝ) < 2 ^ (-1075 : ℤ) := by positivity
  have η1 : (2:ℝ) ^ (-1075 : ℤ) ≤ uu / 1024 := by
    have : uu / 1024 = 2 ^ (-63 : ℤ) := by unfold uu; rw [u_small]; norm_num
    rw [this]; exact zpow_le_zpow_right₀ one_le_two (by norm_num)
  have hu1 := uu_le
  have p5 := pow_uu_two (k := 5) (by norm_num)
  have o5 := one_le_pow_uu 5
  have fin : ∀ {a : F64} {x : ℝ}, Appr a x 10 6 (100 * 2 ^ (-1075 : ℤ)) → F64.Num a ∧ |toR a - x| ≤ 2 ^ (-45 : ℤ) := by
    intro a x h
    refine ⟨h.num, (err_of h (n := 12) (by norm_num) (by push_cast; linarith [uu_pos])).trans ?_⟩
    have e45 : (2:ℝ) ^ (-45 : ℤ) = 256 * uu := by unfold uu; rw [u_small]; norm_num
    rw [e45]; push_cast
    have := uu_pos
    clear big e45; generalize (2:ℝ) ^ (-1075 : ℤ) = η at *; linarith
  have add : ∀ {a b : F64} {x y : ℝ}, Appr a x 8 5 (33 * 2 ^ (-1075 : ℤ)) → Appr b y 2 3 (2 ^ (-1075 : ℤ)) →
      Appr (a + b) (x + y) 10 6 (100 * 2 ^ (-1075 : ℤ)) ∧ Appr (a - b) (x - y) 10 6 (100 * 2 ^ (-1075 : ℤ)) := by
    intro a b x y h1 h2
    have g : (1 + uu) ^ 5 * (8 + 2) + (33 * 2 ^ (-1075 : ℤ) + 2 ^ (-1075 : ℤ)) ≤ (2:ℝ) ^ (1023 : ℤ) := by
      refine le_trans ?_ big
      clear big h1 h2; generalize (2:ℝ) ^ (-1075 : ℤ) = η at *; linarith
    have e10 : (8:ℝ) + 2 = 10 := by norm_num
    have s := h1.add (h2.mono (l := 5) (by norm_num) le_rfl) g
    have t := h1.sub (h2.mono (l := 5) (by norm_num) le_rfl) g
    rw [e10] at s t
    constructor
    · refine s.mono (by norm_num) ?_; clear big g s t h1 h2; generalize (2:ℝ) ^ (-1075 : ℤ) = η at *; linarith
    · refine t.mono (by norm_num) ?_; clear big g s t h1 h2; generalize (2:ℝ) ^ (-1075 : ℤ) = η at *; linarith
  have dia : ∀ {a b : F64} {x y : ℝ}, Appr a x 8 5 (33 * 2 ^ (-1075 : ℤ)) → Appr b y 1 2 0 → Appr (b + a) (y + x) 10 6 (100 * 2 ^ (-1075 : ℤ)) := by
    intro a b x y h1 h2
    have h3 : Appr b y 2 3 (2 ^ (-1075 : ℤ)) := by
      refine ⟨h2.num, h2.le.trans (by norm_num), η0.le, h2.err.trans ?_⟩
      have := pow_uu_mono (show 2 ≤ 3 by norm_num)
      have := one_le_pow_uu 3
      clear big; generalize (2:ℝ) ^ (-1075 : ℤ) = η at *; nlinarith
    have := (add h1 h3).1
    rw [add_comm x y] at this
    have e : a + b = b + a := F64.add_comm' a b
    rwa [e] at this
  have z : F64.Num (Scalar.lit 0 : F64) ∧ |toR (Scalar.lit 0 : F64) - (Scalar.lit 0 : ℝ)| ≤ 2 ^ (-45 : ℤ) := by
    have h := lit_nat (k := 0) (by norm_num)
    simp only [Nat.cast_zero] at h
    refine ⟨h.1, ?_⟩; rw [h.2]; simp
  have one : F64.Num (Scalar.lit 1 : F64) ∧ |toR (Scalar.lit 1 : F64) - (Scalar.lit 1 : ℝ)| ≤ 2 ^ (-45 : ℤ) := by
    have h := lit_nat (k := 1) (by norm_num)
    simp only [Nat.cast_one] at h
    refine ⟨h.1, ?_⟩; rw [h.2]; simp
  have E := fun {a b w : F64} (ha : F64.Num a) (hb : F64.Num b) (hw : F64.Num w) h1 h2 h3 => axis_entry (a := a) (b := b) (w := w) ha hb hw hc hs h1 h2 h3
  have r1 : (Scalar.lit 1 : ℝ) = 1 := by simp
  clear big η0 η1 hu1 p5 o5
  have dg := fun {a : F64} (ha : F64.Num a) h1 => fin (dia (E ha ha ha h1 h1 h1).1 hc)
  have pl := fun {a b w : F64} (ha : F64.Num a) (hb : F64.Num b) (hw : F64.Num w) h1 h2 h3 => fin (add (E ha hb hw h1 h2 h3).1 (E ha hb hw h1 h2 h3).2).1
  have mi := fun {a b w : F64} (ha : F64.Num a) (hb : F64.Num b) (hw : F64.Num w) h1 h2 h3 => fin (add (E ha hb hw h1 h2 h3).1 (E ha hb hw h1 h2 h3).2).2
  obtain ⟨nx, ny, nz⟩ := hu
  unfold Matrix4.rotationAxis
  rw [r1]
  fin_cases i <;> fin_cases j
  · exact dg nx bx
  · exact mi nx ny nz bx bz by'
  · exact pl nx nz ny bx by' bz
  · exact z
  · exact pl ny nx nz bz bx by'
  · exact dg ny bz
  · exact mi ny nz nx bz by' bx
  · exact z
  · exact mi nz nx ny by' bx bz
  · exact pl nz ny nx by' bz bx
  · exact dg nz by'
  · exact z
  · exact z
  · exact z
  · exact z
  · rw [← r1]; exact one

end

/-- the hypotheses of `c104_rotation_3d`, `c104_distance_3d` and `c104_axis` are met -/
example : ∃ (T : Trig F64) (p : Point3D F64), GoodTrig T ∧ p.Num ∧ toR p.x = 3 ∧ (∀ d, |toR (at3 p d)| ≤ 2 ^ (500 : ℤ)) := by
  obtain ⟨n3, e3⟩ := ex_num 3 false 3 (by decide +kernel)
  have v3 : toR (f 3) = 3 := by rw [e3]; norm_num [val]
  refine ⟨F64.trig, ⟨f 3, f 3, f 3⟩, F64.trig_good, ⟨n3, n3, n3⟩, v3, ?_⟩
  have b : |toR (f 3)| ≤ 2 ^ (500 : ℤ) := by
    rw [v3]; refine le_trans ?_ (zpow_le_zpow_right₀ one_le_two (show (2:ℤ) ≤ 500 by norm_num)); norm_num
  rw [forall_fin3]
  exact ⟨b, b, b⟩

end R3D

import Verif.Lemmas.F64Appr
import Verif.Props.Matrix
import Verif.Props.BoxFloat
import Verif.Props.DistFloat
/-!
# C98: matrices with doubles
-/
namespace R3D
open Scalar LawfulScalar Spec F64

/-- the computed `c` is `x` up to the relative error `2^-50` of `A` -/
def Spec.Within50 (c : F64) (x A : ℝ) : Prop := F64.Num c ∧ |toR c - x| ≤ 2 ^ (-50 : ℤ) * A + 2 ^ (-1069 : ℤ)

namespace F64

theorem eta_1069 : (2:ℝ) ^ (-1069 : ℤ) = 32 * 2 ^ (-1074 : ℤ) := by
  rw [show (-1069 : ℤ) = 5 + -1074 by norm_num, zpow_add₀ two_ne_zero]; norm_num

theorem big_1000 {S : ℝ} (h : S ≤ 2 ^ (1000 : ℤ)) (k : ℕ) (hk : k ≤ 8) {e : ℝ} (he : e ≤ 100) :
    (1 + uu) ^ k * S + e ≤ 2 ^ (1023 : ℤ) := by
  have h1 : (1 + uu) ^ k ≤ 2 := by
    refine (pow_uu_mono hk).trans ?_
    have : (1 + uu) ^ 8 ≤ 1 + 2 * (8:ℕ) * uu := pow_uu_le (by unfold uu; rw [u_small]; norm_num)
    refine this.trans ?_
    unfold uu; rw [u_small]; norm_num
  have h2 : (2:ℝ) ^ (1023 : ℤ) = 2 ^ (23 : ℤ) * 2 ^ (1000 : ℤ) := by rw [← zpow_add₀ two_ne_zero]; norm_num
  have h3 : (1:ℝ) ≤ 2 ^ (1000 : ℤ) := one_le_zpow₀ one_le_two (by norm_num)
  have h4 : (1 + uu) ^ k * S ≤ (1 + uu) ^ k * 2 ^ (1000 : ℤ) := mul_le_mul_of_nonneg_left h (by linarith [one_le_pow_uu k])
  have h5 : (1 + uu) ^ k * 2 ^ (1000 : ℤ) ≤ 2 * 2 ^ (1000 : ℤ) := mul_le_mul_of_nonneg_right h1 (zero_le_one.trans h3)
  have h6 : (2:ℝ) ^ (23 : ℤ) = 8388608 := by norm_num
  rw [h2, h6]
  generalize (2:ℝ) ^ (1000 : ℤ) = T at *
  linarith only [h3, h4, h5, he]

theorem eta_le_one : (2:ℝ) ^ (-1074 : ℤ) ≤ 1 := zpow_le_one_of_nonpos₀ one_le_two (by norm_num)

/-- a product of two numbers -/
theorem Appr.mul_num {a b : F64} (ha : Num a) (hb : Num b) (h : |toR a| * |toR b| ≤ 2 ^ (1000 : ℤ)) :
    Appr (a * b) (toR a * toR b) (|toR a| * |toR b|) 1 (2 ^ (-1074 : ℤ)) := by
  have h1 := big_1000 h 0 (by norm_num) (e := 0) (by norm_num)
  refine ((Appr.exact ha le_rfl).mul (Appr.exact hb le_rfl) (by simpa using h1)).mono le_rfl ?_
  rw [eta_half]
  simp only [mul_zero, zero_mul, add_zero, zero_add]
  linarith [eta_pos]

theorem Appr.within {c : F64} {x A e : ℝ} {k : ℕ} (h : Appr c x A k e) (hk : k ≤ 4) (he : e ≤ 32 * 2 ^ (-1074 : ℤ)) :
    Within50 c x A := by
  refine ⟨h.num, h.err.trans (add_le_add (mul_le_mul_of_nonneg_right ?_ h.pos) (by rw [eta_1069]; exact he))⟩
  have h1 : (1 + uu) ^ 4 ≤ 1 + 2 * (4:ℕ) * uu := pow_uu_le (by unfold uu; rw [u_small]; norm_num)
  have h2 := pow_uu_mono hk
  have h3 : (2:ℝ) ^ (-50 : ℤ) = 8 * uu := by unfold uu; rw [u_small]; norm_num
  rw [h3]
  push_cast at h1
  linarith

/-- a product of a row and a point -/
theorem dot2 {p0 p1 m0 m1 m2 : F64} (hp0 : Num p0) (hp1 : Num p1) (h0 : Num m0) (h1 : Num m1) (h2 : Num m2)
    (h : |toR p0| * |toR m0| + |toR p1| * |toR m1| + |toR m2| ≤ 2 ^ (1000 : ℤ)) :
    Within50 (p0 * m0 + p1 * m1 + m2) (toR p0 * toR m0 + toR p1 * toR m1 + toR m2)
      (|toR p0| * |toR m0| + |toR p1| * |toR m1| + |toR m2|) := by
  have n0 := mul_nonneg (abs_nonneg (toR p0)) (abs_nonneg (toR m0))
  have n1 := mul_nonneg (abs_nonneg (toR p1)) (abs_nonneg (toR m1))
  have n2 := abs_nonneg (toR m2)
  have e0 := eta_pos
  have e1 := eta_le_one
  have a0 := Appr.mul_num hp0 h0 (by linarith)
  have a1 := Appr.mul_num hp1 h1 (by linarith)
  have a2 := (Appr.exact h2 le_rfl).mono (l := 2) (Nat.zero_le _) le_rfl
  have b := a0.add a1 (big_1000 (by linarith) 1 (by norm_num) (by linarith))
  have c := b.add a2 (big_1000 (by linarith) 2 (by norm_num) (by linarith))
  exact c.within (by norm_num) (by linarith)

theorem dot3 {p0 p1 p2 m0 m1 m2 m3 : F64} (hp0 : Num p0) (hp1 : Num p1) (hp2 : Num p2) (h0 : Num m0) (h1 : Num m1)
    (h2 : Num m2) (h3 : Num m3)
    (h : |toR p0| * |toR m0| + |toR p1| * |toR m1| + |toR p2| * |toR m2| + |toR m3| ≤ 2 ^ (1000 : ℤ)) :
    Within50 (p0 * m0 + p1 * m1 + p2 * m2 + m3) (toR p0 * toR m0 + toR p1 * toR m1 + toR p2 * toR m2 + toR m3)
      (|toR p0| * |toR m0| + |toR p1| * |toR m1| + |toR p2| * |toR m2| + |toR m3|) := by
  have n0 := mul_nonneg (abs_nonneg (toR p0)) (abs_nonneg (toR m0))
  have n1 := mul_nonneg (abs_nonneg (toR p1)) (abs_nonneg (toR m1))
  have n2 := mul_nonneg (abs_nonneg (toR p2)) (abs_nonneg (toR m2))
  have n3 := abs_nonneg (toR m3)
  have e0 := eta_pos
  have e1 := eta_le_one
  have a0 := Appr.mul_num hp0 h0 (by linarith)
  have a1 := Appr.mul_num hp1 h1 (by linarith)
  have a2 := (Appr.mul_num hp2 h2 (by linarith)).mono (l := 2) (by norm_num) le_rfl
  have a3 := (Appr.exact h3 le_rfl).mono (l := 3) (Nat.zero_le _) le_rfl
  have b := a0.add a1 (big_1000 (by linarith) 1 (by norm_num) (by linarith))
  have c := b.add a2 (big_1000 (by linarith) 2 (by norm_num) (by linarith))
  have d := c.add a3 (big_1000 (by linarith) 3 (by norm_num) (by linarith))
  exact d.within (by norm_num) (by linarith)

/-- rows of matrices -/
theorem dotm3 {p0 p1 p2 m0 m1 m2 : F64} (hp0 : Num p0) (hp1 : Num p1) (hp2 : Num p2) (h0 : Num m0) (h1 : Num m1)
    (h2 : Num m2)
    (h : |toR p0| * |toR m0| + |toR p1| * |toR m1| + |toR p2| * |toR m2| ≤ 2 ^ (1000 : ℤ)) :
    Within50 (p0 * m0 + p1 * m1 + p2 * m2) (toR p0 * toR m0 + toR p1 * toR m1 + toR p2 * toR m2)
      (|toR p0| * |toR m0| + |toR p1| * |toR m1| + |toR p2| * |toR m2|) := by
  have n0 := mul_nonneg (abs_nonneg (toR p0)) (abs_nonneg (toR m0))
  have n1 := mul_nonneg (abs_nonneg (toR p1)) (abs_nonneg (toR m1))
  have n2 := mul_nonneg (abs_nonneg (toR p2)) (abs_nonneg (toR m2))
  have e0 := eta_pos
  have e1 := eta_le_one
  have a0 := Appr.mul_num hp0 h0 (by linarith)
  have a1 := Appr.mul_num hp1 h1 (by linarith)
  have a2 := (Appr.mul_num hp2 h2 (by linarith)).mono (l := 2) (by norm_num) le_rfl
  have b := a0.add a1 (big_1000 (by linarith) 1 (by norm_num) (by linarith))
  have c := b.add a2 (big_1000 (by linarith) 2 (by norm_num) (by linarith))
  exact c.within (by norm_num) (by linarith)

theorem dotm4 {p0 p1 p2 p3 m0 m1 m2 m3 : F64} (hp0 : Num p0) (hp1 : Num p1) (hp2 : Num p2) (hp3 : Num p3) (h0 : Num m0) (h1 : Num m1)
    (h2 : Num m2) (h3 : Num m3)
    (h : |toR p0| * |toR m0| + |toR p1| * |toR m1| + |toR p2| * |toR m2| + |toR p3| * |toR m3| ≤ 2 ^ (1000 : ℤ)) :
    Within50 (p0 * m0 + p1 * m1 + p2 * m2 + p3 * m3) (toR p0 * toR m0 + toR p1 * toR m1 + toR p2 * toR m2 + toR p3 * toR m3)
      (|toR p0| * |toR m0| + |toR p1| * |toR m1| + |toR p2| * |toR m2| + |toR p3| * |toR m3|) := by
  have n0 := mul_nonneg (abs_nonneg (toR p0)) (abs_nonneg (toR m0))
  have n1 := mul_nonneg (abs_nonneg (toR p1)) (abs_nonneg (toR m1))
  have n2 := mul_nonneg (abs_nonneg (toR p2)) (abs_nonneg (toR m2))
  have n3 := mul_nonneg (abs_nonneg (toR p3)) (abs_nonneg (toR m3))
  have e0 := eta_pos
  have e1 := eta_le_one
  have a0 := Appr.mul_num hp0 h0 (by linarith)
  have a1 := Appr.mul_num hp1 h1 (by linarith)
  have a2 := (Appr.mul_num hp2 h2 (by linarith)).mono (l := 2) (by norm_num) le_rfl
  have a3 := (Appr.mul_num hp3 h3 (by linarith)).mono (l := 3) (by norm_num) le_rfl
  have b := a0.add a1 (big_1000 (by linarith) 1 (by norm_num) (by linarith))
  have c := b.add a2 (big_1000 (by linarith) 2 (by norm_num) (by linarith))
  have d := c.add a3 (big_1000 (by linarith) 3 (by norm_num) (by linarith))
  exact d.within (by norm_num) (by linarith)

/-! multiplying by 0 and 1 -/

theorem mul_zero_num {a : F64} (ha : Num a) : ∃ s, a * (Scalar.lit 0 : F64) = .fin s 0 := by
  obtain ⟨s, m, rfl, -⟩ := ha.form
  have e : (Scalar.lit 0 : F64) = .fin false 0 := by decide +kernel
  refine ⟨xor s false, ?_⟩
  rw [e]
  show F64.mul _ _ = _
  simp only [F64.mul, mul_zero]
  rw [round_exact _ ⟨le_rfl, two_zpow_pos _, 0, 0, by norm_num, by norm_num, by simp⟩]

theorem mul_one_num {a : F64} (ha : Num a) : a * (Scalar.lit 1 : F64) = a := by
  obtain ⟨s, m, rfl, r, -⟩ := ha.form
  have e : (Scalar.lit 1 : F64) = .fin false 1 := by decide +kernel
  rw [e]
  show F64.mul _ _ = _
  simp only [F64.mul, mul_one, Bool.xor_false]
  rw [round_exact _ r]

theorem add_zero_num {a : F64} (ha : Num a) (s : Bool) : Num (a + .fin s 0) ∧ toR (a + .fin s 0) = toR a := by
  have hz : Num (.fin s 0) := Num.mk' ⟨le_rfl, two_zpow_pos _, 0, 0, by norm_num, by norm_num, by simp⟩
  have ez : toR (.fin s 0) = 0 := by rw [real_fin]; cases s <;> simp [val]
  have k1 := key_add_le ha hz ha (by rw [ez, add_zero])
  have k2 := le_key_add ha hz ha (by rw [ez, add_zero])
  have num : Num (a + .fin s 0) :=
    num_of_bounded (add_rep _ _) (ok_add_num ha hz) (by rw [← ha.key]; exact k2) (by rw [← ha.key]; exact k1)
  refine ⟨num, ?_⟩
  have := le_antisymm k1 k2
  rwa [num.key, ha.key, EReal.coe_eq_coe_iff] at this

theorem add_zero_key {a : F64} (ha : ok a) (hr : Rep a) (s : Bool) : ok (a + .fin s 0) ∧ key (a + .fin s 0) = key a ∧
    ok (.fin s 0 + a) ∧ key (.fin s 0 + a) = key a ∧ Rep (a + .fin s 0) ∧ Rep (.fin s 0 + a) := by
  have hz : Num (.fin s 0) := Num.mk' ⟨le_rfl, two_zpow_pos _, 0, 0, by norm_num, by norm_num, by simp⟩
  have ez : toR (.fin s 0) = 0 := by rw [real_fin]; cases s <;> simp [val]
  cases a with
  | nan => exact absurd rfl ha
  | inf t => exact ⟨ha, rfl, ha, rfl, add_rep _ _, add_rep _ _⟩
  | fin t m =>
    have ha : Num (.fin t m) := Num.mk' hr
    exact ⟨ok_add_num ha hz,
      le_antisymm (key_add_le ha hz ha (by rw [ez, add_zero])) (le_key_add ha hz ha (by rw [ez, add_zero])),
      ok_add_num hz ha,
      le_antisymm (key_add_le hz ha ha (by rw [ez, zero_add])) (le_key_add hz ha ha (by rw [ez, zero_add])),
      add_rep _ _, add_rep _ _⟩

end F64

/-- all elements are numbers -/
def Matrix3.Num (m : Matrix3 F64) : Prop := ∀ i j, F64.Num (m.data i j)
def Matrix4.Num (m : Matrix4 F64) : Prop := ∀ i j, F64.Num (m.data i j)

/-- C98: transforming a point by a matrix, every row of which gives at most `2^1000`: every coordinate is the exact
one up to a relative error of `2^-50` of the sum of the magnitudes (and `2^-1069` for tiny ones). No overflow on
the way. -/
theorem c98_transform_2d (p : Point2D F64) (m : Matrix3 F64) (hp : p.Num) (hm : m.Num)
    (h : ∀ i : Fin 2, ∑ j : Fin 2, |toR (m.data i.castSucc j.castSucc)| * |toR (at2 p j)| + |toR (m.data i.castSucc 2)| ≤ 2 ^ (1000 : ℤ)) (i : Fin 2) :
    Within50 (at2 (p.transformed m) i) (∑ j : Fin 2, toR (m.data i.castSucc j.castSucc) * toR (at2 p j) + toR (m.data i.castSucc 2))
      (∑ j : Fin 2, |toR (m.data i.castSucc j.castSucc)| * |toR (at2 p j)| + |toR (m.data i.castSucc 2)|) := by
  revert i
  simp only [Fin.forall_fin_two, Fin.sum_univ_two, at2_zero, at2_one, Fin.castSucc_zero, Fin.castSucc_one,
    mul_comm (toR (m.data _ _)), mul_comm |toR (m.data _ _)|] at h ⊢
  exact ⟨dot2 hp.1 hp.2 (hm 0 0) (hm 0 1) (hm 0 2) h.1, dot2 hp.1 hp.2 (hm 1 0) (hm 1 1) (hm 1 2) h.2⟩

theorem c98_transform_3d (p : Point3D F64) (m : Matrix4 F64) (hp : p.Num) (hm : m.Num)
    (h : ∀ i : Fin 3, ∑ j : Fin 3, |toR (m.data i.castSucc j.castSucc)| * |toR (at3 p j)| + |toR (m.data i.castSucc 3)| ≤ 2 ^ (1000 : ℤ)) (i : Fin 3) :
    Within50 (at3 (p.transformed m) i) (∑ j : Fin 3, toR (m.data i.castSucc j.castSucc) * toR (at3 p j) + toR (m.data i.castSucc 3))
      (∑ j : Fin 3, |toR (m.data i.castSucc j.castSucc)| * |toR (at3 p j)| + |toR (m.data i.castSucc 3)|) := by
  revert i
  have e : (Fin.castSucc 2 : Fin 4) = 2 := rfl
  simp only [Spec.forall_fin3, Fin.sum_univ_three, at3_zero, at3_one, at3_two, Fin.castSucc_zero, Fin.castSucc_one, e,
    mul_comm (toR (m.data _ _)), mul_comm |toR (m.data _ _)|] at h ⊢
  exact ⟨dot3 hp.1 hp.2.1 hp.2.2 (hm 0 0) (hm 0 1) (hm 0 2) (hm 0 3) h.1,
    dot3 hp.1 hp.2.1 hp.2.2 (hm 1 0) (hm 1 1) (hm 1 2) (hm 1 3) h.2.1,
    dot3 hp.1 hp.2.1 hp.2.2 (hm 2 0) (hm 2 1) (hm 2 2) (hm 2 3) h.2.2⟩

/-- C98: products of matrices, element by element -/
theorem c98_product_2d (a b : Matrix3 F64) (ha : a.Num) (hb : b.Num) (i j : Fin 3)
    (h : ∑ k, |toR (a.data i k)| * |toR (b.data k j)| ≤ 2 ^ (1000 : ℤ)) :
    Within50 ((a.mul b).data i j) (∑ k, toR (a.data i k) * toR (b.data k j)) (∑ k, |toR (a.data i k)| * |toR (b.data k j)|) := by
  simp only [Fin.sum_univ_three] at h ⊢
  exact dotm3 (ha _ _) (ha _ _) (ha _ _) (hb _ _) (hb _ _) (hb _ _) h

theorem c98_product_3d (a b : Matrix4 F64) (ha : a.Num) (hb : b.Num) (i j : Fin 4)
    (h : ∑ k, |toR (a.data i k)| * |toR (b.data k j)| ≤ 2 ^ (1000 : ℤ)) :
    Within50 ((a.mul b).data i j) (∑ k, toR (a.data i k) * toR (b.data k j)) (∑ k, |toR (a.data i k)| * |toR (b.data k j)|) := by
  simp only [Fin.sum_univ_four] at h ⊢
  exact dotm4 (ha _ _) (ha _ _) (ha _ _) (ha _ _) (hb _ _) (hb _ _) (hb _ _) (hb _ _) h

/-- equal as numbers: neither is NaN and they compare equal -/
def Spec.SameNum (a b : F64) : Prop := F64.ok a ∧ F64.ok b ∧ F64.key a = F64.key b

namespace F64

/-- the same number of the format -/
structure Same (a b : F64) : Prop where
  same : SameNum a b
  rep : Rep a ∧ Rep b

theorem Same.refl {a : F64} (h : ok a) (hr : Rep a) : Same a a := ⟨⟨h, h, rfl⟩, hr, hr⟩

theorem Same.add_zero {a b : F64} (h : Same a b) (s : Bool) : Same (a + .fin s 0) b := by
  obtain ⟨⟨h1, h2, h3⟩, h4, h5⟩ := h
  obtain ⟨k1, k2, -, -, k5, -⟩ := add_zero_key h1 h4 s
  exact ⟨⟨k1, h2, k2.trans h3⟩, k5, h5⟩

theorem Same.zero_add {a b : F64} (h : Same a b) (s : Bool) : Same (.fin s 0 + a) b := by
  obtain ⟨⟨h1, h2, h3⟩, h4, h5⟩ := h
  obtain ⟨-, -, k1, k2, -, k5⟩ := add_zero_key h1 h4 s
  exact ⟨⟨k1, h2, k2.trans h3⟩, k5, h5⟩

theorem Same.num {a b : F64} (h : Same a b) (hb : Num b) : Num a ∧ toR a = toR b := by
  obtain ⟨⟨h1, h2, h3⟩, h4, h5⟩ := h
  rw [hb.key] at h3
  have n := num_of_bounded h4 h1 h3.ge h3.le
  rw [n.key, EReal.coe_eq_coe_iff] at h3
  exact ⟨n, h3⟩

theorem Same.add {a b t : F64} (h : Same a b) (hb : Num b) (ht : Num t) : Same (a + t) (b + t) := by
  obtain ⟨n, e⟩ := h.num hb
  exact ⟨⟨ok_add_num n ht, ok_add_num hb ht, le_antisymm (key_add_le_add n ht hb ht (by rw [e])) (key_add_le_add hb ht n ht (by rw [e]))⟩,
    add_rep _ _, add_rep _ _⟩

theorem ok_mul_num {a b : F64} (ha : Num a) (hb : Num b) : ok (a * b) := by
  obtain ⟨⟨s, m, rfl⟩, -⟩ := ha
  obtain ⟨⟨t, n, rfl⟩, -⟩ := hb
  show ok (F64.mul _ _)
  simp only [F64.mul]
  rcases round_ok (xor s t) (m * n) with ⟨t, h⟩ | ⟨t, k, h⟩ <;> rw [h] <;> exact F64.noConfusion

theorem zero_add_zero (s t : Bool) {a b : F64} (h : Same a b) : Same (.fin s 0 + .fin t 0 + a) b := by
  have : ∃ r, (F64.fin s 0 + F64.fin t 0 : F64) = .fin r 0 := by
    cases s <;> cases t
    all_goals first | exact ⟨false, by decide +kernel⟩ | exact ⟨true, by decide +kernel⟩
  obtain ⟨r, e⟩ := this
  rw [e]; exact h.zero_add r

end F64

/-- C98: the identity changes no finite point -/
theorem c98_identity (p : Point2D F64) (q : Point3D F64) (hp : p.Num) (hq : q.Num) :
    (∀ d, SameNum (at2 (p.transformed .identity) d) (at2 p d)) ∧ (∀ d, SameNum (at3 (q.transformed .identity) d) (at3 q d)) := by
  have z : (Scalar.lit 0 : F64) = .fin false 0 := by decide +kernel
  have r := fun {a : F64} (h : F64.Num a) => Same.refl h.ok h.2
  obtain ⟨p1, p2⟩ := hp
  obtain ⟨q1, q2, q3⟩ := hq
  obtain ⟨s1, e1⟩ := mul_zero_num p1
  obtain ⟨s2, e2⟩ := mul_zero_num p2
  obtain ⟨t1, f1⟩ := mul_zero_num q1
  obtain ⟨t2, f2⟩ := mul_zero_num q2
  obtain ⟨t3, f3⟩ := mul_zero_num q3
  rw [Fin.forall_fin_two, Spec.forall_fin3]
  simp only [at2_zero, at2_one, at3_zero, at3_one, at3_two, Point2D.transformed, Point3D.transformed, Matrix3.identity,
    Matrix4.identity, Matrix.cons_val, mul_one_num p1, mul_one_num p2, mul_one_num q1, mul_one_num q2, mul_one_num q3,
    e1, e2, f1, f2, f3]
  rw [z]
  exact ⟨⟨(((r p1).add_zero _).add_zero _).same, (((r p2).zero_add _).add_zero _).same⟩,
    ((((r q1).add_zero _).add_zero _).add_zero _).same, ((((r q2).zero_add _).add_zero _).add_zero _).same, ((zero_add_zero _ _ (r q3)).add_zero _).same⟩

/-- C98: transforming a finite point by a translation matrix gives exactly what moving it gives -/
theorem c98_translation (p : Point2D F64) (q : Point3D F64) (hp : p.Num) (hq : q.Num) (x y z : F64)
    (hx : F64.Num x) (hy : F64.Num y) (hz : F64.Num z) :
    (∀ d, SameNum (at2 (p.transformed (.translation x y)) d) (at2 (p.moveBy x y) d)) ∧
    (∀ d, SameNum (at3 (q.transformed (.translation x y z)) d) (at3 (q.moveBy x y z) d)) := by
  have r := fun {a : F64} (h : F64.Num a) => Same.refl h.ok h.2
  obtain ⟨p1, p2⟩ := hp
  obtain ⟨q1, q2, q3⟩ := hq
  obtain ⟨s1, e1⟩ := mul_zero_num p1
  obtain ⟨s2, e2⟩ := mul_zero_num p2
  obtain ⟨t1, f1⟩ := mul_zero_num q1
  obtain ⟨t2, f2⟩ := mul_zero_num q2
  obtain ⟨t3, f3⟩ := mul_zero_num q3
  rw [Fin.forall_fin_two, Spec.forall_fin3]
  simp only [at2_zero, at2_one, at3_zero, at3_one, at3_two, Point2D.transformed, Point3D.transformed, Matrix3.translation,
    Matrix4.translation, Matrix.cons_val, mul_one_num p1, mul_one_num p2, mul_one_num q1, mul_one_num q2, mul_one_num q3,
    e1, e2, f1, f2, f3, Point2D.moveBy, Point3D.moveBy]
  exact ⟨⟨(((r p1).add_zero _).add p1 hx).same, (((r p2).zero_add _).add p2 hy).same⟩,
    ((((r q1).add_zero _).add_zero _).add q1 hx).same, ((((r q2).zero_add _).add_zero _).add q2 hy).same,
    (((zero_add_zero _ _ (r q3))).add q3 hz).same⟩

/-- C98: transforming a finite point by a scaling matrix gives exactly the rounded products -/
theorem c98_scale (p : Point2D F64) (q : Point3D F64) (hp : p.Num) (hq : q.Num) (x y z : F64)
    (hx : F64.Num x) (hy : F64.Num y) (hz : F64.Num z) :
    (∀ d, SameNum (at2 (p.transformed (.scale x y)) d) (at2 ⟨p.x * x, p.y * y⟩ d)) ∧
    (∀ d, SameNum (at3 (q.transformed (.scale x y z)) d) (at3 ⟨q.x * x, q.y * y, q.z * z⟩ d)) := by
  have zz : (Scalar.lit 0 : F64) = .fin false 0 := by decide +kernel
  have r := fun {a b : F64} (h : F64.Num a) (h' : F64.Num b) => Same.refl (ok_mul_num h h') (mul_rep a b)
  obtain ⟨p1, p2⟩ := hp
  obtain ⟨q1, q2, q3⟩ := hq
  obtain ⟨s1, e1⟩ := mul_zero_num p1
  obtain ⟨s2, e2⟩ := mul_zero_num p2
  obtain ⟨t1, f1⟩ := mul_zero_num q1
  obtain ⟨t2, f2⟩ := mul_zero_num q2
  obtain ⟨t3, f3⟩ := mul_zero_num q3
  rw [Fin.forall_fin_two, Spec.forall_fin3]
  simp only [at2_zero, at2_one, at3_zero, at3_one, at3_two, Point2D.transformed, Point3D.transformed, Matrix3.scale,
    Matrix4.scale, Matrix.cons_val, e1, e2, f1, f2, f3]
  rw [zz]
  exact ⟨⟨(((r p1 hx).add_zero _).add_zero _).same, (((r p2 hy).zero_add _).add_zero _).same⟩,
    ((((r q1 hx).add_zero _).add_zero _).add_zero _).same, ((((r q2 hy).zero_add _).add_zero _).add_zero _).same,
    ((zero_add_zero _ _ (r q3 hz)).add_zero _).same⟩

/-- C98 needs finite points: the identity turns an infinite coordinate into NaNs elsewhere -/
theorem c98_violated_infinite :
    let p : Point3D F64 := ⟨.inf false, f 1, f 2⟩
    (p.transformed .identity).x = .inf false ∧ (p.transformed .identity).y = .nan ∧ (p.transformed .identity).z = .nan := by
  decide +kernel

/-- the hypotheses are met -/
example : (⟨f (1/10), f 2, f 3⟩ : Point3D F64).Num ∧ (Matrix4.translation (f 1) (f 2) (f (1/10))).Num ∧
    ∀ i : Fin 3, ∑ j : Fin 3, |toR ((Matrix4.translation (f 1) (f 2) (f (1/10))).data i.castSucc j.castSucc)| *
      |toR (at3 (⟨f (1/10), f 2, f 3⟩ : Point3D F64) j)| + |toR ((Matrix4.translation (f 1) (f 2) (f (1/10))).data i.castSucc 3)| ≤ 2 ^ (1000 : ℤ) := by
  have h0 := ex_num 0 false 0 (by decide +kernel)
  have h1 := ex_num 1 false 1 (by decide +kernel)
  have h2 := ex_num 2 false 2 (by decide +kernel)
  have h3 := ex_num 3 false 3 (by decide +kernel)
  have ht := ex_num (1/10) false (3602879701896397 / 36028797018963968) (by decide +kernel)
  have z0 : (lit 0 : F64) = f 0 := rfl
  have z1 : (lit 1 : F64) = f 1 := rfl
  have big : (16:ℝ) ≤ 2 ^ (1000 : ℤ) := by
    rw [show (16:ℝ) = 2 ^ (4 : ℤ) by norm_num]; exact zpow_le_zpow_right₀ one_le_two (by norm_num)
  refine ⟨⟨ht.1, h2.1, h3.1⟩, ?_, ?_⟩
  · intro i j
    fin_cases i <;> fin_cases j <;> first | exact h0.1 | exact h1.1 | exact h2.1 | exact ht.1
  · intro i
    refine le_trans ?_ big
    have e : (Fin.castSucc 2 : Fin 4) = 2 := rfl
    revert i
    simp only [Spec.forall_fin3, Fin.sum_univ_three, at3_zero, at3_one, at3_two, Fin.castSucc_zero, Fin.castSucc_one, e,
      Matrix4.translation, Matrix.cons_val, z0, z1, h0, h1, h2, h3, ht, val]
    norm_num

/-- two matrices for `c98_product_2d` and a point for `c98_transform_2d` -/
example : let a : Matrix3 F64 := .translation (f 1) (f 2)
    a.Num ∧ (∀ i j, ∑ k, |toR (a.data i k)| * |toR (a.data k j)| ≤ 2 ^ (1000 : ℤ)) ∧ (⟨f 1, f 2⟩ : Point2D F64).Num := by
  have h0 := ex_num 0 false 0 (by decide +kernel)
  have h1 := ex_num 1 false 1 (by decide +kernel)
  have h2 := ex_num 2 false 2 (by decide +kernel)
  have z0 : (lit 0 : F64) = f 0 := rfl
  have z1 : (lit 1 : F64) = f 1 := rfl
  have big : (16:ℝ) ≤ 2 ^ (1000 : ℤ) := by
    rw [show (16:ℝ) = 2 ^ (4 : ℤ) by norm_num]; exact zpow_le_zpow_right₀ one_le_two (by norm_num)
  refine ⟨?_, ?_, h1.1, h2.1⟩
  · intro i j
    fin_cases i <;> fin_cases j <;> first | exact h0.1 | exact h1.1 | exact h2.1
  · intro i j
    refine le_trans ?_ big
    revert i j
    simp only [Spec.forall_fin3, Fin.sum_univ_three, Matrix3.translation, Matrix.cons_val, z0, z1, h0, h1, h2, val]
    norm_num

end R3D

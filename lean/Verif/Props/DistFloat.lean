import Verif.Lemmas.F64Err
import Verif.Props.BoundingBoxReal
import Verif.Props.AABBTree
/-
C92: accuracy of computed distances (doubles), and C19 for doubles.
`F64.Num`: finite double; `F64.toR`: its value.
-/
namespace R3D
open Scalar F64 Spec

/-- the finite doubles of a point as real numbers -/
noncomputable def Point2D.real (p : Point2D F64) : Point2D ℝ := ⟨F64.toR p.x, F64.toR p.y⟩
noncomputable def Point3D.real (p : Point3D F64) : Point3D ℝ := ⟨F64.toR p.x, F64.toR p.y, F64.toR p.z⟩
def Point2D.Num (p : Point2D F64) : Prop := F64.Num p.x ∧ F64.Num p.y

/-- `D` is the length `r` with a relative error of at most 2^-50 and an absolute one of 2^-536 -/
def Accurate (D : ℚ) (r : ℝ) : Prop := |(D : ℝ) - r| ≤ 2 ^ (-50 : ℤ) * r + 2 ^ (-536 : ℤ)

/-- C92 (3D), every pair of finite points: a finite computed distance is the true one up to a relative
error of 2^-50 (and 2^-536 for tiny distances). -/
theorem c92_dist_3d (p q : Point3D F64) (hp : p.Num) (hq : q.Num) (s : Bool) (D : ℚ) (h : p.dist q = .fin s D) :
    Accurate D (√(Spec.sqrDist (at3 p.real) (at3 q.real))) := by
  have nx := near_sub hp.1 hq.1
  have ny := near_sub hp.2.1 hq.2.1
  have nz := near_sub hp.2.2 hq.2.2
  have e : Spec.sqrDist (at3 p.real) (at3 q.real) = (F64.toR p.x - F64.toR q.x) * (F64.toR p.x - F64.toR q.x) +
      (F64.toR p.y - F64.toR q.y) * (F64.toR p.y - F64.toR q.y) + (F64.toR p.z - F64.toR q.z) * (F64.toR p.z - F64.toR q.z) := by
    simp [Spec.sqrDist, Fin.sum_univ_three, Point3D.real]; ring
  rw [e]
  exact len_err (Point3D.sqrDist_nonNeg hp hq) (fun _ _ hv => sumsq3 nx ny nz hv) h

theorem c92_dist_2d (p q : Point2D F64) (hp : p.Num) (hq : q.Num) (s : Bool) (D : ℚ) (h : p.dist q = .fin s D) :
    Accurate D (√(Spec.sqrDist (at2 p.real) (at2 q.real))) := by
  have nx := near_sub hp.1 hq.1
  have ny := near_sub hp.2 hq.2
  have e : Spec.sqrDist (at2 p.real) (at2 q.real) = (F64.toR p.x - F64.toR q.x) * (F64.toR p.x - F64.toR q.x) +
      (F64.toR p.y - F64.toR q.y) * (F64.toR p.y - F64.toR q.y) := by
    simp [Spec.sqrDist, Fin.sum_univ_two, Point2D.real]; ring
  rw [e]
  exact len_err (add_nonNeg nx.nonNeg ny.nonNeg) (fun _ _ hv => sumsq2 nx ny hv) h

/-- C92: no overflow for coordinates at most 2^511 apart -/
theorem c92_finite_3d (p q : Point3D F64) (hp : p.Num) (hq : q.Num)
    (h : ∀ d, |at3 p.real d - at3 q.real d| ≤ 2 ^ (511 : ℤ)) : ∃ D, p.dist q = .fin false D := by
  rw [forall_fin3] at h
  obtain ⟨m, hm, m0, m1⟩ := sumsq3_fin (near_sub hp.1 hq.1) (near_sub hp.2.1 hq.2.1) (near_sub hp.2.2 hq.2.2) h.1 h.2.1 h.2.2
  have : p.sqrDist q = .fin false m := hm
  unfold Point3D.dist
  rw [this]
  refine sqrt_fin m0 (m1.trans_lt ?_)
  have e2 : (2:ℚ) ^ (1024 : ℤ) = 4 * 2 ^ (1022 : ℤ) := by
    rw [show (1024:ℤ) = 1022 + 2 by norm_num, zpow_add₀ two_ne_zero, mul_comm]; norm_num
  rw [e2]
  exact mul_lt_mul_of_pos_right (by norm_num) (two_zpow_pos _)

theorem c92_finite_2d (p q : Point2D F64) (hp : p.Num) (hq : q.Num)
    (h : ∀ d, |at2 p.real d - at2 q.real d| ≤ 2 ^ (511 : ℤ)) : ∃ D, p.dist q = .fin false D := by
  rw [Fin.forall_fin_two] at h
  obtain ⟨m, hm, m0, m1⟩ := sumsq2_fin (near_sub hp.1 hq.1) (near_sub hp.2 hq.2) h.1 h.2
  have : p.sqrDist q = .fin false m := hm
  unfold Point2D.dist
  rw [this]
  exact sqrt_fin m0 (m1.trans_lt (zpow_lt_zpow_right₀ one_lt_two (by norm_num)))

theorem F64.sq_sub_comm (a b : F64) : Scalar.sq (a - b) = Scalar.sq (b - a) := by
  show F64.mul (F64.sub a b) (F64.sub a b) = F64.mul (F64.sub b a) (F64.sub b a)
  cases a with
  | nan => cases b <;> rfl
  | inf s => cases b with
    | nan => rfl
    | inf t => cases s <;> cases t <;> rfl
    | fin t n => cases s <;> rfl
  | fin s m => cases b with
    | nan => rfl
    | inf t => cases t <;> rfl
    | fin t n =>
      obtain ⟨b1, h1⟩ := sub_form s t m n
      obtain ⟨b2, h2⟩ := sub_form t s n m
      rw [h1, h2, mul_self_abs, mul_self_abs (round b2 _), abs_round, abs_round, abs_sub_comm]

/-- C92: bit by bit symmetric, for all values including infinities and NaN -/
theorem c92_symmetric (p q : Point3D F64) (p' q' : Point2D F64) :
    p.dist q = q.dist p ∧ p.sqrDist q = q.sqrDist p ∧ p'.dist q' = q'.dist p' ∧ p'.sqrDist q' = q'.sqrDist p' := by
  have e : p.sqrDist q = q.sqrDist p := by
    unfold Point3D.sqrDist; rw [sq_sub_comm p.x, sq_sub_comm p.y, sq_sub_comm p.z]
  have e' : p'.sqrDist q' = q'.sqrDist p' := by
    unfold Point2D.sqrDist; rw [sq_sub_comm p'.x, sq_sub_comm p'.y]
  exact ⟨by unfold Point3D.dist; rw [e], e, by unfold Point2D.dist; rw [e'], e'⟩

theorem F64.key_mul_self_mono {a b : F64} (ha : NonNeg a) (hb : NonNeg b) (h : F64.key a ≤ F64.key b) :
    F64.key (a * a) ≤ F64.key (b * b) := by
  show F64.key (F64.mul a a) ≤ F64.key (F64.mul b b)
  rcases hb with rfl | ⟨n, rfl, hn⟩
  · simp [F64.mul, F64.key]
  · rcases ha with rfl | ⟨m, rfl, hm⟩
    · rw [key_inf_false, key_fin_false] at h; simp at h
    · simp only [F64.mul, Bool.xor_self]
      rw [key_fin_false, key_fin_false] at h
      have h1 : (m:ℝ) ≤ (n:ℝ) := by exact_mod_cast h
      have h2 : m ≤ n := by exact_mod_cast h1
      exact key_round_mono (mul_le_mul h2 h2 hm.1 hn.1)

theorem F64.key_add_mono {a b c d : F64} (ha : NonNeg a) (hb : NonNeg b) (hc : NonNeg c) (hd : NonNeg d)
    (h1 : F64.key a ≤ F64.key c) (h2 : F64.key b ≤ F64.key d) : F64.key (a + b) ≤ F64.key (c + d) := by
  show F64.key (F64.add a b) ≤ F64.key (F64.add c d)
  rcases hc with rfl | ⟨k, rfl, hk⟩
  · rcases hd with rfl | ⟨n, rfl, hn⟩ <;> simp [F64.add, F64.key]
  · rcases hd with rfl | ⟨n, rfl, hn⟩
    · simp [F64.add, F64.key]
    · rcases ha with rfl | ⟨i, rfl, hi⟩
      · rw [key_inf_false, key_fin_false] at h1; simp at h1
      rcases hb with rfl | ⟨j, rfl, hj⟩
      · rw [key_inf_false, key_fin_false] at h2; simp at h2
      rw [key_add, key_add]
      rw [key_fin_false, key_fin_false] at h1 h2
      have g1 : (i:ℝ) ≤ (k:ℝ) := by exact_mod_cast h1
      have g2 : (j:ℝ) ≤ (n:ℝ) := by exact_mod_cast h2
      apply rkey_mono
      simp only [val, Bool.false_eq_true, if_false]
      exact add_le_add (by exact_mod_cast g1) (by exact_mod_cast g2)

theorem F64.abs_nonNeg {a : F64} (h : ok a) (hr : Rep a) : NonNeg (F64.abs a) := by
  cases a with
  | nan => exact absurd rfl h
  | inf s => exact .inl rfl
  | fin s m => exact .inr ⟨m, rfl, hr⟩

theorem F64.key_sq_mono {a b c d : F64} (ha : F64.Num a) (hb : F64.Num b) (hc : F64.Num c) (hd : F64.Num d)
    (h : (Scalar.abs (a - b) <=. Scalar.abs (c - d)) = true) : F64.key (Scalar.sq (a - b)) ≤ F64.key (Scalar.sq (c - d)) := by
  have o1 := ok_sub_fin ha.1 hb.1
  have o2 := ok_sub_fin hc.1 hd.1
  have n1 := F64.abs_nonNeg o1 (sub_rep a b)
  have n2 := F64.abs_nonNeg o2 (sub_rep c d)
  have h' : F64.key (F64.abs (a - b)) ≤ F64.key (F64.abs (c - d)) := (LawfulScalar.le_of_ok (α := F64) n1.ok n2.ok).1 h
  have := F64.key_mul_self_mono n1 n2 h'
  show F64.key (F64.mul _ _) ≤ F64.key (F64.mul _ _)
  rw [mul_self_abs, mul_self_abs (c - d)]
  exact this

/-- C92: computed distances do not decrease when all computed coordinate differences do not (rounding
never turns the order of such points) -/
theorem c92_monotone_3d (p a b : Point3D F64) (hp : p.Num) (ha : a.Num) (hb : b.Num)
    (h : ∀ d, (Scalar.abs (at3 p d - at3 a d) <=. Scalar.abs (at3 p d - at3 b d)) = true) :
    (p.dist a <=. p.dist b) = true := by
  rw [forall_fin3] at h
  have n := @Point3D.sq_sub_nonNeg
  have h1 : F64.key (p.sqrDist a) ≤ F64.key (p.sqrDist b) :=
    F64.key_add_mono (add_nonNeg (n hp.1 ha.1) (n hp.2.1 ha.2.1)) (n hp.2.2 ha.2.2)
      (add_nonNeg (n hp.1 hb.1) (n hp.2.1 hb.2.1)) (n hp.2.2 hb.2.2)
      (F64.key_add_mono (n hp.1 ha.1) (n hp.2.1 ha.2.1) (n hp.1 hb.1) (n hp.2.1 hb.2.1)
        (F64.key_sq_mono hp.1 ha.1 hp.1 hb.1 h.1) (F64.key_sq_mono hp.2.1 ha.2.1 hp.2.1 hb.2.1 h.2.1))
      (F64.key_sq_mono hp.2.2 ha.2.2 hp.2.2 hb.2.2 h.2.2)
  have s1 := Point3D.sqrDist_nonNeg hp ha
  have s2 := Point3D.sqrDist_nonNeg hp hb
  exact (LawfulScalar.le_of_ok (α := F64) (sqrt_nonNeg s1).ok (sqrt_nonNeg s2).ok).2 (key_sqrt_mono s1 s2 h1)

theorem c92_monotone_2d (p a b : Point2D F64) (hp : p.Num) (ha : a.Num) (hb : b.Num)
    (h : ∀ d, (Scalar.abs (at2 p d - at2 a d) <=. Scalar.abs (at2 p d - at2 b d)) = true) :
    (p.dist a <=. p.dist b) = true := by
  rw [Fin.forall_fin_two] at h
  have n := @Point3D.sq_sub_nonNeg
  have h1 : F64.key (p.sqrDist a) ≤ F64.key (p.sqrDist b) :=
    F64.key_add_mono (n hp.1 ha.1) (n hp.2 ha.2) (n hp.1 hb.1) (n hp.2 hb.2)
        (F64.key_sq_mono hp.1 ha.1 hp.1 hb.1 h.1) (F64.key_sq_mono hp.2 ha.2 hp.2 hb.2 h.2)
  have s1 : NonNeg (p.sqrDist a) := add_nonNeg (n hp.1 ha.1) (n hp.2 ha.2)
  have s2 : NonNeg (p.sqrDist b) := add_nonNeg (n hp.1 hb.1) (n hp.2 hb.2)
  exact (LawfulScalar.le_of_ok (α := F64) (sqrt_nonNeg s1).ok (sqrt_nonNeg s2).ok).2 (key_sqrt_mono s1 s2 h1)

theorem NonNegative.new_of_nonNeg {a : F64} (h : NonNeg a) : NonNegative.new a = some ⟨a⟩ := by
  unfold NonNegative.new
  have z : (Scalar.zero : F64) = .fin false 0 := by decide +kernel
  rw [if_pos]
  refine (LawfulScalar.le_of_ok (α := F64) (by rw [z]; exact F64.noConfusion) h.ok).2 ?_
  show F64.key Scalar.zero ≤ F64.key a
  rw [z, key_fin_false]
  simpa using h.key

theorem NonNegative.root_of_nonNeg {a : F64} (h : NonNeg a) :
    ((NonNegative.new a).bind fun d => NonNegative.new (Scalar.sqrt d.val)) = some ⟨F64.sqrt a⟩ := by
  rw [NonNegative.new_of_nonNeg h]
  exact NonNegative.new_of_nonNeg (sqrt_nonNeg h)

/-- C92: the norm of a vector -/
theorem c92_abs_3d (p : Point3D F64) (hp : p.Num) : ∃ d, p.abs = some ⟨d⟩ ∧
    ∀ s D, d = .fin s D → Accurate D (√(Spec.sqrDist (at3 p.real) 0)) := by
  have nx := near_num hp.1
  have ny := near_num hp.2.1
  have nz := near_num hp.2.2
  have hn := add_nonNeg (add_nonNeg nx.nonNeg ny.nonNeg) nz.nonNeg
  refine ⟨_, NonNegative.new_of_nonNeg (sqrt_nonNeg hn), fun s D h => ?_⟩
  have e : Spec.sqrDist (at3 p.real) 0 = F64.toR p.x * F64.toR p.x + F64.toR p.y * F64.toR p.y + F64.toR p.z * F64.toR p.z := by
    simp [Spec.sqrDist, Fin.sum_univ_three, Point3D.real]; ring
  rw [e]
  exact len_err hn (fun _ _ hv => sumsq3 nx ny nz hv) h

theorem c92_abs_2d (p : Point2D F64) (hp : p.Num) : ∃ d, p.abs = some ⟨d⟩ ∧
    ∀ s D, d = .fin s D → Accurate D (√(Spec.sqrDist (at2 p.real) 0)) := by
  have nx := near_num hp.1
  have ny := near_num hp.2
  have hn := add_nonNeg nx.nonNeg ny.nonNeg
  refine ⟨_, NonNegative.new_of_nonNeg (sqrt_nonNeg hn), fun s D h => ?_⟩
  have e : Spec.sqrDist (at2 p.real) 0 = F64.toR p.x * F64.toR p.x + F64.toR p.y * F64.toR p.y := by
    simp [Spec.sqrDist, Fin.sum_univ_two, Point2D.real]; ring
  rw [e]
  exact len_err hn (fun _ _ hv => sumsq2 nx ny hv) h

theorem F64.sq_sub_self {a : F64} (h : F64.IsFin a) : Scalar.sq (a - a) = .fin false 0 := by
  obtain ⟨s, m, rfl⟩ := h
  obtain ⟨b, hb⟩ := sub_form s s m m
  show F64.mul (F64.sub _ _) (F64.sub _ _) = _
  rw [hb, sub_self, abs_zero, round_zero]
  cases b <;> decide +kernel

/-- C92: a finite point has the distance 0 to itself -/
theorem c92_self (p : Point3D F64) (p' : Point2D F64) (hp : p.Num) (hp' : p'.Num) :
    p.dist p = .fin false 0 ∧ p'.dist p' = .fin false 0 := by
  unfold Point3D.dist Point2D.dist Point3D.sqrDist Point2D.sqrDist
  rw [sq_sub_self hp.1.1, sq_sub_self hp.2.1.1, sq_sub_self hp.2.2.1, sq_sub_self hp'.1.1, sq_sub_self hp'.2.1]
  constructor <;> decide +kernel

/-- C92 violated: points 2^600 apart have the computed distance ∞, distinct points 2^-600 apart 0. -/
theorem c92_violated : ∃ o p q : Point3D F64, o = ⟨F64.ofRat 0, F64.ofRat 0, F64.ofRat 0⟩ ∧
    p = ⟨F64.ofRat (2 ^ 600), F64.ofRat 0, F64.ofRat 0⟩ ∧ q = ⟨F64.ofRat (1 / 2 ^ 600), F64.ofRat 0, F64.ofRat 0⟩ ∧
    o.dist p = .inf false ∧ o.dist q = .fin false 0 ∧ (o.x ==. q.x) = false := by
  refine ⟨_, _, _, rfl, rfl, rfl, ?_, ?_, ?_⟩
  all_goals decide +kernel

/-! ## C19 for doubles -/

noncomputable def BoundingBox2D.real (b : BoundingBox2D F64) : BoundingBox2D ℝ := ⟨b.min.real, b.max.real⟩
noncomputable def BoundingBox3D.real (b : BoundingBox3D F64) : BoundingBox3D ℝ := ⟨b.min.real, b.max.real⟩

theorem F64.Num.lt {a b : F64} (ha : F64.Num a) (hb : F64.Num b) : F64.key a < F64.key b ↔ F64.toR a < F64.toR b := by
  rw [ha.key, hb.key, EReal.coe_lt_coe_iff]

theorem valid_real_f64_2d {b : BoundingBox2D F64} (h1 : b.min.Num) (h2 : b.max.Num) (hv : (box2 b).Valid) :
    (box2 b.real).Valid := by
  rw [valid_real_2d]
  have := hv.2
  rw [Fin.forall_fin_two] at this
  exact ⟨(F64.Num.lt h1.1 h2.1).1 this.1, (F64.Num.lt h1.2 h2.2).1 this.2⟩

theorem valid_real_f64_3d {b : BoundingBox3D F64} (h1 : b.min.Num) (h2 : b.max.Num) (hv : (box3 b).Valid) :
    (box3 b.real).Valid := by
  rw [valid_real_3d]
  have := hv.2
  rw [forall_fin3] at this
  exact ⟨(F64.Num.lt h1.1 h2.1).1 this.1, (F64.Num.lt h1.2.1 h2.2.1).1 this.2.1, (F64.Num.lt h1.2.2 h2.2.2).1 this.2.2⟩

/-- C19 (2D), doubles: the distance of a finite point from a valid finite box never panics; if finite, it
is the distance of the nearest point of the box up to rounding. -/
theorem c19_point_distance_f64_2d (b : BoundingBox2D F64) (h1 : b.min.Num) (h2 : b.max.Num) (hv : (box2 b).Valid)
    (p : Point2D F64) (hp : p.Num) :
    ∃ d v, b.distance p = some ⟨d⟩ ∧ (∀ s D, d = .fin s D → Accurate D v) ∧
      IsLeast {r | ∃ q, (box2 b.real).Mem q ∧ r = √(Spec.sqrDist (at2 p.real) q)} v := by
  have nx := near_max3 h1.1 hp.1 h2.1
  have ny := near_max3 h1.2 hp.2 h2.2
  have hn := add_nonNeg nx.nonNeg ny.nonNeg
  have e0 := NonNegative.root_of_nonNeg hn
  obtain ⟨v, e1, -, -, hl, -⟩ := c19_point_distance_2d b.real (valid_real_f64_2d h1 h2 hv) p.real
  refine ⟨_, √v, e0, ?_, hl⟩
  · intro s D h
    have hv : v = (max (max (F64.toR b.min.x - F64.toR p.x) 0) (F64.toR p.x - F64.toR b.max.x)) *
          (max (max (F64.toR b.min.x - F64.toR p.x) 0) (F64.toR p.x - F64.toR b.max.x)) +
        (max (max (F64.toR b.min.y - F64.toR p.y) 0) (F64.toR p.y - F64.toR b.max.y)) *
          (max (max (F64.toR b.min.y - F64.toR p.y) 0) (F64.toR p.y - F64.toR b.max.y)) := by
      simp only [BoundingBox2D.sqrDistance, max3_real] at e1
      unfold NonNegative.new at e1
      split_ifs at e1
      simp only [Option.some.injEq, NonNegative.mk.injEq] at e1
      exact e1.symm
    rw [hv]
    exact len_err hn (fun _ _ hv => sumsq2 nx ny hv) h

theorem c19_point_distance_f64_3d (b : BoundingBox3D F64) (h1 : b.min.Num) (h2 : b.max.Num) (hv : (box3 b).Valid)
    (p : Point3D F64) (hp : p.Num) :
    ∃ d v, b.distance p = some ⟨d⟩ ∧ (∀ s D, d = .fin s D → Accurate D v) ∧
      IsLeast {r | ∃ q, (box3 b.real).Mem q ∧ r = √(Spec.sqrDist (at3 p.real) q)} v := by
  have nx := near_max3 h1.1 hp.1 h2.1
  have ny := near_max3 h1.2.1 hp.2.1 h2.2.1
  have nz := near_max3 h1.2.2 hp.2.2 h2.2.2
  have hn := add_nonNeg (add_nonNeg nx.nonNeg ny.nonNeg) nz.nonNeg
  have e0 := NonNegative.root_of_nonNeg hn
  obtain ⟨v, e1, -, -, hl, -⟩ := c19_point_distance_3d b.real (valid_real_f64_3d h1 h2 hv) p.real
  refine ⟨_, √v, e0, ?_, hl⟩
  · intro s D h
    have hv : v = (max (max (F64.toR b.min.x - F64.toR p.x) 0) (F64.toR p.x - F64.toR b.max.x)) *
          (max (max (F64.toR b.min.x - F64.toR p.x) 0) (F64.toR p.x - F64.toR b.max.x)) +
        (max (max (F64.toR b.min.y - F64.toR p.y) 0) (F64.toR p.y - F64.toR b.max.y)) *
          (max (max (F64.toR b.min.y - F64.toR p.y) 0) (F64.toR p.y - F64.toR b.max.y)) +
        (max (max (F64.toR b.min.z - F64.toR p.z) 0) (F64.toR p.z - F64.toR b.max.z)) *
          (max (max (F64.toR b.min.z - F64.toR p.z) 0) (F64.toR p.z - F64.toR b.max.z)) := by
      simp only [BoundingBox3D.sqrDistance, max3_real] at e1
      unfold NonNegative.new at e1
      split_ifs at e1
      simp only [Option.some.injEq, NonNegative.mk.injEq] at e1
      exact e1.symm
    rw [hv]
    exact len_err hn (fun _ _ hv => sumsq3 nx ny nz hv) h

/-- `S` is the square `m` with a relative error of at most 2^-50 and an absolute one of 2^-1073 -/
def AccurateSq (S : ℚ) (m : ℝ) : Prop := |(S : ℝ) - m| ≤ 2 ^ (-50 : ℤ) * m + 2 ^ (-1073 : ℤ)

theorem SumErr.accurate {S M : ℚ} (hM : 0 ≤ M) (h : SumErr S M) : AccurateSq S (M : ℝ) := by
  unfold AccurateSq
  have e : (4:ℚ) * 2 ^ (-1075 : ℤ) = 2 ^ (-1073 : ℤ) := by
    rw [show (4:ℚ) = 2 ^ (2:ℤ) by norm_num, ← zpow_add₀ two_ne_zero]; norm_num
  unfold SumErr at h
  rw [e] at h
  have h2 : |S - M| ≤ 2 ^ (-50 : ℤ) * M + 2 ^ (-1073 : ℤ) := by
    refine h.trans (add_le_add_left (mul_le_mul_of_nonneg_right (by norm_num) hM) _)
  have h3 : ((|S - M| : ℚ) : ℝ) ≤ ((2 ^ (-50 : ℤ) * M + 2 ^ (-1073 : ℤ) : ℚ) : ℝ) := by exact_mod_cast h2
  push_cast at h3
  exact h3

/-- C19 (2D), doubles: the squared distance of two valid finite boxes -/
theorem c19_box_distance_f64_2d (a b : BoundingBox2D F64) (ha1 : a.min.Num) (ha2 : a.max.Num) (hb1 : b.min.Num)
    (hb2 : b.max.Num) (ha : (box2 a).Valid) (hb : (box2 b).Valid) :
    ∃ d v, a.sqrDistanceBB b = some ⟨d⟩ ∧ (∀ s S, d = .fin s S → AccurateSq S v) ∧
      IsLeast {r | ∃ p q, (box2 a.real).Mem p ∧ (box2 b.real).Mem q ∧ r = Spec.sqrDist p q} v := by
  have nx := near_gap ha1.1 ha2.1 hb1.1 hb2.1
  have ny := near_gap ha1.2 ha2.2 hb1.2 hb2.2
  have hn := add_nonNeg nx.nonNeg ny.nonNeg
  obtain ⟨v, e1, hl, -⟩ := c19_box_distance_2d a.real b.real (valid_real_f64_2d ha1 ha2 ha) (valid_real_f64_2d hb1 hb2 hb)
  refine ⟨_, v, NonNegative.new_of_nonNeg hn, ?_, hl⟩
  intro s S h
  obtain ⟨M, hM, M0, hS⟩ := sumsq2 nx ny h
  simp only [BoundingBox2D.sqrDistanceBB, NonNegative.new] at e1
  split_ifs at e1
  simp only [Option.some.injEq, NonNegative.mk.injEq] at e1
  have hv : v = (M : ℝ) := e1.symm.trans hM.symm
  rw [hv]
  exact SumErr.accurate M0 hS

theorem c19_box_distance_f64_3d (a b : BoundingBox3D F64) (ha1 : a.min.Num) (ha2 : a.max.Num) (hb1 : b.min.Num)
    (hb2 : b.max.Num) (ha : (box3 a).Valid) (hb : (box3 b).Valid) :
    ∃ d v, a.sqrDistanceBB b = some ⟨d⟩ ∧ (∀ s S, d = .fin s S → AccurateSq S v) ∧
      IsLeast {r | ∃ p q, (box3 a.real).Mem p ∧ (box3 b.real).Mem q ∧ r = Spec.sqrDist p q} v := by
  have nx := near_gap ha1.1 ha2.1 hb1.1 hb2.1
  have ny := near_gap ha1.2.1 ha2.2.1 hb1.2.1 hb2.2.1
  have nz := near_gap ha1.2.2 ha2.2.2 hb1.2.2 hb2.2.2
  have hn := add_nonNeg (add_nonNeg nx.nonNeg ny.nonNeg) nz.nonNeg
  obtain ⟨v, e1, hl, -⟩ := c19_box_distance_3d a.real b.real (valid_real_f64_3d ha1 ha2 ha) (valid_real_f64_3d hb1 hb2 hb)
  refine ⟨_, v, NonNegative.new_of_nonNeg hn, ?_, hl⟩
  intro s S h
  obtain ⟨M, hM, M0, hS⟩ := sumsq3 nx ny nz h
  simp only [BoundingBox3D.sqrDistanceBB, NonNegative.new] at e1
  split_ifs at e1
  simp only [Option.some.injEq, NonNegative.mk.injEq] at e1
  have hv : v = (M : ℝ) := e1.symm.trans hM.symm
  rw [hv]
  exact SumErr.accurate M0 hS

/-- the number 3 as a double -/
theorem F64.num_three : F64.Num (.fin false 3) ∧ F64.toR (.fin false 3) = 3 := by
  refine ⟨⟨⟨_, _, rfl⟩, by norm_num, ?_, 3, 0, by norm_num, by norm_num, by norm_num⟩, by rw [real_fin]; norm_num [val]⟩
  have : (2:ℚ) ^ (2 : ℤ) ≤ 2 ^ (1024 : ℤ) := zpow_le_zpow_right₀ one_le_two (by norm_num)
  refine lt_of_lt_of_le ?_ this
  norm_num

/-- non-vacuity: finite points with a finite distance -/
example : ∃ (p q : Point3D F64) (p' q' : Point2D F64) (D E : ℚ), p.Num ∧ q.Num ∧ p'.Num ∧ q'.Num ∧
    p.dist q = .fin false D ∧ p'.dist q' = .fin false E :=
  let t : F64 := .fin false 3
  ⟨⟨t, t, t⟩, ⟨t, t, t⟩, ⟨t, t⟩, ⟨t, t⟩, 0, 0, ⟨num_three.1, num_three.1, num_three.1⟩,
    ⟨num_three.1, num_three.1, num_three.1⟩, ⟨num_three.1, num_three.1⟩, ⟨num_three.1, num_three.1⟩,
    by decide +kernel, by decide +kernel⟩

/-- non-vacuity: a valid finite box -/
example : ∃ b : BoundingBox2D F64, b.min.Num ∧ b.max.Num ∧ (box2 b).Valid := by
  refine ⟨⟨⟨.fin true 3, .fin true 3⟩, ⟨.fin false 3, .fin false 3⟩⟩, ?_, ⟨num_three.1, num_three.1⟩, ?_⟩
  · have : F64.Num (.fin true 3) := ⟨⟨_, _, rfl⟩, num_three.1.2⟩
    exact ⟨this, this⟩
  · have h3 : F64.Num (.fin true 3) := ⟨⟨_, _, rfl⟩, num_three.1.2⟩
    have hk : F64.key (.fin true 3) < F64.key (.fin false 3) := by
      rw [F64.Num.lt h3 num_three.1, real_fin, real_fin]; norm_num [val]
    refine ⟨?_, Fin.forall_fin_two.2 ⟨hk, hk⟩⟩
    rw [Box.Ok, Fin.forall_fin_two]
    exact ⟨⟨F64.noConfusion, F64.noConfusion⟩, F64.noConfusion, F64.noConfusion⟩

/-- different finite points within the bound of `c92_finite_3d`, ordered as in `c92_monotone_3d`, and a valid finite box
in three dimensions -/
example : ∃ (p a b : Point3D F64), p.Num ∧ a.Num ∧ b.Num ∧ (∀ d, |at3 p.real d - at3 b.real d| ≤ 2 ^ (511 : ℤ)) ∧
    (∀ d, (Scalar.abs (at3 p d - at3 a d) <=. Scalar.abs (at3 p d - at3 b d)) = true) ∧
    b.dist p ≠ .fin false 0 ∧ (box3 (⟨b, p⟩ : BoundingBox3D F64)).Valid := by
  have h3 : F64.Num (.fin true 3) := ⟨⟨_, _, rfl⟩, num_three.1.2⟩
  have v3 : toR (.fin true 3) = -3 := by rw [real_fin]; norm_num [val]
  have hk : F64.key (.fin true 3) < F64.key (.fin false 3) := by
    rw [F64.Num.lt h3 num_three.1, real_fin, real_fin]; norm_num [val]
  refine ⟨⟨.fin false 3, .fin false 3, .fin false 3⟩, ⟨.fin false 3, .fin false 3, .fin true 3⟩, ⟨.fin true 3, .fin true 3, .fin true 3⟩,
    ⟨num_three.1, num_three.1, num_three.1⟩, ⟨num_three.1, num_three.1, h3⟩, ⟨h3, h3, h3⟩, ?_, ?_, by decide +kernel, ?_, ?_⟩
  · have big : (6:ℝ) ≤ 2 ^ (511 : ℤ) :=
      le_trans (by norm_num) (zpow_le_zpow_right₀ one_le_two (show (3:ℤ) ≤ 511 by norm_num))
    intro d
    refine le_trans ?_ big
    revert d
    simp only [Spec.forall_fin3, Point3D.real, at3_zero, at3_one, at3_two, num_three.2, v3]
    norm_num
  · simp only [Spec.forall_fin3, at3_zero, at3_one, at3_two]
    decide +kernel
  · simp only [Box.Ok, Spec.forall_fin3]
    exact ⟨⟨F64.noConfusion, F64.noConfusion⟩, ⟨F64.noConfusion, F64.noConfusion⟩, F64.noConfusion, F64.noConfusion⟩
  · simp only [Spec.forall_fin3]
    exact ⟨hk, hk, hk⟩

end R3D

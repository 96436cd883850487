import Verif.Props.DistFloat
import Verif.Props.Filter
import Verif.Props.Positive
import Verif.Props.KdTreeFloat

/-! C36 and C25 for doubles: what the filters and the nearest neighbour search decide in terms of the true
distances -/

namespace R3D
open Scalar F64 Spec

/-- half of a number that is not tiny is exact -/
theorem F64.half_exact {a : F64} (h : F64.Num a) (hs : (2:ℝ) ^ (-1021 : ℤ) ≤ |F64.toR a|) :
    ∃ s m, a / lit 2 = .fin s m ∧ Rep (.fin s m) ∧ ((val s m : ℚ) : ℝ) = F64.toR a / 2 := by
  obtain ⟨⟨s, m, rfl⟩, r⟩ := h
  rw [real_fin] at hs ⊢
  have hm0 := r.1
  have habs : |((val s m : ℚ) : ℝ)| = (m : ℝ) := by
    have h0 : (0:ℝ) ≤ m := by exact_mod_cast hm0
    cases s <;> simp [val, abs_of_nonneg h0]
  rw [habs] at hs
  have hs' : (2:ℚ) ^ (-1021 : ℤ) ≤ m  :=
    (Rat.cast_le (K := ℝ)).1 (by rw [Rat.cast_zpow, Rat.cast_ofNat]; exact hs)
  obtain ⟨k, e, hk, he, hme⟩ := r.2.2
  have hd : Dyad (m / 2) := by
    refine ⟨k, e - 1, hk, ?_, ?_⟩
    · by_contra hc
      have h1 : m < (2:ℚ) ^ (53 + e) := by
        rw [hme, zpow_add₀ two_ne_zero]
        refine mul_lt_mul_of_pos_right ?_ (two_zpow_pos _)
        exact_mod_cast hk
      have h2 := hs'.trans_lt h1
      rw [zpow_lt_zpow_iff_right₀ one_lt_two] at h2
      omega
    · rw [hme, zpow_sub₀ two_ne_zero, zpow_one]; ring
  have hr : Rep (.fin s (m / 2)) := by
    exact ⟨by linarith, (half_le_self hm0).trans_lt r.2.1, hd⟩
  refine ⟨s, m / 2, ?_, hr, ?_⟩
  · have e2 : (lit 2 : F64) = .fin false 2 := by decide +kernel
    rw [e2]
    show F64.div (.fin s m) (.fin false 2) = _
    simp only [F64.div, Bool.xor_false]
    rw [if_neg (by norm_num)]
    exact round_exact s hr
  · cases s <;> simp [val] <;> ring

theorem F64.Num.mult {a : F64} (h : F64.Num a) : ∃ q : ℚ, Mult q ∧ (q : ℝ) = F64.toR a := by
  obtain ⟨⟨s, m, rfl⟩, r⟩ := h
  exact ⟨val s m, val_mult r.2.2, (real_fin s m).symm⟩

theorem F64.Num.abs_lt {a : F64} (h : F64.Num a) : |F64.toR a| < (2:ℝ) ^ (1024 : ℤ) := by
  obtain ⟨⟨s, m, rfl⟩, r⟩ := h
  rw [real_fin]
  have h0 : (0:ℝ) ≤ m := by exact_mod_cast r.1
  have habs : |((val s m : ℚ) : ℝ)| = (m : ℝ) := by cases s <;> simp [val, abs_of_nonneg h0]
  rw [habs]
  have := (Rat.cast_lt (K := ℝ)).2 r.2.1
  rwa [Rat.cast_zpow, Rat.cast_ofNat] at this

theorem F64.rel_real {q : ℚ} (h : Mult q) (h0 : 0 ≤ q) :
    (rnd q : ℝ) ≤ q + 2 ^ (-53 : ℤ) * q ∧ (q : ℝ) - 2 ^ (-53 : ℤ) * q ≤ rnd q := by
  obtain ⟨h1, h2⟩ := abs_le.1 (Mult.rel h h0)
  have h3 : rnd q ≤ q + 2 ^ (-53 : ℤ) * q := by linarith
  have h4 : q - 2 ^ (-53 : ℤ) * q ≤ rnd q := by linarith
  have h5 := (Rat.cast_le (K := ℝ)).2 h3
  have h6 := (Rat.cast_le (K := ℝ)).2 h4
  push_cast at h5 h6
  exact ⟨h5, h6⟩

/-- a number below a rounded border is below the border up to its rounding error -/
theorem F64.le_rkey {q : ℚ} (hm : Mult q) {x : ℝ} (hx : |x| < 2 ^ (1024 : ℤ)) (h : (x : EReal) ≤ rkey q) :
    x ≤ q + 2 ^ (-53 : ℤ) * |(q : ℝ)| := by
  unfold rkey ofRat at h
  by_cases h0 : q < 0
  · have hq : (q : ℝ) < 0 := by exact_mod_cast h0
    rw [if_pos h0, key_round_true] at h
    split_ifs at h with h1
    · simp at h
    · have h2 := EReal.coe_le_coe_iff.1 h
      have hmn : Mult (-q) := by have := Mult.zero.sub hm; rwa [zero_sub] at this
      have h3 := (F64.rel_real hmn (by linarith)).2
      push_cast at h2 h3
      rw [abs_of_neg hq]
      linarith
  · have h0' := not_lt.1 h0
    have hq : (0:ℝ) ≤ q := by exact_mod_cast h0'
    have h3 := (F64.rel_real hm h0').1
    rw [abs_of_nonneg hq]
    refine le_trans ?_ h3
    rw [if_neg h0, key_round_false] at h
    split_ifs at h with h1
    · have h4 := (Rat.cast_le (K := ℝ)).2 h1
      rw [Rat.cast_zpow, Rat.cast_ofNat] at h4
      exact (le_abs_self x).trans (hx.le.trans h4)
    · exact EReal.coe_le_coe_iff.1 h

theorem F64.rkey_le {q : ℚ} (hm : Mult q) {x : ℝ} (hx : |x| < 2 ^ (1024 : ℤ)) (h : rkey q ≤ (x : EReal)) :
    q - 2 ^ (-53 : ℤ) * |(q : ℝ)| ≤ x := by
  unfold rkey ofRat at h
  by_cases h0 : q < 0
  · have hq : (q : ℝ) < 0 := by exact_mod_cast h0
    have hmn : Mult (-q) := by have := Mult.zero.sub hm; rwa [zero_sub] at this
    have h3 := (F64.rel_real hmn (by linarith)).1
    push_cast at h3
    rw [abs_of_neg hq]
    rw [if_pos h0, key_round_true] at h
    split_ifs at h with h1
    · have h4 := (Rat.cast_le (K := ℝ)).2 h1
      rw [Rat.cast_zpow, Rat.cast_ofNat] at h4
      have h5 := (neg_le_abs x).trans (hx.le.trans h4)
      linarith
    · have h2 := EReal.coe_le_coe_iff.1 h
      push_cast at h2
      linarith
  · have h0' := not_lt.1 h0
    have hq : (0:ℝ) ≤ q := by exact_mod_cast h0'
    have h3 := (F64.rel_real hm h0').2
    rw [abs_of_nonneg hq]
    refine h3.trans ?_
    rw [if_neg h0, key_round_false] at h
    split_ifs at h with h1
    · simp at h
    · exact EReal.coe_le_coe_iff.1 h

/-- `x` is within half the size `s` of the center `c` -/
def Within (x c s : ℝ) : Prop := |x - c| ≤ s / 2
/-- the same with the rounding error of the borders -/
def NearlyWithin (x c s : ℝ) : Prop := |x - c| ≤ s / 2 + 2 ^ (-53 : ℤ) * (|c| + s / 2)

/-- one dimension of a box filter on doubles -/
theorem F64.range_check {x c s : F64} (hx : F64.Num x) (hc : F64.Num c) (hs : F64.Num s)
    (h : (2:ℝ) ^ (-1021 : ℤ) ≤ F64.toR s) :
    (Within (F64.toR x) (F64.toR c) (F64.toR s) → (x >=. c - s / lit 2 && x <=. c + s / lit 2) = true) ∧
    ((x >=. c - s / lit 2 && x <=. c + s / lit 2) = true →
      NearlyWithin (F64.toR x) (F64.toR c) (F64.toR s)) := by
  have s0 : 0 < F64.toR s := lt_of_lt_of_le (zpow_pos two_pos _) h
  obtain ⟨b, n, e, hr, hn⟩ := F64.half_exact hs (by rwa [abs_of_pos s0])
  have hxk := hx.key
  have hxl := hx.abs_lt
  obtain ⟨⟨t, m, rfl⟩, hcr⟩ := hc
  have hk1 : F64.key (F64.fin t m - s / lit 2) = rkey (val t m - val b n) := by rw [e]; exact key_sub _ _ _ _
  have hk2 : F64.key (F64.fin t m + s / lit 2) = rkey (val t m + val b n) := by rw [e]; exact key_add _ _ _ _
  have o1 : F64.ok (F64.fin t m - s / lit 2) := by rw [e]; exact ok_sub_fin ⟨_, _, rfl⟩ ⟨_, _, rfl⟩
  have o2 : F64.ok (F64.fin t m + s / lit 2) := by rw [e]; exact ok_add_fin _ _ _ _
  rw [Bool.and_eq_true, KdTree.le_f64 o1 hx.ok, KdTree.le_f64 hx.ok o2, hk1, hk2, hxk]
  rw [real_fin]
  have m1 := val_mult (s := t) hcr.2.2
  have m2 := val_mult (s := b) hr.2.2
  have md := Mult.sub m1 m2
  have ma : Mult (val t m + val b n) := by
    obtain ⟨k, hk⟩ := m1
    obtain ⟨l, hl⟩ := m2
    exact ⟨k + l, by rw [hk, hl]; push_cast; ring⟩
  obtain ⟨⟨u, v, rfl⟩, hxr⟩ := hx
  rw [real_fin] at hxl ⊢
  constructor
  · intro hw
    obtain ⟨w1, w2⟩ := abs_le.1 hw
    rw [← hn] at w1 w2
    have w1' : val t m - val b n ≤ val u v := by
      have : ((val t m - val b n : ℚ) : ℝ) ≤ (val u v : ℚ) := by push_cast; linarith
      exact_mod_cast this
    have w2' : val u v ≤ val t m + val b n := by
      have : ((val u v : ℚ) : ℝ) ≤ ((val t m + val b n : ℚ) : ℝ) := by push_cast; linarith
      exact_mod_cast this
    rw [← rkey_val hxr]
    exact ⟨rkey_mono w1', rkey_mono w2'⟩
  · rintro ⟨g1, g2⟩
    have b1 := F64.rkey_le md hxl g1
    have b2 := F64.le_rkey ma hxl g2
    push_cast at b1 b2
    rw [hn] at b1 b2
    unfold NearlyWithin
    have t1 := abs_sub ((val t m : ℚ) : ℝ) (F64.toR s / 2)
    have t2 := abs_add_le ((val t m : ℚ) : ℝ) (F64.toR s / 2)
    rw [abs_of_pos (half_pos s0)] at t1 t2
    have u0 : (0:ℝ) ≤ 2 ^ (-53 : ℤ) := (zpow_pos two_pos _).le
    have t3 := mul_le_mul_of_nonneg_left t1 u0
    have t4 := mul_le_mul_of_nonneg_left t2 u0
    rw [abs_le]
    constructor <;> linarith

/-- C36, doubles: the box filters allow every point within half a size of the center, and no point further
away than the rounding error of the two borders. -/
theorem c36_box_f64 (b : Box2D F64) (hb : b.center.Num) (hx : F64.Num b.sizeX.val) (hy : F64.Num b.sizeY.val)
    (h1 : (2:ℝ) ^ (-1021 : ℤ) ≤ F64.toR b.sizeX.val) (h2 : (2:ℝ) ^ (-1021 : ℤ) ≤ F64.toR b.sizeY.val)
    (p : Point2D F64) (hp : p.Num) :
    (Within p.real.x b.center.real.x (F64.toR b.sizeX.val) ∧ Within p.real.y b.center.real.y (F64.toR b.sizeY.val) →
      filterBox2D b p = true) ∧
    (filterBox2D b p = true → NearlyWithin p.real.x b.center.real.x (F64.toR b.sizeX.val) ∧
      NearlyWithin p.real.y b.center.real.y (F64.toR b.sizeY.val)) := by
  have c1 := F64.range_check hp.1 hb.1 hx h1
  have c2 := F64.range_check hp.2 hb.2 hy h2
  unfold filterBox2D
  rw [Bool.and_assoc, Bool.and_eq_true]
  exact ⟨fun h => ⟨c1.1 h.1, c2.1 h.2⟩, fun h => ⟨c1.2 h.1, c2.2 h.2⟩⟩

theorem c36_box_f64_3d (b : Box3D F64) (hb : b.center.Num) (hx : F64.Num b.sizeX.val) (hy : F64.Num b.sizeY.val)
    (hz : F64.Num b.sizeZ.val) (h1 : (2:ℝ) ^ (-1021 : ℤ) ≤ F64.toR b.sizeX.val)
    (h2 : (2:ℝ) ^ (-1021 : ℤ) ≤ F64.toR b.sizeY.val) (h3 : (2:ℝ) ^ (-1021 : ℤ) ≤ F64.toR b.sizeZ.val)
    (p : Point3D F64) (hp : p.Num) :
    (Within p.real.x b.center.real.x (F64.toR b.sizeX.val) ∧ Within p.real.y b.center.real.y (F64.toR b.sizeY.val) ∧
      Within p.real.z b.center.real.z (F64.toR b.sizeZ.val) → filterBox3D b p = true) ∧
    (filterBox3D b p = true → NearlyWithin p.real.x b.center.real.x (F64.toR b.sizeX.val) ∧
      NearlyWithin p.real.y b.center.real.y (F64.toR b.sizeY.val) ∧
      NearlyWithin p.real.z b.center.real.z (F64.toR b.sizeZ.val)) := by
  have c1 := F64.range_check hp.1 hb.1 hx h1
  have c2 := F64.range_check hp.2.1 hb.2.1 hy h2
  have c3 := F64.range_check hp.2.2 hb.2.2 hz h3
  unfold filterBox3D
  rw [Bool.and_assoc, Bool.and_eq_true, Bool.and_assoc, Bool.and_eq_true]
  exact ⟨fun h => ⟨⟨c1.1 h.1, c2.1 h.2.1⟩, c3.1 h.2.2⟩, fun h => ⟨c1.2 h.1.1, c2.2 h.1.2, c3.2 h.2⟩⟩

theorem F64.le_num {d r : F64} (hd : NonNeg d) (hr : F64.Num r) (h : (d <=. r) = true) :
    ∃ D, d = .fin false D ∧ (D : ℝ) ≤ F64.toR r := by
  rw [KdTree.le_f64 hd.ok hr.ok, hr.key] at h
  rcases hd with rfl | ⟨n, rfl, -⟩
  · simp [F64.key] at h
  · rw [key_fin_false, EReal.coe_le_coe_iff] at h
    exact ⟨n, rfl, h⟩

theorem F64.not_le_num {r : F64} {D : ℚ} (hr : F64.Num r) (h : (F64.fin false D <=. r) = false) :
    F64.toR r < (D : ℝ) := by
  rw [← Bool.not_eq_true, KdTree.le_f64 F64.noConfusion hr.ok, hr.key, not_le, key_fin_false,
    EReal.coe_lt_coe_iff] at h
  exact h

/-- C36, doubles: what the sphere filter allows is inside the sphere and what it denies is outside, up to
the rounding of the distance. -/
theorem c36_sphere_f64 (s : Sphere F64) (hc : s.center.Num) (hr : F64.Num s.radius.val)
    (p : Point3D F64) (hp : p.Num) :
    (filterSphere s p = true → (1 - 2 ^ (-50 : ℤ)) * √(Spec.sqrDist (at3 p.real) (at3 s.center.real)) ≤
      F64.toR s.radius.val + 2 ^ (-536 : ℤ)) ∧
    (filterSphere s p = false → F64.toR s.radius.val ≤ 2 ^ (511 : ℤ) →
      F64.toR s.radius.val < (1 + 2 ^ (-50 : ℤ)) * √(Spec.sqrDist (at3 p.real) (at3 s.center.real)) +
        2 ^ (-536 : ℤ)) := by
  constructor
  · intro h
    obtain ⟨D, hD, hle⟩ := F64.le_num (Point3D.dist_nonNeg_f64 hp hc) hr h
    have := (abs_le.1 (c92_dist_3d p _ hp hc _ _ hD)).1
    linarith
  · intro h hb
    by_cases hf : ∀ d, |at3 p.real d - at3 s.center.real d| ≤ 2 ^ (511 : ℤ)
    · obtain ⟨D, hD⟩ := c92_finite_3d p _ hp hc hf
      unfold filterSphere at h
      rw [hD] at h
      have h1 := F64.not_le_num hr h
      have := (abs_le.1 (c92_dist_3d p _ hp hc _ _ hD)).2
      linarith
    · push Not at hf
      obtain ⟨d, hd⟩ := hf
      have h1 : |at3 p.real d - at3 s.center.real d| ≤ √(Spec.sqrDist (at3 p.real) (at3 s.center.real)) := by
        rw [← Real.sqrt_sq_eq_abs]
        refine Real.sqrt_le_sqrt ?_
        unfold Spec.sqrDist
        exact Finset.single_le_sum (f := fun i => (at3 p.real i - at3 s.center.real i) ^ 2)
          (fun i _ => sq_nonneg _) (Finset.mem_univ d)
      have h2 : (0:ℝ) < 2 ^ (-50 : ℤ) * √(Spec.sqrDist (at3 p.real) (at3 s.center.real)) :=
        mul_pos (zpow_pos two_pos _) ((zpow_pos two_pos _).trans (hd.trans_le h1))
      have h3 : (0:ℝ) < 2 ^ (-536 : ℤ) := zpow_pos two_pos _
      have h4 := hb.trans_lt (hd.trans_le h1)
      linarith

theorem c36_circle_f64 (s : Circle F64) (hc : s.center.Num) (hr : F64.Num s.radius.val)
    (p : Point2D F64) (hp : p.Num) :
    (filterCircle s p = true → (1 - 2 ^ (-50 : ℤ)) * √(Spec.sqrDist (at2 p.real) (at2 s.center.real)) ≤
      F64.toR s.radius.val + 2 ^ (-536 : ℤ)) ∧
    (filterCircle s p = false → F64.toR s.radius.val ≤ 2 ^ (511 : ℤ) →
      F64.toR s.radius.val < (1 + 2 ^ (-50 : ℤ)) * √(Spec.sqrDist (at2 p.real) (at2 s.center.real)) +
        2 ^ (-536 : ℤ)) := by
  have hnn : NonNeg (p.dist s.center) :=
    sqrt_nonNeg (add_nonNeg (near_sub hp.1 hc.1).nonNeg (near_sub hp.2 hc.2).nonNeg)
  constructor
  · intro h
    obtain ⟨D, hD, hle⟩ := F64.le_num hnn hr h
    have := (abs_le.1 (c92_dist_2d p _ hp hc _ _ hD)).1
    linarith
  · intro h hb
    by_cases hf : ∀ d, |at2 p.real d - at2 s.center.real d| ≤ 2 ^ (511 : ℤ)
    · obtain ⟨D, hD⟩ := c92_finite_2d p _ hp hc hf
      unfold filterCircle at h
      rw [hD] at h
      have h1 := F64.not_le_num hr h
      have := (abs_le.1 (c92_dist_2d p _ hp hc _ _ hD)).2
      linarith
    · push Not at hf
      obtain ⟨d, hd⟩ := hf
      have h1 : |at2 p.real d - at2 s.center.real d| ≤ √(Spec.sqrDist (at2 p.real) (at2 s.center.real)) := by
        rw [← Real.sqrt_sq_eq_abs]
        refine Real.sqrt_le_sqrt ?_
        unfold Spec.sqrDist
        exact Finset.single_le_sum (f := fun i => (at2 p.real i - at2 s.center.real i) ^ 2)
          (fun i _ => sq_nonneg _) (Finset.mem_univ d)
      have h2 : (0:ℝ) < 2 ^ (-50 : ℤ) * √(Spec.sqrDist (at2 p.real) (at2 s.center.real)) :=
        mul_pos (zpow_pos two_pos _) ((zpow_pos two_pos _).trans (hd.trans_le h1))
      have h3 : (0:ℝ) < 2 ^ (-536 : ℤ) := zpow_pos two_pos _
      have h4 := hb.trans_lt (hd.trans_le h1)
      linarith

/-- C25, doubles: the true distance of the point found exceeds that of any other point by at most rounding,
for all points whose computed distance does not overflow. -/
theorem c25_nearest_true_f64 {P : Type} (pos : P → Point3D F64) (pts : List P) (t : KdTree P) (ht : KdTree.Built pos pts t)
    (hnum : ∀ x ∈ pts, (pos x).Num) (q : Point3D F64) (hq : q.Num) :
    ∃ b ∈ pts, t.nearest pos q = some (some b) ∧ ∀ x ∈ pts,
      (∀ d, |at3 q.real d - at3 (pos x).real d| ≤ 2 ^ (511 : ℤ)) →
      (1 - 2 ^ (-50 : ℤ)) * √(Spec.sqrDist (at3 q.real) (at3 (pos b).real)) ≤
        (1 + 2 ^ (-50 : ℤ)) * √(Spec.sqrDist (at3 q.real) (at3 (pos x).real)) + 2 ^ (-535 : ℤ) := by
  obtain ⟨b, hb, h1, h2⟩ := KdTree.c25_nearest_f64 pos pts t ht hnum q hq
  refine ⟨b, hb, h1, fun x hx hf => ?_⟩
  obtain ⟨E, hE⟩ := c92_finite_3d q _ hq (hnum x hx) hf
  have hle := h2 x hx
  have hr : F64.Num (q.dist (pos x)) :=
    ⟨⟨_, _, hE⟩, (Point3D.dist_nonNeg_f64 hq (hnum x hx)).rep⟩
  obtain ⟨D, hD, hDE⟩ := F64.le_num (Point3D.dist_nonNeg_f64 hq (hnum b hb)) hr hle
  rw [hE, real_fin] at hDE
  have a1 := (abs_le.1 (c92_dist_3d q _ hq (hnum b hb) _ _ hD)).1
  have a2 := (abs_le.1 (c92_dist_3d q _ hq (hnum x hx) _ _ hE)).2
  have e : (2:ℝ) ^ (-535 : ℤ) = 2 ^ (-536 : ℤ) + 2 ^ (-536 : ℤ) := by
    rw [show (-535:ℤ) = -536 + 1 by norm_num, zpow_add₀ two_ne_zero, zpow_one]; ring
  have v : ((val false E : ℚ) : ℝ) = E := by simp [val]
  rw [v] at hDE
  rw [e]
  linarith

theorem F64.small_le_three : (2:ℝ) ^ (-1021 : ℤ) ≤ F64.toR (.fin false 3) := by
  rw [F64.num_three.2]
  have : (2:ℝ) ^ (-1021 : ℤ) ≤ 2 ^ (0 : ℤ) := zpow_le_zpow_right₀ one_le_two (by norm_num)
  rw [zpow_zero] at this
  linarith

example : ∃ (b : Box2D F64) (p : Point2D F64), b.center.Num ∧ F64.Num b.sizeX.val ∧ F64.Num b.sizeY.val ∧
    (2:ℝ) ^ (-1021 : ℤ) ≤ F64.toR b.sizeX.val ∧ (2:ℝ) ^ (-1021 : ℤ) ≤ F64.toR b.sizeY.val ∧ p.Num :=
  let t : F64 := .fin false 3
  ⟨⟨⟨t, t⟩, ⟨t⟩, ⟨t⟩⟩, ⟨t, t⟩, ⟨num_three.1, num_three.1⟩, num_three.1, num_three.1, small_le_three, small_le_three,
    num_three.1, num_three.1⟩

example : ∃ (s : Sphere F64) (p : Point3D F64), s.center.Num ∧ F64.Num s.radius.val ∧ p.Num ∧
    F64.toR s.radius.val ≤ 2 ^ (511 : ℤ) :=
  let t : F64 := .fin false 3
  ⟨⟨⟨t, t, t⟩, ⟨t⟩⟩, ⟨t, t, t⟩, ⟨num_three.1, num_three.1, num_three.1⟩, num_three.1,
    ⟨num_three.1, num_three.1, num_three.1⟩, by
      show F64.toR (.fin false 3) ≤ _
      rw [num_three.2]
      refine le_trans ?_ (zpow_le_zpow_right₀ one_le_two (by norm_num : (2:ℤ) ≤ 511) : (2:ℝ) ^ (2 : ℤ) ≤ 2 ^ (511 : ℤ))
      norm_num⟩

/-- C36 violated for doubles: with a center of 2^53 + 2 and a size of 2, the point 2^53 + 4 is 2 away from
the center, more than half the size, and allowed. -/
theorem c36_violated_f64 : ∃ (b : Box2D F64) (p : Point2D F64), b = ⟨⟨F64.ofRat (2 ^ 53 + 2), F64.ofRat 0⟩, ⟨F64.ofRat 2⟩, ⟨F64.ofRat 2⟩⟩ ∧
    p = ⟨F64.ofRat (2 ^ 53 + 4), F64.ofRat 0⟩ ∧ filterBox2D b p = true := by
  refine ⟨_, _, rfl, rfl, ?_⟩
  decide +kernel

/-- a box in three dimensions, a circle and a tree -/
example : ∃ (b : Box3D F64) (c : Circle F64) (t : KdTree (Point3D F64)), b.center.Num ∧ F64.Num b.sizeX.val ∧ F64.Num b.sizeY.val ∧
    F64.Num b.sizeZ.val ∧ (2:ℝ) ^ (-1021 : ℤ) ≤ F64.toR b.sizeZ.val ∧ c.center.Num ∧ F64.Num c.radius.val ∧
    KdTree.Built id [b.center] t ∧ ∀ x ∈ [b.center], (id x : Point3D F64).Num := by
  let t : F64 := .fin false 3
  have n3 : (⟨t, t, t⟩ : Point3D F64).Num := ⟨num_three.1, num_three.1, num_three.1⟩
  exact ⟨⟨⟨t, t, t⟩, ⟨t⟩, ⟨t⟩, ⟨t⟩⟩, ⟨⟨t, t⟩, ⟨t⟩⟩, _, n3, num_three.1, num_three.1, num_three.1, small_le_three,
    ⟨num_three.1, num_three.1⟩, num_three.1, rfl, fun x hx => by rw [List.mem_singleton.1 hx]; exact n3⟩

end R3D

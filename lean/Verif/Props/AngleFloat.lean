import Verif.Props.RayFloat
import Verif.Props.DirectionField
import Verif.Props.RotFloat
import Mathlib.Analysis.SpecialFunctions.Trigonometric.Bounds
import Mathlib.Analysis.Real.Pi.Bounds
/-
C114: the angle between vectors of doubles, and the filter by direction that uses it.
-/
namespace R3D
open Scalar Spec F64

/-- `θ` is the angle between `u` and `v`: the number from 0 to π whose cosine is the scalar product by the lengths -/
def Spec.IsAngle (u v : Point3D ℝ) (θ : ℝ) : Prop :=
  0 ≤ θ ∧ θ ≤ Real.pi ∧ len u * len v * Real.cos θ = u.x * v.x + u.y * v.y + u.z * v.z

/-- what is asked of `acos` of doubles: accurate up to `2^-50` from -1 to 1, no number elsewhere -/
def Spec.GoodAcos (A : Angle F64) : Prop :=
  ∀ x : F64, Num x → (|toR x| ≤ 1 → Num (A.acos x) ∧ |toR (A.acos x) - Real.arccos (toR x)| ≤ 2 ^ (-50 : ℤ)) ∧
    (1 < |toR x| → A.acos x = .nan)

/-- the lengths for which the angle is accurate -/
def Spec.GoodLen (p : Point3D F64) : Prop := 2 ^ (-480 : ℤ) ≤ len p.real ∧ len p.real ≤ 2 ^ (499 : ℤ)

theorem len3_eq (p : Point3D F64) : len3 p = len p.real := by
  unfold len3 Spec.len
  simp [Spec.sqrDist, Fin.sum_univ_three, Point3D.real]

/-- the number handed to `acos` -/
theorem cos_near {A : Angle F64} (p q : Point3D F64) (hp : p.Num) (hq : q.Num) (gp : GoodLen p) (gq : GoodLen q) {θ : ℝ}
    (hθ : IsAngle p.real q.real θ) :
    ∃ x, p.radTo q = some (.ok (A.acos x)) ∧ Num x ∧ |toR x - Real.cos θ| ≤ 2 ^ (-44 : ℤ) := by
  obtain ⟨p1, p2⟩ := gp
  obtain ⟨q1, q2⟩ := gq
  have hw : (2:ℝ) ^ (499 : ℤ) ≤ 2 ^ (500 : ℤ) := zpow_le_zpow_right₀ one_le_two (by norm_num)
  rw [← len3_eq] at p1 p2 q1 q2
  obtain ⟨D, eD, nD, aD, zD⟩ := abs_len_3d p hp p1 (p2.trans hw)
  obtain ⟨E, eE, nE, aE, zE⟩ := abs_len_3d q hq q1 (q2.trans hw)
  have np : NearV p p.real (len3 p) 0 := by
    intro d; have := coord_le_3d p d
    revert d; rw [forall_fin3]
    exact ⟨fun h => Near.self hp.1 h, fun h => Near.self hp.2.1 h, fun h => Near.self hp.2.2 h⟩
  have nq : NearV q q.real (len3 q) 0 := by
    intro d; have := coord_le_3d q d
    revert d; rw [forall_fin3]
    exact ⟨fun h => Near.self hq.1 h, fun h => Near.self hq.2.1 h, fun h => Near.self hq.2.2 h⟩
  have hθ3 := hθ.2.2
  rw [← len3_eq, ← len3_eq] at hθ3
  have lp : 0 < len3 p := lt_of_lt_of_le (zpow_pos two_pos _) p1
  have lq : 0 < len3 q := lt_of_lt_of_le (zpow_pos two_pos _) q1
  have e49 : (2:ℝ) ^ (-49 : ℤ) = 16 * uu := by rw [uu_53]; norm_num
  have e44 : (2:ℝ) ^ (-44 : ℤ) = 512 * uu := by rw [uu_53]; norm_num
  have c1 : (2:ℝ) ^ (-1000 : ℤ) ≤ len3 p * len3 q := by
    have : (2:ℝ) ^ (-1000 : ℤ) ≤ 2 ^ (-480 : ℤ) * 2 ^ (-480 : ℤ) := by
      rw [← zpow_add₀ two_ne_zero]; exact zpow_le_zpow_right₀ one_le_two (by norm_num)
    exact this.trans (mul_le_mul p1 q1 (zpow_pos two_pos _).le lp.le)
  have c2 : len3 p * len3 q ≤ (2:ℝ) ^ (1000 : ℤ) := by
    have : (2:ℝ) ^ (499 : ℤ) * 2 ^ (499 : ℤ) ≤ 2 ^ (1000 : ℤ) := by
      rw [← zpow_add₀ two_ne_zero]; exact zpow_le_zpow_right₀ one_le_two (by norm_num)
    exact (mul_le_mul p2 q2 lq.le (zpow_pos two_pos _).le).trans this
  rw [e49] at aD aE
  have hu := uu_pos
  have u1 : 16 * uu ≤ 1 := by rw [uu_53]; norm_num
  have dN : Near (.fin false D) (len3 p) (len3 p) (16 * uu * len3 p) := ⟨nD, (abs_of_pos lp).le, aD⟩
  have eN : Near (.fin false E) (len3 q) (len3 q) (16 * uu * len3 q) := ⟨nE, (abs_of_pos lq).le, aE⟩
  have mN := dN.mul' eN (by nlinarith) (by nlinarith) c1 c2
  have sN := np.dot nq lp.le lq.le c1 c2
  have hL : 0 < len3 p * len3 q := mul_pos lp lq
  have qN := sN.div mN (c := len3 p * len3 q) (le_abs_self _) (by
    have : uu ≤ 1 / 2 ^ 53 := uu_53.le
    nlinarith) hL (by
    have e : 2 * (3 * (len3 p * len3 q) + (8 * len3 p * 0 + 4 * len3 q * 0 + 64 * uu * (len3 p * len3 q))) / (len3 p * len3 q) = 6 + 128 * uu := by
      field_simp; ring
    rw [e, uu_53]
    have : (2:ℝ) ^ (10 : ℤ) ≤ 2 ^ (1023 : ℤ) := zpow_le_zpow_right₀ one_le_two (by norm_num)
    refine le_trans ?_ this
    norm_num)
  refine ⟨_, ?_, qN.num, ?_⟩
  · unfold Point3D.radTo
    simp only [eD, eE, Option.bind_eq_bind, Option.bind_some]
    rw [if_neg (by rw [zD, zE]; decide)]
    rfl
  · have hdot : p.real.dot q.real / (len3 p * len3 q) = Real.cos θ := by
      rw [div_eq_iff hL.ne', mul_comm (Real.cos θ), hθ3]; rfl
    have h1 := qN.err
    rw [hdot] at h1
    refine h1.trans ?_
    rw [e44]
    have h75 : (2:ℝ) ^ (-1075 : ℤ) ≤ uu := by
      rw [show uu = (2:ℝ) ^ (-53 : ℤ) by rw [uu_53]; norm_num]
      exact zpow_le_zpow_right₀ one_le_two (by norm_num)
    have e : 2 * (8 * len3 p * 0 + 4 * len3 q * 0 + 64 * uu * (len3 p * len3 q)) / (len3 p * len3 q) +
        2 * (3 * (len3 p * len3 q)) * (2 * len3 p * (16 * uu * len3 q) + len3 q * (16 * uu * len3 p) + 5 * uu * (len3 p * len3 q)) /
          (len3 p * len3 q * (len3 p * len3 q)) +
        uu * (2 * (3 * (len3 p * len3 q) + (8 * len3 p * 0 + 4 * len3 q * 0 + 64 * uu * (len3 p * len3 q))) / (len3 p * len3 q)) =
        128 * uu + 318 * uu + uu * (6 + 128 * uu) := by
      field_simp; ring
    rw [e]
    have : uu ≤ 1 / 2 ^ 53 := uu_53.le
    nlinarith

/-- cosines of angles from 0 to π that are close, away from the ends, belong to close angles -/
theorem angle_close {a b : ℝ} (a0 : 0 ≤ a) (a1 : a ≤ Real.pi) (b0 : 0 ≤ b) (b1 : b ≤ Real.pi) :
    Real.sin a * |b - a| ≤ Real.pi * |Real.cos b - Real.cos a| := by
  have hpi := Real.pi_pos
  rw [Real.cos_sub_cos, abs_mul, abs_mul]
  have s0 : 0 ≤ Real.sin ((b + a) / 2) := Real.sin_nonneg_of_nonneg_of_le_pi (by linarith) (by linarith)
  have h1 : Real.sin a ≤ 2 * Real.sin ((b + a) / 2) := by
    have hc := strictConcaveOn_sin_Icc.concaveOn.2 (show b ∈ Set.Icc 0 Real.pi from ⟨b0, b1⟩) (show a ∈ Set.Icc 0 Real.pi from ⟨a0, a1⟩)
      (show (0:ℝ) ≤ 1 / 2 by norm_num) (show (0:ℝ) ≤ 1 / 2 by norm_num) (by norm_num)
    simp only [smul_eq_mul] at hc
    have sb := Real.sin_nonneg_of_nonneg_of_le_pi b0 b1
    rw [show (1:ℝ) / 2 * b + 1 / 2 * a = (b + a) / 2 by ring] at hc
    linarith
  have h2 : |b - a| ≤ Real.pi * |Real.sin ((b - a) / 2)| := by
    have key : ∀ t : ℝ, 0 ≤ t → t ≤ Real.pi / 2 → 2 * t ≤ Real.pi * Real.sin t := by
      intro t t0 t1
      have := Real.mul_le_sin t0 t1
      have := mul_le_mul_of_nonneg_left this hpi.le
      rw [← mul_assoc, mul_div_cancel₀ _ hpi.ne'] at this
      exact this
    rcases le_total a b with h | h
    · have := key ((b - a) / 2) (by linarith) (by linarith)
      rw [abs_of_nonneg (by linarith : 0 ≤ b - a),
        abs_of_nonneg (Real.sin_nonneg_of_nonneg_of_le_pi (by linarith) (by linarith))]
      linarith
    · have := key ((a - b) / 2) (by linarith) (by linarith)
      rw [abs_sub_comm, show (b - a) / 2 = -((a - b) / 2) by ring, Real.sin_neg, abs_neg, abs_of_nonneg (by linarith : 0 ≤ a - b),
        abs_of_nonneg (Real.sin_nonneg_of_nonneg_of_le_pi (by linarith) (by linarith))]
      linarith
  rw [abs_of_nonneg s0, show |(-2:ℝ)| = 2 by norm_num]
  calc Real.sin a * |b - a| ≤ (2 * Real.sin ((b + a) / 2)) * (Real.pi * |Real.sin ((b - a) / 2)|) :=
        mul_le_mul h1 h2 (abs_nonneg _) (by linarith)
    _ = _ := by ring

/-- the condition on the sine, for the cosine -/
theorem cos_inner {θ : ℝ} (h : 2 ^ (-21 : ℤ) ≤ Real.sin θ) : |Real.cos θ| ≤ 1 - 2 ^ (-43 : ℤ) := by
  have h1 := Real.sin_sq_add_cos_sq θ
  have h2 : (2:ℝ) ^ (-21 : ℤ) * 2 ^ (-21 : ℤ) ≤ Real.sin θ * Real.sin θ := mul_le_mul h h (zpow_pos two_pos _).le ((zpow_pos two_pos _).le.trans h)
  refine abs_le_of_sq_le_sq ?_ (by norm_num)
  norm_num at h2 ⊢
  nlinarith

/-- **C114** (angle between vectors of doubles): for finite vectors whose lengths are from `2^-480` to `2^499` the angle never panics nor
fails, and unless they are nearly parallel (the sine of the angle is at least `2^-21`) the result is a finite double that is the angle up to
`2^-42` by the sine. -/
theorem c114_angle {A : Angle F64} (hA : GoodAcos A) (p q : Point3D F64) (hp : p.Num) (hq : q.Num) (gp : GoodLen p) (gq : GoodLen q) {θ : ℝ}
    (hθ : IsAngle p.real q.real θ) : ∃ r, p.radTo q = some (.ok r) ∧
      (2 ^ (-21 : ℤ) ≤ Real.sin θ → Num r ∧ |toR r - θ| ≤ 2 ^ (-42 : ℤ) / Real.sin θ) := by
  obtain ⟨x, e, nx, hx⟩ := cos_near (A := A) p q hp hq gp gq hθ
  refine ⟨_, e, fun hs => ?_⟩
  have hs0 : 0 < Real.sin θ := lt_of_lt_of_le (zpow_pos two_pos _) hs
  have hc := cos_inner hs
  have e43 : (2:ℝ) ^ (-43 : ℤ) = 2 * 2 ^ (-44 : ℤ) := by norm_num
  have hx1 : |toR x| ≤ 1 := by
    have := abs_add_le (Real.cos θ) (toR x - Real.cos θ)
    rw [add_sub_cancel] at this
    have : (0:ℝ) < 2 ^ (-44 : ℤ) := zpow_pos two_pos _
    linarith
  obtain ⟨n, er⟩ := (hA x nx).1 hx1
  refine ⟨n, ?_⟩
  obtain ⟨x0, x1⟩ := abs_le.1 hx1
  have hcl := angle_close hθ.1 hθ.2.1 (Real.arccos_nonneg (toR x)) (Real.arccos_le_pi (toR x))
  rw [Real.cos_arccos x0 x1] at hcl
  rw [le_div_iff₀ hs0]
  have t := abs_add_le (toR (A.acos x) - Real.arccos (toR x)) (Real.arccos (toR x) - θ)
  rw [sub_add_sub_cancel] at t
  have h1 : Real.pi * |toR x - Real.cos θ| ≤ 3.15 * 2 ^ (-44 : ℤ) :=
    mul_le_mul Real.pi_lt_d2.le hx (abs_nonneg _) (by norm_num)
  have h2 : |toR (A.acos x) - Real.arccos (toR x)| * Real.sin θ ≤ 2 ^ (-50 : ℤ) := by
    refine (mul_le_mul er (Real.sin_le_one θ) hs0.le (zpow_pos two_pos _).le).trans (by rw [mul_one])
  have h3 := mul_le_mul_of_nonneg_right t hs0.le
  rw [add_mul] at h3
  norm_num at h1 h2 ⊢
  linarith

/-- **C114** (filter by direction): under the same conditions, and an `eps` of at most π, the filter never panics; it allows a normal whose
angle to the expected direction is smaller than `eps` by `2^-42` by its sine, unless nearly parallel; and denies every normal whose cosine is
smaller than that of `eps` by `2^-43`, even if nearly opposite. -/
theorem c114_filter {A : Angle F64} (hA : GoodAcos A) (field : Point3D F64 → Point3D F64) (eps : F64) (p n : Point3D F64) (hf : (field p).Num)
    (hn : n.Num) (gf : GoodLen (field p)) (gn : GoodLen n) (he : Num eps) (e1 : toR eps ≤ Real.pi) {θ : ℝ}
    (hθ : IsAngle (field p).real n.real θ) : ∃ b, filterDirectionField3D field eps p n = some b ∧
      (2 ^ (-21 : ℤ) ≤ Real.sin θ → θ + 2 ^ (-42 : ℤ) / Real.sin θ ≤ toR eps → b = true) ∧
      (Real.cos θ < Real.cos (toR eps) - 2 ^ (-43 : ℤ) → b = false) := by
  obtain ⟨x, e, nx, hx⟩ := cos_near (A := A) (field p) n hf hn gf gn hθ
  refine ⟨A.acos x <=. eps, ?_, ?_, ?_⟩
  · unfold filterDirectionField3D
    rw [e]; rfl
  · intro hs hle
    obtain ⟨r, er, hr⟩ := c114_angle hA (field p) n hf hn gf gn hθ
    rw [e] at er
    obtain rfl : A.acos x = r := by injection er with er; injection er
    obtain ⟨nr, ar⟩ := hr hs
    rw [num_le nr he]
    linarith [(abs_le.1 ar).2]
  · intro hc
    by_cases h1 : |toR x| ≤ 1
    · obtain ⟨nr, ar⟩ := (hA x nx).1 h1
      rw [Bool.eq_false_iff, Ne, num_le nr he]
      intro hle
      obtain ⟨x0, x1⟩ := abs_le.1 h1
      have h2 : Real.arccos (toR x) ≤ toR eps + 2 ^ (-50 : ℤ) := by linarith [(abs_le.1 ar).1]
      have h3 : Real.cos (toR eps) ≤ toR x + 2 ^ (-50 : ℤ) := by
        rcases le_total (Real.arccos (toR x)) (toR eps) with h | h
        · have := Real.cos_le_cos_of_nonneg_of_le_pi (Real.arccos_nonneg _) e1 h
          rw [Real.cos_arccos x0 x1] at this
          have : (0:ℝ) < 2 ^ (-50 : ℤ) := zpow_pos two_pos _
          linarith
        · have := Real.abs_cos_sub_cos_le (toR eps) (Real.arccos (toR x))
          rw [Real.cos_arccos x0 x1, abs_sub_comm (toR eps), abs_of_nonneg (by linarith : 0 ≤ Real.arccos (toR x) - toR eps)] at this
          linarith [(abs_le.1 this).2]
      have := (abs_le.1 hx).2
      norm_num at *
      linarith
    · rw [(hA x nx).2 (not_le.1 h1)]
      rfl

/-- the double next to a number from 0 to 4, towards zero, on the grid of `2^-50` -/
noncomputable def F64.below4 (x : ℝ) : F64 := .fin false ((⌊x * 2 ^ 50⌋₊ : ℚ) / 2 ^ 50)

theorem F64.below4_spec {x : ℝ} (h0 : 0 ≤ x) (hx : x ≤ 4) : F64.Num (F64.below4 x) ∧ |toR (F64.below4 x) - x| ≤ 2 ^ (-50 : ℤ) := by
  have h0' := mul_nonneg h0 (show (0:ℝ) ≤ 2 ^ 50 by positivity)
  have hk : ⌊x * 2 ^ 50⌋₊ ≤ 2 ^ 52 := by
    have := Nat.floor_le_floor (mul_le_mul_of_nonneg_right hx (show (0:ℝ) ≤ 2 ^ 50 by positivity))
    have e : ⌊(4:ℝ) * 2 ^ 50⌋₊ = 2 ^ 52 := by
      rw [show (4:ℝ) * 2 ^ 50 = ((2 ^ 52 : ℕ) : ℝ) by norm_num]
      exact Nat.floor_natCast _
    rwa [e] at this
  have fl := Nat.floor_le h0'
  have lf := Nat.lt_floor_add_one (x * 2 ^ 50)
  unfold F64.below4
  generalize ⌊x * 2 ^ 50⌋₊ = k at *
  have kq : (k : ℚ) / 2 ^ 50 ≤ 4 := by
    rw [div_le_iff₀ (by positivity)]
    have : (k : ℚ) ≤ ((2 ^ 52 : ℕ) : ℚ) := by exact_mod_cast hk
    refine this.trans (by norm_num)
  refine ⟨Num.mk' ⟨by positivity, lt_of_le_of_lt kq ?_, k, -50, lt_of_le_of_lt hk (by norm_num), by norm_num, ?_⟩, ?_⟩
  · have : (2:ℚ) ^ (3 : ℤ) ≤ 2 ^ (1024 : ℤ) := zpow_le_zpow_right₀ one_le_two (by norm_num)
    refine lt_of_lt_of_le ?_ this
    norm_num
  · rw [zpow_neg, div_eq_mul_inv]; norm_cast
  · have e : (2:ℝ) ^ (-50 : ℤ) = 1 / 2 ^ 50 := by norm_num
    have e1 : (k : ℝ) / 2 ^ 50 ≤ x := by rw [div_le_iff₀ (by positivity)]; exact fl
    have e2 : x ≤ ((k : ℝ) + 1) / 2 ^ 50 := by rw [le_div_iff₀ (by positivity)]; exact lf.le
    rw [add_div] at e2
    rw [real_fin]
    simp only [val]
    push_cast
    rw [e, abs_le]
    constructor <;> simp <;> linarith

/-- `acos` with one rounding towards zero -/
@[instance_reducible] noncomputable def F64.angle : Angle F64 where
  acos x := if |toR x| ≤ 1 then F64.below4 (Real.arccos (toR x)) else .nan
  atan2 y _ := y

/-- the hypothesis on `acos` can be met -/
theorem F64.angle_good : GoodAcos F64.angle := by
  intro x _
  refine ⟨fun h => ?_, fun h => if_neg (not_le.2 h)⟩
  rw [show F64.angle.acos x = F64.below4 (Real.arccos (toR x)) from if_pos h]
  exact F64.below4_spec (Real.arccos_nonneg _) ((Real.arccos_le_pi _).trans (by linarith [Real.pi_lt_d2]))

/-- the hypotheses of `c114_angle` and `c114_filter` are met: the angle of two axes -/
example : ∃ (A : Angle F64) (p q : Point3D F64), GoodAcos A ∧ p.Num ∧ q.Num ∧ GoodLen p ∧ GoodLen q ∧ IsAngle p.real q.real (Real.pi / 2) ∧
    2 ^ (-21 : ℤ) ≤ Real.sin (Real.pi / 2) ∧ ∃ r, p.radTo q = some (.ok r) ∧ |toR r - Real.pi / 2| ≤ 2 ^ (-42 : ℤ) ∧
      ∃ eps, toR eps = 3 ∧ filterDirectionField3D (fun _ => p) eps p q = some true := by
  obtain ⟨n3, e3⟩ := ex_num 3 false 3 (by decide +kernel)
  obtain ⟨n0, e0⟩ := ex_num 0 false 0 (by decide +kernel)
  have v3 : toR (f 3) = 3 := by rw [e3]; norm_num [val]
  have v0 : toR (f 0) = 0 := by rw [e0]; norm_num [val]
  have l1 : len (⟨f 3, f 0, f 0⟩ : Point3D F64).real = 3 := by
    simp only [Spec.len, Point3D.real, v3, v0]
    rw [show (3:ℝ) ^ 2 + 0 ^ 2 + 0 ^ 2 = 3 ^ 2 by norm_num]; exact Real.sqrt_sq (by norm_num)
  have l2 : len (⟨f 0, f 3, f 0⟩ : Point3D F64).real = 3 := by
    simp only [Spec.len, Point3D.real, v3, v0]
    rw [show (0:ℝ) ^ 2 + 3 ^ 2 + 0 ^ 2 = 3 ^ 2 by norm_num]; exact Real.sqrt_sq (by norm_num)
  have b1 : (2:ℝ) ^ (-480 : ℤ) ≤ 3 := (zpow_le_zpow_right₀ one_le_two (by norm_num : (-480 : ℤ) ≤ 0)).trans (by norm_num)
  have b2 : (3:ℝ) ≤ 2 ^ (499 : ℤ) := le_trans (by norm_num) (zpow_le_zpow_right₀ one_le_two (by norm_num : (2 : ℤ) ≤ 499))
  have g1 : GoodLen ⟨f 3, f 0, f 0⟩ := by unfold GoodLen; rw [l1]; exact ⟨b1, b2⟩
  have g2 : GoodLen ⟨f 0, f 3, f 0⟩ := by unfold GoodLen; rw [l2]; exact ⟨b1, b2⟩
  have hpi := Real.pi_pos
  have ha : IsAngle (⟨f 3, f 0, f 0⟩ : Point3D F64).real (⟨f 0, f 3, f 0⟩ : Point3D F64).real (Real.pi / 2) := by
    refine ⟨by linarith, by linarith, ?_⟩
    rw [Real.cos_pi_div_two]
    simp [Point3D.real, v0]
  have hs : (2:ℝ) ^ (-21 : ℤ) ≤ Real.sin (Real.pi / 2) := by rw [Real.sin_pi_div_two]; norm_num
  obtain ⟨r, e, hr⟩ := c114_angle F64.angle_good _ _ ⟨n3, n0, n0⟩ ⟨n0, n3, n0⟩ g1 g2 ha
  have h2 := (hr hs).2
  obtain ⟨b, eb, hb, -⟩ := c114_filter F64.angle_good (fun _ => ⟨f 3, f 0, f 0⟩) (f 3) ⟨f 3, f 0, f 0⟩ ⟨f 0, f 3, f 0⟩ ⟨n3, n0, n0⟩
    ⟨n0, n3, n0⟩ g1 g2 n3 (by rw [v3]; exact Real.pi_gt_three.le) ha
  have hb := hb hs (by
    rw [Real.sin_pi_div_two, v3, div_one]
    have := Real.pi_lt_d2
    norm_num at this ⊢
    linarith)
  subst hb
  rw [Real.sin_pi_div_two, div_one] at h2
  exact ⟨F64.angle, ⟨f 3, f 0, f 0⟩, ⟨f 0, f 3, f 0⟩, F64.angle_good, ⟨n3, n0, n0⟩, ⟨n0, n3, n0⟩, g1, g2, ha, hs, r, e, h2, f 3, v3, eb⟩

end R3D

import Verif.Props.InterpFloat
import Verif.Props.RotFloat
import Mathlib.Analysis.Real.Pi.Bounds
import Mathlib.Analysis.SpecialFunctions.Trigonometric.Bounds
/-!
# C109: cosine interpolation of doubles

The cosine and the constant PI of the platform are a parameter, see `Spec.GoodTrig`.
-/
namespace R3D
open Scalar LawfulScalar Spec F64

/-- the constant PI is off by at most `2^-52` -/
def Spec.GoodPi (T : Trig F64) : Prop := F64.Num T.pi ∧ |toR T.pi - Real.pi| ≤ 2 ^ (-52 : ℤ)

namespace F64

/-- half a cosine wave: the weight of the second neighbour -/
theorem cosine_weight [T : Trig F64] (hT : GoodTrig T) (hP : GoodPi T) {g : F64} {f : ℝ} (hg : Num g) (h0 : 0 ≤ f) (h1 : f ≤ 1)
    (hf : |toR g - f| ≤ 8 * uu) :
    Num ((Scalar.lit 1 - Trig.cos (g * Trig.pi)) / Scalar.lit 2) ∧
      |toR ((Scalar.lit 1 - Trig.cos (g * Trig.pi)) / Scalar.lit 2) - (1 - Real.cos (f * Real.pi)) / 2| ≤ 24 * uu ∧
      (toR g = 0 → |toR ((Scalar.lit 1 - Trig.cos (g * Trig.pi)) / Scalar.lit 2)| ≤ 4 * uu) := by
  have hu := uu_pos
  have hue : uu = 1 / 9007199254740992 := by unfold uu; exact u_small
  have h52 := two52
  obtain ⟨pn, pe⟩ := hP
  rw [h52] at pe
  have hpi3 := Real.pi_gt_three
  have hpi4 := Real.pi_lt_d2
  have hη : (2:ℝ) ^ (-1075 : ℤ) ≤ uu := by
    unfold uu; exact zpow_le_zpow_right₀ one_le_two (by norm_num)
  have hη0 : (0:ℝ) < 2 ^ (-1075 : ℤ) := zpow_pos two_pos _
  have big : (100:ℝ) ≤ 2 ^ (1023 : ℤ) := by
    have := zpow_le_zpow_right₀ (one_le_two (α := ℝ)) (show (7:ℤ) ≤ 1023 by norm_num)
    refine le_trans ?_ this; norm_num
  have hg2 : |toR g| ≤ 11 / 10 := by
    have := abs_add_le (toR g - f) f
    rw [sub_add_cancel, abs_of_nonneg h0] at this
    rw [hue] at hf
    linarith
  have hp2 : |toR T.pi| ≤ 16 / 5 := by
    have := abs_add_le (toR T.pi - Real.pi) Real.pi
    rw [sub_add_cancel, abs_of_pos (by linarith : (0:ℝ) < Real.pi)] at this
    rw [hue] at pe
    linarith
  have hgp : |toR g * toR T.pi| ≤ 4 := by
    rw [abs_mul]
    have := mul_le_mul hg2 hp2 (abs_nonneg _) (by norm_num)
    linarith
  obtain ⟨n1, e1⟩ := toR_mul hg pn (hgp.trans (le_trans (by norm_num) big))
  change _ ≤ uu * _ + _ at e1
  set x := g * T.pi with hx
  obtain ⟨-, -, n2, e2⟩ := hT x n1
  rw [h52] at e2
  have one := lit_nat (k := 1) (by norm_num)
  have two := lit_nat (k := 2) (by norm_num)
  simp only [Nat.cast_one, Nat.cast_ofNat] at one two
  have hc1 : |toR (T.cos x)| ≤ 11 / 10 := by
    have := abs_add_le (toR (T.cos x) - Real.cos (toR x)) (Real.cos (toR x))
    rw [sub_add_cancel] at this
    have h := Real.abs_cos_le_one (toR x)
    rw [hue] at e2
    linarith
  have hs1 : |toR (Scalar.lit 1 : F64) - toR (T.cos x)| ≤ 3 := by
    rw [one.2]
    have := abs_sub (1:ℝ) (toR (T.cos x))
    rw [abs_one] at this
    linarith
  obtain ⟨n3, e3⟩ := toR_sub one.1 n2 (hs1.trans (le_trans (by norm_num) big))
  change _ ≤ uu * _ at e3
  set w := Scalar.lit 1 - T.cos x with hw
  have hw1 : |toR w| ≤ 4 := by
    have := abs_add_le (toR w - (toR (Scalar.lit 1 : F64) - toR (T.cos x))) (toR (Scalar.lit 1 : F64) - toR (T.cos x))
    rw [sub_add_cancel] at this
    have := mul_le_mul_of_nonneg_left hs1 hu.le
    rw [hue] at *
    linarith
  have hw2 : |toR w / toR (Scalar.lit 2 : F64)| ≤ 2 := by
    rw [two.2, abs_div, abs_two]; linarith
  obtain ⟨n4, e4⟩ := toR_div n3 two.1 (by rw [two.2]; norm_num) (hw2.trans (le_trans (by norm_num) big))
  change _ ≤ uu * _ + _ at e4
  change Num (w / Scalar.lit 2) ∧ |toR (w / Scalar.lit 2) - _| ≤ _ ∧ (_ → |toR (w / Scalar.lit 2)| ≤ _)
  set y := w / Scalar.lit 2 with hy
  have s3 := e3.trans (mul_le_mul_of_nonneg_left hs1 hu.le)
  have s4 := e4.trans (add_le_add (mul_le_mul_of_nonneg_left hw2 hu.le) hη)
  have s1 := e1.trans (add_le_add (mul_le_mul_of_nonneg_left hgp hu.le) hη)
  rw [one.2] at s3
  rw [two.2] at s4
  refine ⟨n4, ?_, ?_⟩
  · have hxp : |toR x - f * Real.pi| ≤ 8 * uu * (16 / 5) + 1 * (2 * uu) + 5 * uu := by
      have e : toR x - f * Real.pi = (toR g - f) * toR T.pi + f * (toR T.pi - Real.pi) + (toR x - toR g * toR T.pi) := by ring
      rw [e]
      refine (abs_add_three _ _ _).trans (add_le_add (add_le_add ?_ ?_) (by linarith))
      · rw [abs_mul]; exact mul_le_mul hf hp2 (abs_nonneg _) (by positivity)
      · rw [abs_mul, abs_of_nonneg h0]; exact mul_le_mul h1 pe (abs_nonneg _) (by norm_num)
    have lip : |Real.cos (toR x) - Real.cos (f * Real.pi)| ≤ _ := (Real.abs_cos_sub_cos_le _ _).trans hxp
    rw [abs_le] at *
    constructor <;> linarith
  · intro hz
    have hx0 : |toR x| ≤ uu := by
      rw [hz, zero_mul, abs_zero, mul_zero, zero_add, sub_zero] at e1
      exact e1.trans hη
    have lip := Real.one_sub_sq_div_two_le_cos (x := toR x)
    have hsq : (toR x) ^ 2 ≤ uu := by
      rw [← sq_abs]
      have := mul_le_mul hx0 hx0 (abs_nonneg _) hu.le
      have h1u : uu * uu ≤ uu * 1 := mul_le_mul_of_nonneg_left (by rw [hue]; norm_num) hu.le
      rw [_root_.sq]; linarith
    have hle := Real.cos_le_one (toR x)
    have hs2 : |(1:ℝ) - toR (T.cos x)| ≤ 3 * uu := by
      rw [abs_le] at *
      constructor <;> linarith
    rw [one.2] at e3
    have s5 := e3.trans (mul_le_mul_of_nonneg_left hs2 hu.le)
    have h3 : uu * (3 * uu) ≤ uu * (1 / 100) := mul_le_mul_of_nonneg_left (by rw [hue]; norm_num) hu.le
    have hw3 : |toR w| ≤ 4 * uu := by
      rw [abs_le] at *
      constructor <;> linarith
    have hw4 : |toR w / 2| ≤ 2 * uu := by rw [abs_div, abs_two]; linarith
    rw [two.2] at e4
    have s6 := e4.trans (add_le_add (mul_le_mul_of_nonneg_left hw4 hu.le) hη)
    have h4 : uu * (2 * uu) ≤ uu * (1 / 100) := mul_le_mul_of_nonneg_left (by rw [hue]; norm_num) hu.le
    rw [abs_le] at *
    constructor <;> linarith

/-- the mean of two coordinates with the weights `1 - w` and `w` -/
theorem weighted_mean {p q w : F64} {v M c : ℝ} (hp : Num p) (hq : Num q) (hw : Num w) (bp : |toR p| ≤ M) (bq : |toR q| ≤ M)
    (h0 : 0 ≤ v) (h1 : v ≤ 1) (hc2 : c ≤ 24) (hv : |toR w - v| ≤ c * uu) (hM1 : 2 ^ (-500 : ℤ) ≤ M) (hM2 : M ≤ 2 ^ (500 : ℤ)) :
    Num (p * (Scalar.lit 1 - w) + q * w) ∧
      |toR (p * (Scalar.lit 1 - w) + q * w) - (toR p + v * (toR q - toR p))| ≤ (2 * c + 16) * uu * M := by
  have hu := uu_pos
  have hue : uu = 1 / 9007199254740992 := by unfold uu; exact u_small
  have hM0 : 0 < M := lt_of_lt_of_le (zpow_pos two_pos _) hM1
  have big : 8 * M ≤ 2 ^ (1023 : ℤ) := by
    have e : (2:ℝ) ^ (1023 : ℤ) = 2 ^ (523 : ℤ) * 2 ^ (500 : ℤ) := by rw [← zpow_add₀ two_ne_zero]; norm_num
    rw [e]
    have h8 : (8:ℝ) ≤ 2 ^ (523 : ℤ) := by
      have := zpow_le_zpow_right₀ (one_le_two (α := ℝ)) (show (3:ℤ) ≤ 523 by norm_num)
      refine le_trans ?_ this; norm_num
    exact mul_le_mul h8 hM2 hM0.le (by positivity)
  have big1 : (8:ℝ) ≤ 2 ^ (1023 : ℤ) := by
    have := zpow_le_zpow_right₀ (one_le_two (α := ℝ)) (show (3:ℤ) ≤ 1023 by norm_num)
    refine le_trans ?_ this; norm_num
  have hη : (2:ℝ) ^ (-1075 : ℤ) ≤ uu * M := by
    refine le_trans ?_ (mul_le_mul_of_nonneg_left hM1 hu.le)
    unfold uu
    rw [← zpow_add₀ two_ne_zero]
    exact zpow_le_zpow_right₀ one_le_two (by norm_num)
  have one := lit_nat (k := 1) (by norm_num)
  simp only [Nat.cast_one] at one
  have hcu : c * uu ≤ 1 / 100 := by
    have := mul_le_mul_of_nonneg_right hc2 hu.le
    rw [hue] at *; linarith
  have hw2 : |toR w| ≤ 11 / 10 := by
    have := abs_add_le (toR w - v) v
    rw [sub_add_cancel, abs_of_nonneg h0] at this
    linarith
  have hw3 : |1 - toR w| ≤ 11 / 10 := by
    rw [abs_le] at *; constructor <;> linarith
  obtain ⟨n1, e1⟩ := toR_sub one.1 hw (by rw [one.2]; exact hw3.trans (le_trans (by norm_num) big1))
  change _ ≤ uu * _ at e1
  rw [one.2] at e1
  set z := (Scalar.lit 1 : F64) - w with hz
  have s1 := e1.trans (mul_le_mul_of_nonneg_left hw3 hu.le)
  have hz1 : |toR z - (1 - v)| ≤ (c + 2) * uu := by
    rw [add_mul]
    rw [abs_le] at *; constructor <;> linarith
  have hz2 : |toR z| ≤ 12 / 10 := by
    have : 2 * uu ≤ 1 / 100 := by rw [hue]; norm_num
    rw [add_mul] at hz1
    rw [abs_le] at *; constructor <;> linarith
  have m1 : |toR p * toR z| ≤ 12 / 10 * M := by
    rw [abs_mul, mul_comm (12 / 10) M]; exact mul_le_mul bp hz2 (abs_nonneg _) hM0.le
  have m2 : |toR q * toR w| ≤ 11 / 10 * M := by
    rw [abs_mul, mul_comm (11 / 10) M]; exact mul_le_mul bq hw2 (abs_nonneg _) hM0.le
  obtain ⟨n2, e2⟩ := toR_mul hp n1 (m1.trans (le_trans (by linarith only [hM0]) big))
  obtain ⟨n3, e3⟩ := toR_mul hq hw (m2.trans (le_trans (by linarith only [hM0]) big))
  change _ ≤ uu * _ + _ at e2
  change _ ≤ uu * _ + _ at e3
  have s2 := e2.trans (add_le_add (mul_le_mul_of_nonneg_left m1 hu.le) hη)
  have s3 := e3.trans (add_le_add (mul_le_mul_of_nonneg_left m2 hu.le) hη)
  set a := p * z with ha
  set b := q * w with hb
  have hab : |toR a + toR b| ≤ 5 * M := by
    have : uu * M ≤ 1 / 100 * M := mul_le_mul_of_nonneg_right (by rw [hue]; norm_num) hM0.le
    rw [abs_le] at *; constructor <;> linarith
  obtain ⟨n4, e4⟩ := toR_add n2 n3 (hab.trans (le_trans (by linarith only [hM0]) big))
  change _ ≤ uu * _ at e4
  have s4 := e4.trans (mul_le_mul_of_nonneg_left hab hu.le)
  refine ⟨n4, ?_⟩
  have d1 : |toR p * (toR z - (1 - v))| ≤ M * ((c + 2) * uu) := by
    rw [abs_mul]; exact mul_le_mul bp hz1 (abs_nonneg _) hM0.le
  have d2 : |toR q * (toR w - v)| ≤ M * (c * uu) := by
    rw [abs_mul]; exact mul_le_mul bq hv (abs_nonneg _) hM0.le
  have e : toR (a + b) - (toR p + v * (toR q - toR p)) = (toR (a + b) - (toR a + toR b)) + ((toR a - toR p * toR z) +
      (toR b - toR q * toR w)) + (toR p * (toR z - (1 - v)) + toR q * (toR w - v)) := by ring
  rw [e]
  have t := abs_add_three (toR (a + b) - (toR a + toR b)) ((toR a - toR p * toR z) + (toR b - toR q * toR w))
    (toR p * (toR z - (1 - v)) + toR q * (toR w - v))
  have t1 := abs_add_le (toR a - toR p * toR z) (toR b - toR q * toR w)
  have t2 := abs_add_le (toR p * (toR z - (1 - v))) (toR q * (toR w - v))
  have : 0 < uu * M := by positivity
  linarith

end F64

/-- C109: `interpolate_cosine` with doubles. For a polyline of at most `2^40` points with coordinates of at most `M ≤ 2^500`, a first
segment of at least `2^-400` and between 2 and `2^40` requested points, all requested points except possibly the last one are
returned, no other ones. The `i`-th one belongs to the point after the distance `i / (n - 1)` of the length of the polyline along
it, where the distance is kept up to a relative error of `N 2^-47` of the length of the polyline: its x coordinate is the linear
mean of the neighbours' and its y coordinate the mean along half a cosine wave, up to `2^-46 M`, so that it stays between its
neighbours up to that; the first one is the first point of the polyline, exactly in x and up to `2^-46 M` in y -/
theorem c109_cosine_partial [T : Trig F64] (hT : GoodTrig T) (hP : GoodPi T) (p q : Point2D F64) (t : List (Point2D F64)) (n : Nat)
    (M : ℝ) (hN : (p :: q :: t).length ≤ 2 ^ 40) (hn : 2 ≤ n) (hn2 : n ≤ 2 ^ 40) (hM1 : 2 ^ (-500 : ℤ) ≤ M) (hM2 : M ≤ 2 ^ (500 : ℤ))
    (hc : ∀ c ∈ p :: q :: t, ∀ d, F64.Num (at2 c d) ∧ |toR (at2 c d)| ≤ M) (hd : 2 ^ (-400 : ℤ) ≤ segLen2 p.real q.real) :
    let base := p :: q :: t
    let L := pairSum segLen2 (base.map Point2D.real)
    ∃ pts, interpolateCosine base n = some (.ok pts) ∧ (pts.length = n ∨ pts.length + 1 = n) ∧
      (∃ r, pts.head? = some r ∧ r.real.x = p.real.x ∧ |r.real.y - p.real.y| ≤ 2 ^ (-46 : ℤ) * M) ∧
      ∀ (i : Nat) r, pts[i]? = some r → r.Num ∧ ∃ a b f s, Walk (base.map Point2D.real) s a b f ∧
        |s - i * (L / (n - 1))| ≤ (base.length + 2) * 2 ^ (-47 : ℤ) * L ∧
        |r.real.x - (a.x + f * (b.x - a.x))| ≤ 2 ^ (-46 : ℤ) * M ∧
        |r.real.y - (a.y + (1 - Real.cos (f * Real.pi)) / 2 * (b.y - a.y))| ≤ 2 ^ (-46 : ℤ) * M ∧
        ∀ d, min (at2 a d) (at2 b d) - 2 ^ (-46 : ℤ) * M ≤ at2 r.real d ∧ at2 r.real d ≤ max (at2 a d) (at2 b d) + 2 ^ (-46 : ℤ) * M := by
  intro base L
  have hc' : ∀ c ∈ base, ∀ d, F64.Num (at2 c d) ∧ |toR (at2 c d)| ≤ 2 ^ (500 : ℤ) :=
    fun c h d => ⟨(hc c h d).1, (hc c h d).2.trans hM2⟩
  have hbase2 : ¬ base.length < 2 := by simp [base]
  have hn0 : ¬ n = 0 := by omega
  have hM0 : 0 < M := lt_of_lt_of_le (zpow_pos two_pos _) hM1
  have h46 : (2:ℝ) ^ (-46 : ℤ) = 128 * uu := by unfold uu; rw [u_small]; norm_num
  have h47 : (2:ℝ) ^ (-47 : ℤ) = 64 * uu := by unfold uu; rw [u_small]; norm_num
  have huM : 0 < uu * M := mul_pos uu_pos hM0
  have hle : 2 ^ (-47 : ℤ) * M ≤ 2 ^ (-46 : ℤ) * M := by rw [h46, h47]; linarith only [huM]
  obtain ⟨pts, e, hlen, h⟩ := interpolation_f64 p q t n (fun f p q =>
      let f2 := (Scalar.lit 1 - Trig.cos (f * Trig.pi)) / Scalar.lit 2
      ⟨p.x + f * (q.x - p.x), p.y * (Scalar.lit 1 - f2) + q.y * f2⟩) hN hn hn2 hc' hd
  have mx : ∀ a ∈ base, ∀ b ∈ base, ∀ g f, F64.Num g → 0 ≤ f → f ≤ 1 → |toR g - f| ≤ 8 * uu → _ :=
    fun a ha b hb g f hg f0 f1 fe => mix_err (hc a ha 0).1 (hc b hb 0).1 hg (hc a ha 0).2 (hc b hb 0).2 f0 f1 fe hM1 hM2
  have hmix : ∀ a b t : ℝ, 0 ≤ t → t ≤ 1 → min a b ≤ a + t * (b - a) ∧ a + t * (b - a) ≤ max a b := by
    intro a b t t0 t1
    rcases le_total a b with h | h
    · rw [min_eq_left h, max_eq_right h]
      constructor <;> nlinarith only [t0, t1, h]
    · rw [min_eq_right h, max_eq_left h]
      constructor <;> nlinarith only [t0, t1, h]
  refine ⟨pts, ?_, hlen, ?_, ?_⟩
  · simp only [interpolateCosine, if_neg hbase2, if_neg hn0]
    rw [← e]
  · have hi : 0 < pts.length := by omega
    obtain ⟨a, ha, b, hb, g, f, s, hr, hg, f0, f1, fe, -, -, hz⟩ := h 0 pts[0] (List.getElem?_eq_getElem hi)
    refine ⟨pts[0], by rw [List.head?_eq_getElem?, List.getElem?_eq_getElem hi], ?_⟩
    obtain ⟨rfl, g0⟩ := hz rfl
    obtain ⟨w1, -, w3⟩ := cosine_weight hT hP hg f0 f1 fe
    have m := weighted_mean (hc a ha 1).1 (hc b hb 1).1 w1 (hc a ha 1).2 (hc b hb 1).2 (v := 0) le_rfl zero_le_one
      (c := 4) (by norm_num) (by rw [sub_zero]; exact w3 g0) hM1 hM2
    rw [hr]
    refine ⟨(mx a ha b hb g f hg f0 f1 fe).2.2 g0, ?_⟩
    have := m.2
    rw [zero_mul, add_zero] at this
    refine this.trans ?_
    rw [h46]
    linarith only [huM]
  · intro i r hr
    obtain ⟨a, ha, b, hb, g, f, s, hr, hg, f0, f1, fe, hw, hs, -⟩ := h i r hr
    obtain ⟨x1, x2, -⟩ := mx a ha b hb g f hg f0 f1 fe
    obtain ⟨w1, w2, -⟩ := cosine_weight hT hP hg f0 f1 fe
    have v0 : 0 ≤ (1 - Real.cos (f * Real.pi)) / 2 := by linarith only [Real.cos_le_one (f * Real.pi)]
    have v1 : (1 - Real.cos (f * Real.pi)) / 2 ≤ 1 := by linarith only [Real.neg_one_le_cos (f * Real.pi)]
    obtain ⟨y1, y2⟩ := weighted_mean (hc a ha 1).1 (hc b hb 1).1 w1 (hc a ha 1).2 (hc b hb 1).2 v0 v1
      (c := 24) (by norm_num) w2 hM1 hM2
    have y3 := y2.trans (show (2 * 24 + 16) * uu * M ≤ 2 ^ (-46 : ℤ) * M by rw [h46]; linarith only [huM])
    have x3 := x2.trans hle
    rw [hr]
    refine ⟨⟨x1, y1⟩, a.real, b.real, f, s, hw, hs, x3, y3, ?_⟩
    rw [Fin.forall_fin_two]
    have bx := hmix (toR a.x) (toR b.x) f f0 f1
    have by' := hmix (toR a.y) (toR b.y) _ v0 v1
    rw [abs_le] at x3 y3
    generalize (2:ℝ) ^ (-46 : ℤ) * M = D at *
    have bnd : ∀ {u v m r : ℝ}, u ≤ m ∧ m ≤ v → -D ≤ r - m ∧ r - m ≤ D → u - D ≤ r ∧ r ≤ v + D :=
      fun h1 h2 => ⟨by linarith only [h1.1, h2.1], by linarith only [h1.2, h2.2]⟩
    exact ⟨bnd bx x3, bnd by' y3⟩

/-- whether a point is found does not depend on what is done with its neighbours -/
theorem walk_isSome {α : Type} [Scalar α] (t : α) (b1 b2 : α → Point2D α → Point2D α → Point2D α) (z : α) (l : List (Point2D α)) :
    (walk t b1 z l).isSome = (walk t b2 z l).isSome := by
  induction l generalizing z with
  | nil => rfl
  | cons p l ih =>
    cases l with
    | nil => rfl
    | cons q l =>
      simp only [walk]
      split
      · rfl
      · exact ih _

theorem length_filterMap_congr {β γ δ : Type} (g : β → Option γ) (k : β → Option δ) (l : List β) (h : ∀ x, (g x).isSome = (k x).isSome) :
    (l.filterMap g).length = (l.filterMap k).length := by
  induction l with
  | nil => rfl
  | cons x t ih =>
    have := h x
    rw [List.filterMap_cons, List.filterMap_cons]
    cases hg : g x <;> cases hk : k x <;> simp_all

/-- C109 violated: the last point can be missing, whatever sine, cosine and PI are: 26 points along a segment of the length 7 -/
theorem c109_violated_last [T : Trig F64] : ∃ pts, interpolateCosine [⟨f 0, f 0⟩, ⟨f 7, f 0⟩] 26 = some (.ok pts) ∧
    pts.length = 25 := by
  obtain ⟨pts, h1, h2, -⟩ := c78_violated_last
  simp only [interpolationLinear, if_neg (show ¬ ([⟨f 0, f 0⟩, ⟨f 7, f 0⟩] : List (Point2D F64)).length < 2 by simp), if_neg (show ¬ 26 = 0 by norm_num),
    Option.some.injEq, Except.ok.injEq] at h1
  simp only [interpolateCosine, if_neg (show ¬ ([⟨f 0, f 0⟩, ⟨f 7, f 0⟩] : List (Point2D F64)).length < 2 by simp), if_neg (show ¬ 26 = 0 by norm_num)]
  refine ⟨_, rfl, ?_⟩
  rw [← h2, ← h1]
  exact length_filterMap_congr _ _ _ fun _ => walk_isSome _ _ _ _ _

/-- the constants of the platform: sine and cosine with one rounding, `std::f64::consts::PI` -/
@[instance_reducible] noncomputable def F64.trigPi : Trig F64 := { F64.trig with pi := f (884279719003555 / 281474976710656) }

theorem F64.trigPi_good : GoodTrig F64.trigPi ∧ GoodPi F64.trigPi := by
  refine ⟨F64.trig_good, ?_⟩
  have a := ex_num (884279719003555 / 281474976710656) false (884279719003555 / 281474976710656) (by decide +kernel)
  simp only [F64.val] at a
  norm_num at a
  refine ⟨a.1, ?_⟩
  change |toR (f (884279719003555 / 281474976710656)) - Real.pi| ≤ _
  rw [a.2, abs_le]
  have h1 := Real.pi_gt_d20
  have h2 := Real.pi_lt_d20
  norm_num at h1 h2 ⊢
  constructor <;> linarith

/-- the conditions hold for a polyline through (0, 0), (3, 4) and (-3, 4) -/
example (n : Nat) (h2 : 2 ≤ n) (hn : n ≤ 2 ^ 40) : ∃ (_ : Trig F64) (pts : _), interpolateCosine [⟨f 0, f 0⟩, ⟨f 3, f 4⟩, ⟨f (-3), f 4⟩] n = some (.ok pts) ∧
    (pts.length = n ∨ pts.length + 1 = n) := by
  have a0 := ex_num 0 false 0 (by decide +kernel)
  have a1 := ex_num 3 false 3 (by decide +kernel)
  have a2 := ex_num 4 false 4 (by decide +kernel)
  have a3 := ex_num (-3) true 3 (by decide +kernel)
  simp only [F64.val] at a0 a1 a2 a3
  norm_num at a0 a1 a2 a3
  obtain ⟨pts, h1, h2, -⟩ := c109_cosine_partial (T := F64.trigPi) F64.trigPi_good.1 F64.trigPi_good.2 ⟨f 0, f 0⟩ ⟨f 3, f 4⟩ [⟨f (-3), f 4⟩] n 4 (by simp) h2 hn
    (by
      have : (2:ℝ) ^ (-500 : ℤ) ≤ 1 := zpow_le_one_of_nonpos₀ one_le_two (by norm_num)
      linarith only [this])
    (by
      have := zpow_le_zpow_right₀ (one_le_two (α := ℝ)) (show (2:ℤ) ≤ 500 by norm_num)
      refine le_trans ?_ this; norm_num)
    (by
      intro c hc
      simp only [List.mem_cons, List.not_mem_nil, or_false] at hc
      rw [Fin.forall_fin_two]
      rcases hc with rfl | rfl | rfl <;> simp only [at2_zero, at2_one] <;> refine ⟨⟨?_, ?_⟩, ?_, ?_⟩ <;>
        first | exact a0.1 | exact a1.1 | exact a2.1 | exact a3.1
              | (rw [a0.2]; norm_num) | (rw [a1.2]; norm_num) | (rw [a2.2]; norm_num) | (rw [a3.2]; norm_num))
    (by
      have : segLen2 (Point2D.real ⟨f 0, f 0⟩) (Point2D.real ⟨f 3, f 4⟩) = 5 := by
        simp only [segLen2, Spec.sqrDist, Fin.sum_univ_two, at2_zero, at2_one, Point2D.real, a0.2, a1.2, a2.2]
        rw [show ((0:ℝ) - 3) ^ 2 + (0 - 4) ^ 2 = 5 ^ 2 by norm_num]
        exact Real.sqrt_sq (by norm_num)
      rw [this]
      have : (2:ℝ) ^ (-400 : ℤ) ≤ 1 := zpow_le_one_of_nonpos₀ one_le_two (by norm_num)
      linarith only [this])
  exact ⟨F64.trigPi, pts, h1, h2⟩

end R3D

import Verif.Lemmas.F64Scaled
import Verif.Props.DouglasPeucker
import Verif.Props.DistFloat
/-!
C127: simplifying lines of doubles.
-/
namespace R3D
open Scalar Spec F64

/-- numerator of the foot's x -/
def footNum {α : Type} [Scalar α] (p l1 l2 : Point2D α) : α :=
  l1.x * l1.x * p.x - l1.x * l1.y * l2.y + l1.x * l1.y * p.y - lit 2 * l1.x * l2.x * p.x + l1.x * l2.y * l2.y
      - l1.x * l2.y * p.y + l1.y * l1.y * l2.x - l1.y * l2.x * l2.y - l1.y * l2.x * p.y + l2.x * l2.x * p.x
      + l2.x * l2.y * p.y

/-- denominator of the foot's x -/
def footDen {α : Type} [Scalar α] (l1 l2 : Point2D α) : α :=
  l1.x * l1.x - lit 2 * l1.x * l2.x + l1.y * l1.y - lit 2 * l1.y * l2.y + l2.x * l2.x + l2.y * l2.y

/-- x and y of the foot -/
def footX {α : Type} [Scalar α] (p l1 l2 : Point2D α) : α := footNum p l1 l2 / footDen l1 l2
def footY {α : Type} [Scalar α] (p l1 l2 : Point2D α) : α :=
  ((l1.y - l2.y) * footX p l1 l2 + l1.x * l2.y - l1.y * l2.x) / (l1.x - l2.x)

theorem distancePointLine_foot {α : Type} [Scalar α] (p a b : Point2D α) :
    distancePointLine p a b = (Point2D.mk (footX p a b) (footY p a b)).dist p := rfl

section
variable {M : ℝ} {p a b : Point2D F64}

/-- the range in which neither overflow nor underflow matter -/
structure Mid (M : ℝ) : Prop where
  lo : 2 ^ (-190 : ℤ) ≤ M
  hi : M ≤ 2 ^ (190 : ℤ)

theorem Mid.pos (h : Mid M) : 0 < M := lt_of_lt_of_le (by positivity) h.lo

theorem Mid.sq_lo (h : Mid M) : (2:ℝ) ^ (-1021 : ℤ) ≤ M * M := by
  have := mul_le_mul h.lo h.lo (by positivity) h.pos.le
  rw [← zpow_add₀ two_ne_zero] at this
  exact (zpow_le_zpow_right₀ one_le_two (by norm_num)).trans this

theorem Mid.cu_lo (h : Mid M) : (2:ℝ) ^ (-1021 : ℤ) ≤ M * M * M := by
  have h2 := mul_le_mul h.lo h.lo (by positivity) h.pos.le
  have := mul_le_mul h2 h.lo (by positivity) (mul_nonneg h.pos.le h.pos.le)
  rw [← zpow_add₀ two_ne_zero, ← zpow_add₀ two_ne_zero] at this
  exact (zpow_le_zpow_right₀ one_le_two (by norm_num)).trans this

theorem two_pow_split {c : ℝ} {e : ℤ} (hc : c ≤ 2 ^ (10 : ℤ)) (he : e ≤ 1013) {S : ℝ} (hS : S ≤ 2 ^ e) (h0 : 0 ≤ S) : c * S ≤ 2 ^ (1023 : ℤ) := by
  have h1 : c * S ≤ 2 ^ (10 : ℤ) * 2 ^ e := mul_le_mul hc hS h0 (by positivity)
  rw [← zpow_add₀ two_ne_zero] at h1
  exact h1.trans (zpow_le_zpow_right₀ one_le_two (by omega))

theorem Mid.one_hi (h : Mid M) {c : ℝ} (hc : c ≤ 2 ^ (10 : ℤ)) : c * M ≤ 2 ^ (1023 : ℤ) :=
  two_pow_split hc (by norm_num) h.hi h.pos.le

theorem Mid.sq_hi (h : Mid M) {c : ℝ} (hc : c ≤ 2 ^ (10 : ℤ)) : c * (M * M) ≤ 2 ^ (1023 : ℤ) := by
  have := mul_le_mul h.hi h.hi h.pos.le (by positivity)
  rw [← zpow_add₀ two_ne_zero] at this
  exact two_pow_split hc (by norm_num) this (mul_nonneg h.pos.le h.pos.le)

theorem Mid.cu_hi (h : Mid M) {c : ℝ} (hc : c ≤ 2 ^ (10 : ℤ)) : c * (M * M * M) ≤ 2 ^ (1023 : ℤ) := by
  have h2 := mul_le_mul h.hi h.hi h.pos.le (by positivity)
  have := mul_le_mul h2 h.hi h.pos.le (by positivity)
  rw [← zpow_add₀ two_ne_zero, ← zpow_add₀ two_ne_zero] at this
  exact two_pow_split hc (by norm_num) this (mul_nonneg (mul_nonneg h.pos.le h.pos.le) h.pos.le)

theorem ten_pow : (2:ℝ) ^ (10 : ℤ) = 1024 := by norm_num

/-- products of two coordinates -/
theorem sc_mul2 (hM : Mid M) {u v : F64} {x y α k : ℝ} (hu : Sc u x M α k) (hv : Sc v y M 1 0) (hα : 0 ≤ α) (hα2 : α ≤ 4) (hk0 : 0 ≤ k) (hk : k ≤ 100) :
    Sc (u * v) (x * y) (M * M) α (k + α + 1) := by
  have h1 := hM.sq_hi (c := α * 1 + 1) (by rw [ten_pow]; linarith)
  exact Sc.mul hu hv hM.pos.le hM.pos.le hα zero_le_one hk0 le_rfl (by norm_num; linarith) h1 hM.sq_lo (by simp) (by linarith)

theorem sc_mul3 (hM : Mid M) {u v : F64} {x y α k : ℝ} (hu : Sc u x (M * M) α k) (hv : Sc v y M 1 0) (hα : 0 ≤ α) (hα2 : α ≤ 4) (hk0 : 0 ≤ k) (hk : k ≤ 100) :
    Sc (u * v) (x * y) (M * M * M) α (k + α + 1) := by
  have h1 := hM.cu_hi (c := α * 1 + 1) (by rw [ten_pow]; linarith)
  exact Sc.mul hu hv (mul_nonneg hM.pos.le hM.pos.le) hM.pos.le hα zero_le_one hk0 le_rfl (by norm_num; linarith) h1 hM.cu_lo (by simp) (by linarith)

theorem sc_two (hM : Mid M) {v : F64} {y : ℝ} (hv : Sc v y M 1 0) : Sc (lit 2 * v) (2 * y) M 2 3 := by
  have h2 : Sc (lit 2 : F64) 2 1 2 0 := by
    have := Near.self (X := 2) num_two (by rw [toR_two]; norm_num)
    rw [toR_two] at this
    exact this.mono (by norm_num) (by norm_num)
  have h1 := hM.one_hi (c := 2 * 1 + 1) (by rw [ten_pow]; norm_num)
  have l : (2:ℝ) ^ (-1021 : ℤ) ≤ 1 * M := by
    rw [one_mul]; exact (zpow_le_zpow_right₀ one_le_two (by norm_num)).trans hM.lo
  have := Sc.mul (γ := 2) (m := 3) h2 hv zero_le_one hM.pos.le (by norm_num) zero_le_one le_rfl le_rfl (by norm_num) (by rw [one_mul]; exact h1) l (by norm_num) (by norm_num)
  rwa [one_mul] at this

/-- every coordinate is at most `M` -/
def Spec.Sized (M : ℝ) (p : Point2D F64) : Prop := p.Num ∧ |toR p.x| ≤ M ∧ |toR p.y| ≤ M

theorem footNum_near (hM : Mid M) (hp : Sized M p) (ha : Sized M a) (hb : Sized M b) :
    Sc (footNum p a b) (footNum p.real a.real b.real) (M * M * M) 12 132 := by
  obtain ⟨⟨np1, np2⟩, p1, p2⟩ := hp
  obtain ⟨⟨na1, na2⟩, a1, a2⟩ := ha
  obtain ⟨⟨nb1, nb2⟩, b1, b2⟩ := hb
  have c1 := Sc.self np1 p1
  have c2 := Sc.self np2 p2
  have x1 := Sc.self na1 a1
  have x2 := Sc.self na2 a2
  have y1 := Sc.self nb1 b1
  have y2 := Sc.self nb2 b2
  have h0 := (mul_pos (mul_pos hM.pos hM.pos) hM.pos).le
  have tri : ∀ {u v w : F64}, Sc u (toR u) M 1 0 → Sc v (toR v) M 1 0 → Sc w (toR w) M 1 0 →
      Sc (u * v * w) (toR u * toR v * toR w) (M * M * M) 1 4 := by
    intro u v w hu hv hw
    have h2 := sc_mul2 hM hu hv zero_le_one (by norm_num) le_rfl (by norm_num)
    have h3 := sc_mul3 hM h2 hw zero_le_one (by norm_num) (by norm_num) (by norm_num)
    exact h3.mono le_rfl (by norm_num)
  have t4 : Sc (lit 2 * a.x * b.x * p.x) (2 * toR a.x * toR b.x * toR p.x) (M * M * M) 2 9 := by
    have h1 := sc_two hM x1
    have h2 := sc_mul2 hM h1 y1 (by norm_num) (by norm_num) (by norm_num) (by norm_num)
    have h3 := sc_mul3 hM h2 c1 (by norm_num) (by norm_num) (by norm_num) (by norm_num)
    exact h3.mono le_rfl (by norm_num)
  have big : ∀ c : ℝ, c ≤ 1024 → c * (M * M * M) ≤ 2 ^ (1023 : ℤ) := fun c hc => hM.cu_hi (by rw [ten_pow]; exact hc)
  have s2 := Sc.sub (γ := 2) (m := 11) (tri x1 x1 c1) (tri x1 x2 y2) h0 (by norm_num) (big _ (by norm_num)) (by norm_num) (by norm_num)
  have s3 := Sc.add (γ := 3) (m := 19) s2 (tri x1 x2 c2) h0 (by norm_num) (big _ (by norm_num)) (by norm_num) (by norm_num)
  have s4 := Sc.sub (γ := 5) (m := 34) s3 t4 h0 (by norm_num) (big _ (by norm_num)) (by norm_num) (by norm_num)
  have s5 := Sc.add (γ := 6) (m := 45) s4 (tri x1 y2 y2) h0 (by norm_num) (big _ (by norm_num)) (by norm_num) (by norm_num)
  have s6 := Sc.sub (γ := 7) (m := 57) s5 (tri x1 y2 c2) h0 (by norm_num) (big _ (by norm_num)) (by norm_num) (by norm_num)
  have s7 := Sc.add (γ := 8) (m := 70) s6 (tri x2 x2 y1) h0 (by norm_num) (big _ (by norm_num)) (by norm_num) (by norm_num)
  have s8 := Sc.sub (γ := 9) (m := 84) s7 (tri x2 y1 y2) h0 (by norm_num) (big _ (by norm_num)) (by norm_num) (by norm_num)
  have s9 := Sc.sub (γ := 10) (m := 99) s8 (tri x2 y1 c2) h0 (by norm_num) (big _ (by norm_num)) (by norm_num) (by norm_num)
  have s10 := Sc.add (γ := 11) (m := 115) s9 (tri y1 y1 c1) h0 (by norm_num) (big _ (by norm_num)) (by norm_num) (by norm_num)
  have s11 := Sc.add (γ := 12) (m := 132) s10 (tri y1 y2 c2) h0 (by norm_num) (big _ (by norm_num)) (by norm_num) (by norm_num)
  have e : footNum p.real a.real b.real = toR a.x * toR a.x * toR p.x - toR a.x * toR a.y * toR b.y + toR a.x * toR a.y * toR p.y
      - 2 * toR a.x * toR b.x * toR p.x + toR a.x * toR b.y * toR b.y - toR a.x * toR b.y * toR p.y + toR a.y * toR a.y * toR b.x
      - toR a.y * toR b.x * toR b.y - toR a.y * toR b.x * toR p.y + toR b.x * toR b.x * toR p.x + toR b.x * toR b.y * toR p.y := by
    simp only [footNum, Real.scalar_lit, Rat.cast_ofNat]; rfl
  rw [e]
  exact s11

theorem footDen_near (hM : Mid M) (ha : Sized M a) (hb : Sized M b) :
    Sc (footDen a b) (footDen a.real b.real) (M * M) 8 53 := by
  obtain ⟨⟨na1, na2⟩, a1, a2⟩ := ha
  obtain ⟨⟨nb1, nb2⟩, b1, b2⟩ := hb
  have x1 := Sc.self na1 a1
  have x2 := Sc.self na2 a2
  have y1 := Sc.self nb1 b1
  have y2 := Sc.self nb2 b2
  have h0 := (mul_pos hM.pos hM.pos).le
  have two : ∀ {u v : F64}, Sc u (toR u) M 1 0 → Sc v (toR v) M 1 0 → Sc (u * v) (toR u * toR v) (M * M) 1 2 := by
    intro u v hu hv
    exact (sc_mul2 hM hu hv zero_le_one (by norm_num) le_rfl (by norm_num)).mono le_rfl (by norm_num)
  have dbl : ∀ {u v : F64}, Sc u (toR u) M 1 0 → Sc v (toR v) M 1 0 → Sc (lit 2 * u * v) (2 * toR u * toR v) (M * M) 2 6 := by
    intro u v hu hv
    exact (sc_mul2 hM (sc_two hM hu) hv (by norm_num) (by norm_num) (by norm_num) (by norm_num)).mono le_rfl (by norm_num)
  have big : ∀ c : ℝ, c ≤ 1024 → c * (M * M) ≤ 2 ^ (1023 : ℤ) := fun c hc => hM.sq_hi (by rw [ten_pow]; exact hc)
  have s2 := Sc.sub (γ := 3) (m := 12) (two x1 x1) (dbl x1 y1) h0 (by norm_num) (big _ (by norm_num)) (by norm_num) (by norm_num)
  have s3 := Sc.add (γ := 4) (m := 19) s2 (two x2 x2) h0 (by norm_num) (big _ (by norm_num)) (by norm_num) (by norm_num)
  have s4 := Sc.sub (γ := 6) (m := 32) s3 (dbl x2 y2) h0 (by norm_num) (big _ (by norm_num)) (by norm_num) (by norm_num)
  have s5 := Sc.add (γ := 7) (m := 42) s4 (two y1 y1) h0 (by norm_num) (big _ (by norm_num)) (by norm_num) (by norm_num)
  have s6 := Sc.add (γ := 8) (m := 53) s5 (two y2 y2) h0 (by norm_num) (big _ (by norm_num)) (by norm_num) (by norm_num)
  have e : footDen a.real b.real = toR a.x * toR a.x - 2 * toR a.x * toR b.x + toR a.y * toR a.y - 2 * toR a.y * toR b.y
      + toR b.x * toR b.x + toR b.y * toR b.y := by
    simp only [footDen, Real.scalar_lit, Rat.cast_ofNat]; rfl
  rw [e]
  exact s6

/-! the exact foot -/

theorem footDen_real (a b : Point2D ℝ) : footDen a b = (a.x - b.x) ^ 2 + (a.y - b.y) ^ 2 := by
  simp only [footDen, Real.scalar_lit, Rat.cast_ofNat]; ring

/-- parameter of the foot on the line -/
noncomputable def footT (p a b : Point2D ℝ) : ℝ :=
  ((p.x - a.x) * (b.x - a.x) + (p.y - a.y) * (b.y - a.y)) / footDen a b

theorem footDen_pos {a b : Point2D ℝ} (hab : a.x ≠ b.x) : 0 < footDen a b := by
  rw [footDen_real]
  have := sq_nonneg (a.y - b.y)
  have : 0 < (a.x - b.x) ^ 2 := by have := sub_ne_zero.2 hab; positivity
  linarith

theorem footX_real {p a b : Point2D ℝ} (hab : a.x ≠ b.x) : footX p a b = a.x + footT p a b * (b.x - a.x) := by
  have hD := (footDen_pos hab).ne'
  unfold footX footT
  rw [div_eq_iff hD, add_mul, mul_comm _ (b.x - a.x), mul_assoc, div_mul_cancel₀ _ hD, footDen_real]
  simp only [footNum, Real.scalar_lit, Rat.cast_ofNat]
  ring

theorem footY_real {p a b : Point2D ℝ} (hab : a.x ≠ b.x) : footY p a b = a.y + footT p a b * (b.y - a.y) := by
  have hx : a.x - b.x ≠ 0 := sub_ne_zero.2 hab
  unfold footY
  rw [div_eq_iff hx, footX_real hab]
  ring

theorem footT_sq {p a b : Point2D ℝ} (hab : a.x ≠ b.x) :
    footT p a b ^ 2 * footDen a b ≤ (p.x - a.x) ^ 2 + (p.y - a.y) ^ 2 := by
  have hD := footDen_pos hab
  unfold footT
  rw [div_pow, div_mul_eq_mul_div, div_le_iff₀ (by positivity), footDen_real, pow_two (_ + _ : ℝ)]
  rw [footDen_real] at hD
  nlinarith [mul_nonneg hD.le (sq_nonneg ((p.x - a.x) * (b.y - a.y) - (p.y - a.y) * (b.x - a.x)))]

theorem foot_le {p a b : Point2D ℝ} (hab : a.x ≠ b.x) (h : ∀ q ∈ [p, a, b], |q.x| ≤ M ∧ |q.y| ≤ M) :
    |footX p a b| ≤ 4 * M ∧ |footY p a b| ≤ 4 * M := by
  have ht := footT_sq (p := p) hab
  rw [footDen_real] at ht
  obtain ⟨p1, p2⟩ := h p (by simp)
  obtain ⟨a1, a2⟩ := h a (by simp)
  have hM : 0 ≤ M := (abs_nonneg _).trans a1
  have d : ∀ {u v : ℝ}, |u| ≤ M → |v| ≤ M → (u - v) ^ 2 ≤ 4 * M ^ 2 := by
    intro u v hu hv
    have := (abs_sub u v).trans (add_le_add hu hv)
    rw [← sq_abs (u - v)]
    nlinarith [abs_nonneg (u - v)]
  have e1 := d p1 a1
  have e2 := d p2 a2
  have k : ∀ c : ℝ, c ^ 2 ≤ (a.x - b.x) ^ 2 + (a.y - b.y) ^ 2 → |footT p a b * c| ≤ 3 * M := by
    intro c hc
    refine abs_le_of_sq_le_sq ?_ (by linarith)
    have := mul_le_mul_of_nonneg_left hc (sq_nonneg (footT p a b))
    nlinarith [sq_nonneg M]
  rw [footX_real hab, footY_real hab]
  constructor
  · refine (abs_add_le _ _).trans ?_
    linarith [k (b.x - a.x) (by nlinarith [sq_nonneg (a.y - b.y)])]
  · refine (abs_add_le _ _).trans ?_
    linarith [k (b.y - a.y) (by nlinarith [sq_nonneg (a.x - b.x)])]

/-- the formula over the reals is the distance to the line -/
theorem distancePointLine_real {p a b : Point2D ℝ} (hab : a.x ≠ b.x) :
    NearLine (distancePointLine p a b) a b p ∧ ∀ e, NearLine e a b p → distancePointLine p a b ≤ e := by
  refine ⟨distancePointLine_near p a b hab le_rfl, ?_⟩
  rintro e ⟨s, hs⟩
  refine le_trans ?_ hs
  rw [distancePointLine_foot, Point2D.dist_segLen]
  unfold segLen2
  refine Real.sqrt_le_sqrt ?_
  simp only [Spec.sqrDist, Fin.sum_univ_two, at2_zero, at2_one]
  rw [footX_real hab, footY_real hab]
  have hD := footDen_pos hab
  have ht : footT p a b * footDen a b = (p.x - a.x) * (b.x - a.x) + (p.y - a.y) * (b.y - a.y) := by
    unfold footT; rw [div_mul_cancel₀ _ hD.ne']
  have hd := footDen_real a b
  generalize footT p a b = t at *
  generalize footDen a b = D at *
  have := mul_nonneg hD.le (sq_nonneg (s - t))
  subst hd
  have key : (p.x - (a.x + s * (b.x - a.x))) ^ 2 + (p.y - (a.y + s * (b.y - a.y))) ^ 2 -
      ((p.x - (a.x + t * (b.x - a.x))) ^ 2 + (p.y - (a.y + t * (b.y - a.y))) ^ 2) =
      ((a.x - b.x) ^ 2 + (a.y - b.y) ^ 2) * (s - t) ^ 2 + 2 * (s - t) * (t * ((a.x - b.x) ^ 2 + (a.y - b.y) ^ 2) -
        ((p.x - a.x) * (b.x - a.x) + (p.y - a.y) * (b.y - a.y))) := by ring
  rw [ht, sub_self, mul_zero, add_zero] at key
  linarith only [key, this]

/-! the computed foot -/

theorem footX_near (hM : Mid M) (hp : Sized M p) (ha : Sized M a) (hb : Sized M b) {w : ℝ} (hw : M ≤ 2 ^ 12 * w)
    (hab : w ≤ |toR a.x - toR b.x|) :
    Near (footX p a b) (footX p.real a.real b.real) (4 * M) (1060 * (uu * (M * M * M / (w * w)))) := by
  have hM0 := hM.pos
  have hw0 : 0 < w := by nlinarith only [hw, hM0]
  have hu := uu_pos
  have hab' : a.real.x ≠ b.real.x := by
    intro h
    have : toR a.x - toR b.x = 0 := sub_eq_zero.2 h
    rw [this, abs_zero] at hab
    linarith
  have hw2 : w ≤ 2 * M := by
    refine hab.trans ((abs_sub _ _).trans ?_)
    linarith [ha.2.1, hb.2.1]
  have hn := footNum_near hM hp ha hb
  have hd := footDen_near hM ha hb
  have hQ := (foot_le (M := M) (p := p.real) hab' (by
    intro q hq
    simp only [List.mem_cons, List.not_mem_nil, or_false] at hq
    rcases hq with rfl | rfl | rfl
    exacts [hp.2, ha.2, hb.2])).1
  have hden : w * w ≤ |footDen a.real b.real| := by
    rw [abs_of_pos (footDen_pos hab'), footDen_real]
    have : w * w ≤ (toR a.x - toR b.x) ^ 2 := by
      rw [← sq_abs, pow_two]; exact mul_le_mul hab hab hw0.le (abs_nonneg _)
    have h2 := sq_nonneg (a.real.y - b.real.y)
    exact this.trans (le_add_of_nonneg_right h2)
  have hww : 0 < w * w := mul_pos hw0 hw0
  have hMM : M * M ≤ 2 ^ 24 * (w * w) := by
    have := mul_le_mul hw hw hM0.le (by positivity)
    calc M * M ≤ _ := this
      _ = _ := by ring
  have hu53 := uu_53
  have hε : 2 * (53 * (uu * (M * M))) ≤ w * w := by
    have := mul_le_mul_of_nonneg_left hMM hu.le
    rw [hu53] at this ⊢
    nlinarith only [this, hww]
  have hov : 2 * (12 * (M * M * M) + 132 * (uu * (M * M * M))) / (w * w) ≤ 2 ^ (1023 : ℤ) := by
    rw [div_le_iff₀ hww]
    have h1 : M * M * M ≤ 2 ^ 24 * (w * w) * M := mul_le_mul_of_nonneg_right hMM hM0.le
    have h2 := hM.one_hi (c := 1) (by rw [ten_pow]; norm_num)
    have h4 : uu * (M * M * M) ≤ 1 / 4 * (M * M * M) := mul_le_mul_of_nonneg_right uu_le (by positivity)
    have h5 : M * 2 ^ (40 : ℤ) ≤ 2 ^ (1023 : ℤ) := by
      refine (mul_le_mul_of_nonneg_right hM.hi (by positivity)).trans ?_
      rw [← zpow_add₀ two_ne_zero]
      exact zpow_le_zpow_right₀ one_le_two (by norm_num)
    have h6 := mul_le_mul_of_nonneg_right h5 hww.le
    have e40 : (2:ℝ) ^ (40 : ℤ) = 1099511627776 := by norm_num
    rw [e40] at h6
    generalize (2:ℝ) ^ (1023 : ℤ) = Z at *
    nlinarith only [h1, h4, h6, mul_pos hww hM0]
  refine (Near.div' hn hd hden hε hww hQ hov).mono le_rfl ?_
  have hX1 : M ≤ 4 * (M * M * M / (w * w)) := by
    rw [← mul_div_assoc, le_div_iff₀ hww]
    nlinarith only [mul_le_mul hw2 hw2 hw0.le (by linarith), hM0, mul_pos hM0 hM0]
  have tiny : (2:ℝ) ^ (-1075 : ℤ) ≤ uu * M := by
    have h1 : (2:ℝ) ^ (-243 : ℤ) ≤ uu * M := by
      refine le_trans (le_of_eq ?_) (mul_le_mul_of_nonneg_left hM.lo hu.le)
      unfold uu
      rw [← zpow_add₀ two_ne_zero]; norm_num
    exact (zpow_le_zpow_right₀ one_le_two (by norm_num)).trans h1
  have e1 : 3 * (132 * (uu * (M * M * M))) / (w * w) = 396 * (uu * (M * M * M / (w * w))) := by ring
  have e2 : 3 * (4 * M) * (53 * (uu * (M * M))) / (w * w) = 636 * (uu * (M * M * M / (w * w))) := by ring
  rw [e1, e2]
  have h7 := mul_le_mul_of_nonneg_left hX1 hu.le
  generalize M * M * M / (w * w) = X at *
  generalize (2:ℝ) ^ (-1075 : ℤ) = Z at *
  have hX0 : 0 < X := by linarith only [hX1, hM0]
  have huX := mul_pos hu hX0
  nlinarith only [huX, h7, tiny]

theorem footY_near (hM : Mid M) (hp : Sized M p) (ha : Sized M a) (hb : Sized M b) {w : ℝ} (hw : M ≤ 2 ^ 12 * w)
    (hab : w ≤ |toR a.x - toR b.x|) :
    Near (footY p a b) (footY p.real a.real b.real) (4 * M) (7700 * (uu * (M * M * M * M / (w * w * w)))) := by
  have hM0 := hM.pos
  have hw0 : 0 < w := by nlinarith only [hw, hM0]
  have hu := uu_pos
  have hab' : a.real.x ≠ b.real.x := by
    intro h
    have : toR a.x - toR b.x = 0 := sub_eq_zero.2 h
    rw [this, abs_zero] at hab
    linarith
  have hw2 : w ≤ 2 * M := by
    refine hab.trans ((abs_sub _ _).trans ?_)
    linarith [ha.2.1, hb.2.1]
  have hx := footX_near hM hp ha hb hw hab
  have hQ := (foot_le (M := M) (p := p.real) hab' (by
    intro q hq
    simp only [List.mem_cons, List.not_mem_nil, or_false] at hq
    rcases hq with rfl | rfl | rfl
    exacts [hp.2, ha.2, hb.2])).2
  have hww : 0 < w * w := mul_pos hw0 hw0
  have hMM : M * M ≤ 2 ^ 24 * (w * w) := by
    have := mul_le_mul hw hw hM0.le (by positivity)
    calc M * M ≤ _ := this
      _ = _ := by ring
  have hX1 : M ≤ 4 * (M * M * M / (w * w)) := by
    rw [← mul_div_assoc, le_div_iff₀ hww]
    nlinarith only [mul_le_mul hw2 hw2 hw0.le (by linarith), hM0, mul_pos hM0 hM0]
  have hX2 : M * M * M / (w * w) ≤ 2 ^ 24 * M := by
    rw [div_le_iff₀ hww]
    nlinarith only [mul_le_mul_of_nonneg_right hMM hM0.le]
  have eY : M * M * M * M / (w * w * w) = M * (M * M * M / (w * w)) / w := by
    field_simp
  rw [eY]
  have tiny : (2:ℝ) ^ (-1075 : ℤ) ≤ uu * (M * M) ∧ (2:ℝ) ^ (-1075 : ℤ) ≤ uu * M := by
    have h1 : (2:ℝ) ^ (-433 : ℤ) ≤ uu * (M * M) := by
      refine le_trans (le_of_eq ?_) (mul_le_mul_of_nonneg_left (mul_le_mul hM.lo hM.lo (by positivity) hM0.le) hu.le)
      unfold uu
      rw [← zpow_add₀ two_ne_zero, ← zpow_add₀ two_ne_zero]; norm_num
    have h2 : (2:ℝ) ^ (-243 : ℤ) ≤ uu * M := by
      refine le_trans (le_of_eq ?_) (mul_le_mul_of_nonneg_left hM.lo hu.le)
      unfold uu
      rw [← zpow_add₀ two_ne_zero]; norm_num
    exact ⟨(zpow_le_zpow_right₀ one_le_two (by norm_num)).trans h1, (zpow_le_zpow_right₀ one_le_two (by norm_num)).trans h2⟩
  obtain ⟨tiny2, tiny1⟩ := tiny
  generalize hX : M * M * M / (w * w) = X at *
  have hX0 : 0 < X := by nlinarith only [hX1, hM0]
  have hu53 := uu_53
  have huX : 1060 * (uu * X) ≤ M := by
    have := mul_le_mul_of_nonneg_left hX2 hu.le
    rw [hu53] at this ⊢
    nlinarith only [this, hM0]
  have huM : uu * M ≤ 1 / 2 ^ 40 * M := mul_le_mul_of_nonneg_right (by rw [hu53]; norm_num) hM0.le
  have hMX : M * M ≤ 4 * (M * X) := by nlinarith only [mul_le_mul_of_nonneg_left hX1 hM0.le]
  have huMX := mul_le_mul_of_nonneg_left hMX hu.le
  have sqhi : ∀ c : ℝ, c ≤ 1024 → c * (M * M) ≤ 2 ^ (1023 : ℤ) := fun c hc => hM.sq_hi (by rw [ten_pow]; exact hc)
  have onehi : ∀ c : ℝ, c ≤ 1024 → c * M ≤ 2 ^ (1023 : ℤ) := fun c hc => hM.one_hi (by rw [ten_pow]; exact hc)
  have s1 : Sc (a.y - b.y) (toR a.y - toR b.y) M 2 3 :=
    Sc.sub (Sc.self ha.1.2 ha.2.2) (Sc.self hb.1.2 hb.2.2) hM0.le (by norm_num) (onehi _ (by norm_num)) (by norm_num) (by norm_num)
  have hMM0 := mul_pos hM0 hM0
  have u1 : uu ≤ 1 / 2 ^ 40 := by rw [hu53]; norm_num
  have f1 : (2 * M + 3 * (uu * M)) * (4 * M + 1060 * (uu * X)) ≤ 15 * (M * M) := by
    have g1 : 2 * M + 3 * (uu * M) ≤ 3 * M := by nlinarith only [huM, hM0]
    have g2 : 4 * M + 1060 * (uu * X) ≤ 5 * M := by linarith only [huX]
    calc _ ≤ 3 * M * (5 * M) := mul_le_mul g1 g2 (by positivity) (by positivity)
      _ = _ := by ring
  have s2 := Near.mul s1 hx (f1.trans (sqhi _ (by norm_num)))
  have s2' : Near ((a.y - b.y) * footX p a b) ((toR a.y - toR b.y) * footX p.real a.real b.real) (8 * (M * M)) (2300 * (uu * (M * X))) := by
    refine s2.mono (le_of_eq (by ring)) ?_
    have g1 := mul_le_mul_of_nonneg_left f1 hu.le
    have g2 : 3 * (uu * M) * (1060 * (uu * X)) ≤ uu * (M * X) := by
      have : 3 * (uu * M) * (1060 * (uu * X)) = 3180 * uu * (uu * (M * X)) := by ring
      rw [this]
      have h0 : 0 ≤ uu * (M * X) := by positivity
      have : 3180 * uu ≤ 1 := by rw [hu53]; norm_num
      nlinarith only [mul_le_mul_of_nonneg_right this h0]
    generalize (2:ℝ) ^ (-1075 : ℤ) = Z at *
    nlinarith only [g1, g2, tiny2, huMX, mul_pos hu (mul_pos hM0 hX0)]
  have two : ∀ {u v : F64}, Sc u (toR u) M 1 0 → Sc v (toR v) M 1 0 → Near (u * v) (toR u * toR v) (M * M) (2 * (uu * (M * M))) := by
    intro u v hu hv
    exact (sc_mul2 hM hu hv zero_le_one (by norm_num) le_rfl (by norm_num)).mono (by simp) (by norm_num)
  have huMM : uu * (M * M) ≤ 1 / 2 ^ 40 * (M * M) := mul_le_mul_of_nonneg_right u1 hMM0.le
  have huMX' : 2500 * (uu * (M * X)) ≤ 3 * (M * M) := by
    have := mul_le_mul_of_nonneg_left huX hM0.le
    nlinarith only [this, hMM0]
  have s3 := s2'.add (two (Sc.self ha.1.1 ha.2.1) (Sc.self hb.1.2 hb.2.2))
    (le_trans (by nlinarith only [huMX', huMM, hMM0, mul_pos hu (mul_pos hM0 hX0)]) (sqhi 20 (by norm_num)))
  have s3' := s3.mono (Y := 9 * (M * M)) (ε := 2400 * (uu * (M * X))) (le_of_eq (by ring)) (by
    have g : 8 * (M * M) + 2300 * (uu * (M * X)) + (M * M + 2 * (uu * (M * M))) ≤ 13 * (M * M) := by
      nlinarith only [huMX', huMM, hMM0, mul_pos hu (mul_pos hM0 hX0)]
    have := mul_le_mul_of_nonneg_left g hu.le
    nlinarith only [this, huMX, mul_pos hu (mul_pos hM0 hX0)])
  have s4 := s3'.sub (two (Sc.self ha.1.2 ha.2.2) (Sc.self hb.1.1 hb.2.1))
    (le_trans (by nlinarith only [huMX', huMM, hMM0, mul_pos hu (mul_pos hM0 hX0)]) (sqhi 20 (by norm_num)))
  have s4' := s4.mono (Y := 10 * (M * M)) (ε := 2500 * (uu * (M * X))) (le_of_eq (by ring)) (by
    have g : 9 * (M * M) + 2400 * (uu * (M * X)) + (M * M + 2 * (uu * (M * M))) ≤ 14 * (M * M) := by
      nlinarith only [huMX', huMM, hMM0, mul_pos hu (mul_pos hM0 hX0)]
    have := mul_le_mul_of_nonneg_left g hu.le
    nlinarith only [this, huMX, mul_pos hu (mul_pos hM0 hX0)])
  have s5 := Near.sub_exact (X := 2 * M) ha.1.1 hb.1.1 ((abs_sub _ _).trans (by linarith [ha.2.1, hb.2.1])) (onehi _ (by norm_num))
  have hε : 2 * (uu * (2 * M)) ≤ w := by
    nlinarith only [huM, hw, hw0]
  have hov : 2 * (10 * (M * M) + 2500 * (uu * (M * X))) / w ≤ 2 ^ (1023 : ℤ) := by
    rw [div_le_iff₀ hw0]
    have h5 : M * 2 ^ (20 : ℤ) ≤ 2 ^ (1023 : ℤ) := by
      refine (mul_le_mul_of_nonneg_right hM.hi (by positivity)).trans ?_
      rw [← zpow_add₀ two_ne_zero]
      exact zpow_le_zpow_right₀ one_le_two (by norm_num)
    have h6 := mul_le_mul_of_nonneg_right h5 hw0.le
    have e20 : (2:ℝ) ^ (20 : ℤ) = 1048576 := by norm_num
    rw [e20] at h6
    have h7 := mul_le_mul_of_nonneg_left hw hM0.le
    generalize (2:ℝ) ^ (1023 : ℤ) = Z at *
    nlinarith only [h6, h7, huMX', mul_pos hM0 hw0]
  refine (Near.div' s4' s5 hab hε hw0 hQ hov).mono le_rfl ?_
  have e1 : 3 * (2500 * (uu * (M * X))) / w = 7500 * (uu * (M * X / w)) := by ring
  have e2 : 3 * (4 * M) * (uu * (2 * M)) / w = 24 * (uu * (M * M / w)) := by ring
  have h1 : M * M / w ≤ 4 * (M * X / w) := by
    rw [← mul_div_assoc]
    exact div_le_div_of_nonneg_right hMX hw0.le
  have h2 : M ≤ 2 * (M * M / w) := by
    rw [← mul_div_assoc, le_div_iff₀ hw0]
    nlinarith only [mul_le_mul_of_nonneg_left hw2 hM0.le]
  rw [e1, e2]
  have g1 := mul_le_mul_of_nonneg_left h1 hu.le
  have g2 := mul_le_mul_of_nonneg_left h2 hu.le
  have hK := mul_pos hu (div_pos (mul_pos hM0 hX0) hw0)
  generalize M * X / w = K at *
  generalize M * M / w = L at *
  generalize (2:ℝ) ^ (-1075 : ℤ) = Z at *
  linarith only [g1, g2, tiny1, hK]

/-- moving both coordinates changes a length by at most as much -/
theorem hyp_move (x y x' y' : ℝ) : |√(x * x + y * y) - √(x' * x' + y' * y')| ≤ |x - x'| + |y - y'| := by
  have key : ∀ x y x' y' : ℝ, √(x * x + y * y) ≤ √(x' * x' + y' * y') + (|x - x'| + |y - y'|) := by
    intro x y x' y'
    have h0 := abs_nonneg (x - x')
    have h1 := abs_nonneg (y - y')
    have hs := Real.sqrt_nonneg (x' * x' + y' * y')
    have hsq := Real.mul_self_sqrt (add_nonneg (mul_self_nonneg x') (mul_self_nonneg y'))
    have hx : |x'| ≤ √(x' * x' + y' * y') := Real.abs_le_sqrt (by nlinarith)
    have hy : |y'| ≤ √(x' * x' + y' * y') := Real.abs_le_sqrt (by nlinarith)
    refine Real.sqrt_le_iff.2 ⟨by positivity, ?_⟩
    have ax : x' * (x - x') ≤ √(x' * x' + y' * y') * |x - x'| :=
      (le_abs_self _).trans (by rw [abs_mul]; exact mul_le_mul_of_nonneg_right hx h0)
    have ay : y' * (y - y') ≤ √(x' * x' + y' * y') * |y - y'| :=
      (le_abs_self _).trans (by rw [abs_mul]; exact mul_le_mul_of_nonneg_right hy h1)
    have sx := abs_mul_abs_self (x - x')
    have sy := abs_mul_abs_self (y - y')
    nlinarith only [ax, ay, sx, sy, hsq, mul_nonneg h0 h1]
  rw [abs_le]
  have a := key x y x' y'
  have b := key x' y' x y
  rw [abs_sub_comm x' x, abs_sub_comm y' y] at b
  constructor <;> linarith

/-- how far the computed distance to a line may be off: `M` bounds the coordinates, `w` the width of the line's
base from below -/
noncomputable def Spec.lineErr (M w : ℝ) : ℝ := 2 ^ (-39 : ℤ) * (M * M * M * M / (w * w * w))

theorem distance_near (hM : Mid M) (hp : Sized M p) (ha : Sized M a) (hb : Sized M b) {w : ℝ} (hw : M ≤ 2 ^ 12 * w)
    (hab : w ≤ |toR a.x - toR b.x|) :
    ∃ D : ℚ, distancePointLine p a b = .fin false D ∧
      |(D : ℝ) - distancePointLine p.real a.real b.real| ≤ lineErr M w := by
  have hM0 := hM.pos
  have hw0 : 0 < w := by nlinarith only [hw, hM0]
  have hu := uu_pos
  have hu53 := uu_53
  have hw2 : w ≤ 2 * M := by
    refine hab.trans ((abs_sub _ _).trans ?_)
    linarith [ha.2.1, hb.2.1]
  have hx := footX_near hM hp ha hb hw hab
  have hy := footY_near hM hp ha hb hw hab
  have hK : M * M * M / (w * w) ≤ 2 * (M * M * M * M / (w * w * w)) := by
    have : M * M * M * M / (w * w * w) = M * M * M / (w * w) * (M / w) := by field_simp
    rw [this]
    have h1 : 1 ≤ 2 * (M / w) := by
      rw [← mul_div_assoc, le_div_iff₀ hw0]; linarith
    have h2 : 0 < M * M * M / (w * w) := by positivity
    nlinarith only [mul_le_mul_of_nonneg_left h1 h2.le]
  have hMX : M ≤ 4 * (M * M * M / (w * w)) := by
    rw [← mul_div_assoc, le_div_iff₀ (mul_pos hw0 hw0)]
    nlinarith only [mul_le_mul hw2 hw2 hw0.le (by linarith), hM0, mul_pos hM0 hM0]
  have hK2 : M * M * M * M / (w * w * w) ≤ 2 ^ 36 * M := by
    rw [div_le_iff₀ (by positivity)]
    have h1 := mul_le_mul hw hw hM0.le (by positivity)
    have h2 := mul_le_mul h1 hw hM0.le (by positivity)
    have h3 := mul_le_mul_of_nonneg_right h2 hM0.le
    calc _ ≤ _ := h3
      _ = _ := by ring
  have hK0 : 0 < M * M * M * M / (w * w * w) := by positivity
  have hX0 : 0 < M * M * M / (w * w) := by positivity
  unfold lineErr
  have e39 : (2:ℝ) ^ (-39 : ℤ) = 16384 * uu := by rw [hu53]; norm_num
  rw [e39]
  have hq : (Point2D.mk (footX p a b) (footY p a b)).Num := ⟨hx.num, hy.num⟩
  have tiny : (2:ℝ) ^ (-536 : ℤ) ≤ uu * M := by
    have h2 : (2:ℝ) ^ (-243 : ℤ) ≤ uu * M := by
      refine le_trans (le_of_eq ?_) (mul_le_mul_of_nonneg_left hM.lo hu.le)
      unfold uu
      rw [← zpow_add₀ two_ne_zero]; norm_num
    exact (zpow_le_zpow_right₀ one_le_two (by norm_num)).trans h2
  rw [distancePointLine_foot p a b, distancePointLine_foot p.real a.real b.real]
  have ex := hx.err
  have ey := hy.err
  have lx := hx.le
  have ly := hy.le
  generalize M * M * M * M / (w * w * w) = K at *
  generalize M * M * M / (w * w) = X at *
  have dx1 : |toR (footX p a b) - toR p.x| ≤ 6 * M := by
    have h1 := abs_sub_abs_le_abs_sub (toR (footX p a b)) (footX p.real a.real b.real)
    have h2 := abs_sub (toR (footX p a b)) (toR p.x)
    have h3 : 1060 * (uu * X) ≤ M := by
      rw [hu53]
      nlinarith only [hK, hK2, hM0]
    linarith [hp.2.1]
  have dy1 : |toR (footY p a b) - toR p.y| ≤ 6 * M := by
    have h1 := abs_sub_abs_le_abs_sub (toR (footY p a b)) (footY p.real a.real b.real)
    have h2 := abs_sub (toR (footY p a b)) (toR p.y)
    have h3 : 7700 * (uu * K) ≤ M := by
      rw [hu53]
      nlinarith only [hK2, hM0]
    linarith [hp.2.2]
  have h6 : 6 * M ≤ 2 ^ (511 : ℤ) := by
    have h1 := mul_le_mul (show (6:ℝ) ≤ 2 ^ (3 : ℤ) by norm_num) hM.hi hM0.le (by positivity)
    rw [← zpow_add₀ two_ne_zero] at h1
    exact h1.trans (zpow_le_zpow_right₀ one_le_two (by norm_num))
  obtain ⟨D, hD⟩ := c92_finite_2d _ p hq hp.1 (by
    rw [Fin.forall_fin_two]
    exact ⟨dx1.trans h6, dy1.trans h6⟩)
  refine ⟨D, hD, ?_⟩
  have hacc := c92_dist_2d _ p hq hp.1 _ _ hD
  unfold Accurate at hacc
  have sq1 : Spec.sqrDist (at2 (Point2D.mk (footX p a b) (footY p a b)).real) (at2 p.real) =
      (toR (footX p a b) - toR p.x) * (toR (footX p a b) - toR p.x) + (toR (footY p a b) - toR p.y) * (toR (footY p a b) - toR p.y) := by
    simp only [Spec.sqrDist, Fin.sum_univ_two, at2_zero, at2_one, Point2D.real]
    ring
  have sq2 : (Point2D.mk (footX p.real a.real b.real) (footY p.real a.real b.real)).dist p.real =
      √((footX p.real a.real b.real - toR p.x) * (footX p.real a.real b.real - toR p.x) +
        (footY p.real a.real b.real - toR p.y) * (footY p.real a.real b.real - toR p.y)) := by
    rw [Point2D.dist_segLen]
    unfold segLen2
    congr 1
    simp only [Spec.sqrDist, Fin.sum_univ_two, at2_zero, at2_one, Point2D.real]
    ring
  rw [sq1] at hacc
  rw [sq2]
  have mv := hyp_move (toR (footX p a b) - toR p.x) (toR (footY p a b) - toR p.y)
    (footX p.real a.real b.real - toR p.x) (footY p.real a.real b.real - toR p.y)
  rw [sub_sub_sub_cancel_right, sub_sub_sub_cancel_right] at mv
  have hbig : √((toR (footX p a b) - toR p.x) * (toR (footX p a b) - toR p.x) + (toR (footY p a b) - toR p.y) * (toR (footY p a b) - toR p.y)) ≤ 12 * M := by
    have := hyp_move (toR (footX p a b) - toR p.x) (toR (footY p a b) - toR p.y) 0 0
    simp only [mul_zero, add_zero, Real.sqrt_zero, sub_zero] at this
    exact (le_abs_self _).trans (this.trans (by linarith))
  have e50 : (2:ℝ) ^ (-50 : ℤ) = 8 * uu := by rw [hu53]; norm_num
  rw [e50] at hacc
  generalize √((toR (footX p a b) - toR p.x) * (toR (footX p a b) - toR p.x) + (toR (footY p a b) - toR p.y) * (toR (footY p a b) - toR p.y)) = A at *
  generalize √((footX p.real a.real b.real - toR p.x) * (footX p.real a.real b.real - toR p.x) +
        (footY p.real a.real b.real - toR p.y) * (footY p.real a.real b.real - toR p.y)) = B at *
  generalize (2:ℝ) ^ (-536 : ℤ) = Z at *
  have tri := abs_sub_le (D:ℝ) A B
  have g1 := mul_le_mul_of_nonneg_left hbig hu.le
  have g2 := mul_le_mul_of_nonneg_left hK hu.le
  have g3 := mul_le_mul_of_nonneg_left hMX hu.le
  have g4 := mul_pos hu hK0
  linarith

end

/-- **C127** the computed distance of a point to a line of doubles, and how far it may be off: with coordinates
of size at most `M` (between 2^-190 and 2^190) and a base at least `w ≥ M / 2^12` wide in x, the computed distance is
finite, and it is the euclidean distance to the line up to `2^-39 · M · (M / w)³`. -/
theorem c127_distance {M w : ℝ} {p a b : Point2D F64} (hM : Mid M) (hp : Sized M p) (ha : Sized M a) (hb : Sized M b)
    (hw : M ≤ 2 ^ 12 * w) (hab : w ≤ |toR a.x - toR b.x|) :
    ∃ D : ℚ, distancePointLine p a b = .fin false D ∧ NearLine (D + lineErr M w) a.real b.real p.real ∧
      ∀ e, NearLine e a.real b.real p.real → (D : ℝ) ≤ e + lineErr M w := by
  have hM0 := hM.pos
  have hw0 : 0 < w := by nlinarith only [hw, hM0]
  have hab' : a.real.x ≠ b.real.x := by
    intro h
    have : toR a.x - toR b.x = 0 := sub_eq_zero.2 h
    rw [this, abs_zero] at hab
    linarith
  obtain ⟨D, hD, he⟩ := distance_near hM hp ha hb hw hab
  obtain ⟨⟨s, hs⟩, h2⟩ := distancePointLine_real (p := p.real) hab'
  rw [abs_le] at he
  refine ⟨D, hD, ⟨s, hs.trans (by linarith)⟩, ?_⟩
  intro e hn
  linarith [h2 e hn]

section
variable {α : Type} [Scalar α]

/-- the search for the furthest point ends with the start value or with the distance of a point -/
theorem dpFind_from (first last : Point2D α) : ∀ (l : List (Point2D α)) (i : Nat) (s : Nat × α),
    (dpFind first last l i s).2 = s.2 ∨ ∃ p ∈ l, (dpFind first last l i s).2 = distancePointLine p first last
  | [], _, _ => .inl rfl
  | p :: l, i, s => by
    rw [dpFind]
    by_cases h : (distancePointLine p first last >. s.2) = true
    · simp only [if_pos h]
      rcases dpFind_from first last l (i + 1) (i, distancePointLine p first last) with h1 | ⟨q, hq, h1⟩
      · exact .inr ⟨p, by simp, h1⟩
      · exact .inr ⟨q, by simp [hq], h1⟩
    · simp only [if_neg h]
      rcases dpFind_from first last l (i + 1) (s.1, s.2) with h1 | ⟨q, hq, h1⟩
      · exact .inl h1
      · exact .inr ⟨q, by simp [hq], h1⟩

/-- nothing that was looked at exceeds a bound which the result of the search does not exceed -/
theorem dpFind_bound [LawfulScalar α] (first last : Point2D α) (e : α) : ∀ (l : List (Point2D α)) (i : Nat) (s : Nat × α),
    LawfulScalar.ok s.2 → ¬ ((dpFind first last l i s).2 >. e) = true →
    ¬ (s.2 >. e) = true ∧ ∀ p ∈ l, ¬ (distancePointLine p first last >. e) = true
  | [], _, _ => fun _ h => ⟨h, by simp⟩
  | p :: l, i, s => by
    intro hs hd
    rw [dpFind] at hd
    by_cases h : (distancePointLine p first last >. s.2) = true
    · simp only [if_pos h] at hd
      have h' := (LawfulScalar.lt_iff _ _).1 h
      obtain ⟨h1, h2⟩ := dpFind_bound first last e l (i + 1) (i, distancePointLine p first last) h'.2.1 hd
      refine ⟨fun hgt => h1 ?_, List.forall_mem_cons.2 ⟨h1, h2⟩⟩
      have := (LawfulScalar.lt_iff _ _).1 hgt
      exact (LawfulScalar.lt_iff _ _).2 ⟨this.1, h'.2.1, this.2.2.trans h'.2.2⟩
    · simp only [if_neg h] at hd
      obtain ⟨h1, h2⟩ := dpFind_bound first last e l (i + 1) (s.1, s.2) hs hd
      refine ⟨h1, List.forall_mem_cons.2 ⟨fun hgt => h1 ?_, h2⟩⟩
      have hg := (LawfulScalar.lt_iff _ _).1 hgt
      refine (LawfulScalar.lt_iff _ _).2 ⟨hg.1, hs, ?_⟩
      by_contra hlt
      exact h ((LawfulScalar.lt_iff _ _).2 ⟨hs, hg.2.1, lt_of_le_of_lt (not_lt.1 hlt) hg.2.2⟩)

/-- the runs into which the points are cut -/
theorem dp_runs [LawfulScalar α] (e : α) (he : ¬ (zero >. e) = true) : ∀ (fuel : Nat) (l : List (Point2D α)) (hl : l ≠ []), l.length ≤ fuel →
    ∃ runs : List (List (Point2D α)), douglasPeucker e fuel l = some (runs.filterMap List.head? ++ [l.getLast hl]) ∧
      runs.flatten = l ∧ (∀ run ∈ runs, run ≠ []) ∧
      (∀ run ∈ runs, ∀ a b, run.head? = some a → run.getLast? = some b →
        ∀ p ∈ run.tail.dropLast, ¬ (distancePointLine p a b >. e) = true) := by
  intro fuel
  induction fuel with
  | zero =>
    intro l hl h
    exact absurd (by simpa using h) hl
  | succ fuel ih =>
    intro l hl hfuel
    rcases dp_step e he fuel l hl with ⟨h, hd⟩ | ⟨k, k1, k2, h⟩
    · refine ⟨[l], ?_, by simp, by simpa using hl, ?_⟩
      · rw [h]
        simp [List.head?_eq_some_head hl]
      · intro run hrun a b ha hb
        obtain rfl : run = l := by simpa using hrun
        rw [List.head?_eq_some_head hl] at ha
        rw [List.getLast?_eq_some_getLast hl] at hb
        obtain rfl : run.head hl = a := by simpa using ha
        obtain rfl : run.getLast hl = b := by simpa using hb
        exact (dpFind_bound _ _ e _ _ _ LawfulScalar.ok_zero hd).2
    · have l1 : (l.take k).length = k := by
        rw [List.length_take]
        omega
      have l2 : (l.drop k).length = l.length - k := by simp
      have n1 : l.take k ≠ [] := by
        intro e0
        rw [e0] at l1
        simp at l1
        omega
      have n2 : l.drop k ≠ [] := by
        intro e0
        rw [e0] at l2
        simp at l2
        omega
      obtain ⟨runs1, a1, a2, a3, a4⟩ := ih (l.take k) n1 (by omega)
      obtain ⟨runs2, b1, b2, b3, b4⟩ := ih (l.drop k) n2 (by omega)
      refine ⟨runs1 ++ runs2, ?_, ?_, ?_, ?_⟩
      · rw [h _ _ a1 b1 (by simp)]
        rw [List.dropLast_concat, List.filterMap_append, List.append_assoc, List.getLast_drop n2]
      · rw [List.flatten_append, a2, b2, List.take_append_drop]
      · intro run hrun
        rcases List.mem_append.1 hrun with hrun | hrun
        · exact a3 run hrun
        · exact b3 run hrun
      · intro run hrun
        rcases List.mem_append.1 hrun with hrun | hrun
        · exact a4 run hrun
        · exact b4 run hrun

end

/-- **C127** every scalar type, so also doubles, including such that are not finite: the input is cut into
consecutive runs, the result consists of the first points of the runs and the last point of the input, and no
dropped point has a computed distance greater than the tolerance to the line through the ends of its run. -/
theorem c127_runs {α : Type} [Scalar α] [LawfulScalar α] (e : α) (he : ¬ (zero >. e) = true) (l : List (Point2D α)) (hl : l ≠ []) :
    ∃ (r : List (Point2D α)) (runs : List (List (Point2D α))), douglasPeucker e l.length l = some r ∧ runs.flatten = l ∧
      (∀ run ∈ runs, run ≠ []) ∧ r = runs.filterMap List.head? ++ [l.getLast hl] ∧
      (∀ run ∈ runs, ∀ a b, run.head? = some a → run.getLast? = some b →
        ∀ p ∈ run.tail.dropLast, ¬ (distancePointLine p a b >. e) = true) := by
  obtain ⟨runs, h1, h2, h3, h4⟩ := dp_runs e he l.length l hl le_rfl
  exact ⟨_, runs, h1, h2, h3, rfl, h4⟩

theorem fin_gt {D : ℚ} {e : F64} (he : Num e) : (F64.fin false D >. e) = true ↔ toR e < D := by
  show F64.lt e (.fin false D) = true ↔ _
  rw [F64.lt_iff, he.key]
  show F64.ok e ∧ F64.ok (.fin false D) ∧ ((toR e : ℝ) : EReal) < ((((D : ℚ) : ℝ)) : EReal) ↔ _
  rw [EReal.coe_lt_coe_iff]
  exact ⟨fun h => h.2.2, fun h => ⟨he.ok, F64.noConfusion, h⟩⟩

theorem zero_gt {e : F64} (he : Num e) (h0 : 0 ≤ toR e) : ¬ ((zero : F64) >. e) = true := by
  have : (zero : F64) = .fin false 0 := by decide +kernel
  rw [this, fin_gt he]
  simpa using h0

/-- **C127** finite doubles of size at most `M`: wherever the ends of a run are at least `w` apart in x, the
dropped points are truly within the tolerance (and the error of the distance) of the line through these
ends. If only the two ends of the polyline remain, all its points are within that of the line through them. -/
theorem c127_dropped {M w : ℝ} (hM : Mid M) (hw : M ≤ 2 ^ 12 * w) (e : F64) (he : Num e) (he0 : 0 ≤ toR e)
    (l : List (Point2D F64)) (hl : l ≠ []) (hin : ∀ p ∈ l, Sized M p) :
    ∃ (r : List (Point2D F64)) (runs : List (List (Point2D F64))), douglasPeucker e l.length l = some r ∧ runs.flatten = l ∧
      (∀ run ∈ runs, run ≠ []) ∧ r = runs.filterMap List.head? ++ [l.getLast hl] ∧
      (∀ run ∈ runs, ∀ a b, run.head? = some a → run.getLast? = some b → w ≤ |toR a.x - toR b.x| →
        ∀ p ∈ run, NearLine (toR e + lineErr M w) a.real b.real p.real) ∧
      (r.length ≤ 2 → ∀ a b, l.head? = some a → l.getLast? = some b → w ≤ |toR a.x - toR b.x| →
        ∀ p ∈ l, NearLine (toR e + lineErr M w) a.real b.real p.real) := by
  obtain ⟨r, runs, h1, h2, h3, h4, h5⟩ := c127_runs e (zero_gt he he0) l hl
  have hM0 := hM.pos
  have hw0 : 0 < w := by nlinarith only [hw, hM0]
  have hE : 0 ≤ toR e + lineErr M w := by
    unfold lineErr
    positivity
  have h6 : ∀ run ∈ runs, ∀ a b, run.head? = some a → run.getLast? = some b → w ≤ |toR a.x - toR b.x| →
        ∀ p ∈ run, NearLine (toR e + lineErr M w) a.real b.real p.real := by
    intro run hrun a b ha hb hab p hp
    have hsub : ∀ q ∈ run, Sized M q := fun q hq => hin q (h2 ▸ List.mem_flatten.2 ⟨run, hrun, hq⟩)
    have wa := hsub a (List.mem_of_mem_head? ha)
    have wb := hsub b (List.mem_of_mem_getLast? hb)
    obtain ⟨D, hD, hn, -⟩ := c127_distance hM (hsub p hp) wa wb hw hab
    by_cases hin' : p ∈ run.tail.dropLast
    · have h7 := h5 run hrun a b ha hb p hin'
      rw [hD, fin_gt he, not_lt] at h7
      obtain ⟨s, hs⟩ := hn
      exact ⟨s, hs.trans (by linarith)⟩
    · have hne := h3 run hrun
      rw [List.head?_eq_some_head hne] at ha
      rw [List.getLast?_eq_some_getLast hne] at hb
      obtain rfl : run.head hne = a := by simpa using ha
      obtain rfl : run.getLast hne = b := by simpa using hb
      have hends : p = run.head hne ∨ p = run.getLast hne := by
        match run, hne, hp, hin' with
        | x :: rest, hne, hp, hin' =>
          rcases List.mem_cons.1 hp with rfl | hp
          · exact .inl rfl
          · right
            have hrest : rest ≠ [] := List.ne_nil_of_mem hp
            rw [← List.dropLast_append_getLast hrest] at hp
            rcases List.mem_append.1 hp with hp | hp
            · exact absurd hp hin'
            · rw [List.getLast_cons hrest]
              simpa using hp
      rcases hends with rfl | rfl
      · exact ⟨0, by simpa [segLen2, Spec.sqrDist] using hE⟩
      · exact ⟨1, by simpa [segLen2, Spec.sqrDist] using hE⟩
  refine ⟨r, runs, h1, h2, h3, h4, h6, ?_⟩
  intro hlen
  subst h4
  match runs, h2, h3, h6, hlen with
  | [], h2, _, _, _ => exact absurd h2.symm hl
  | [run], h2, _, h6, _ =>
    obtain rfl : run = l := by simpa using h2
    exact h6 run (by simp)
  | r1 :: r2 :: rs, _, h3, _, hlen =>
    exfalso
    rw [List.filterMap_cons, List.filterMap_cons, List.head?_eq_some_head (h3 r1 (by simp)),
      List.head?_eq_some_head (h3 r2 (by simp))] at hlen
    simp at hlen

/-- **C127** a polyline of finite doubles all of whose points are closer to the line through its ends than the
tolerance, by the error of the distance, is reduced to its two ends. -/
theorem c127_straight {M w : ℝ} (hM : Mid M) (hw : M ≤ 2 ^ 12 * w) (e : F64) (he : Num e) (he0 : 0 ≤ toR e)
    (l : List (Point2D F64)) (hl : l ≠ []) (hin : ∀ p ∈ l, Sized M p)
    (hab : w ≤ |toR (l.head hl).x - toR (l.getLast hl).x|)
    (hn : ∀ p ∈ l, NearLine (toR e - lineErr M w) (l.head hl).real (l.getLast hl).real p.real) :
    douglasPeucker e l.length l = some [l.head hl, l.getLast hl] := by
  obtain ⟨n, hn1⟩ : ∃ n, l.length = n + 1 := ⟨l.length - 1, by have := List.length_pos_iff.2 hl; omega⟩
  rw [hn1]
  match l, hl with
  | first :: rest, hl =>
    have hlast : (first :: rest).getLast? = some ((first :: rest).getLast hl) := List.getLast?_eq_some_getLast hl
    rw [douglasPeucker, hlast]
    simp only [Option.bind_eq_bind, Option.bind_some]
    have hlm : (first :: rest).getLast hl ∈ first :: rest := List.getLast_mem hl
    rw [List.head_cons] at *
    generalize (first :: rest).getLast hl = last at *
    rw [if_neg]
    rcases dpFind_from first last rest.dropLast 1 (0, zero) with h | ⟨p, hp, h⟩
    · rw [h]
      exact zero_gt he he0
    · have hp' : p ∈ first :: rest := List.mem_cons_of_mem _ (List.dropLast_subset _ hp)
      obtain ⟨D, hD, -, hm⟩ := c127_distance hM (hin p hp') (hin first (by simp)) (hin last hlm) hw hab
      rw [h, hD, fin_gt he, not_lt]
      linarith [hm _ (hn p hp')]

/-- **C127 violated** with coordinates as of maps the formula cancels: the three points (500000, 5000000),
(500001, 5000001), (500002, 5000002) lie on a line, but the middle one is kept with a tolerance of 10. In
millimetres the distance is not a number: a peak 1000 above its neighbours is dropped with a tolerance of 1. -/
theorem c127_violated :
    (∃ a p b : Point2D F64, douglasPeucker (.ofRat 10) 3 [a, p, b] = some [a, p, b] ∧
      a = ⟨.ofRat 500000, .ofRat 5000000⟩ ∧ p = ⟨.ofRat 500001, .ofRat 5000001⟩ ∧ b = ⟨.ofRat 500002, .ofRat 5000002⟩) ∧
    (∃ a p b : Point2D F64, douglasPeucker (.ofRat 1) 3 [a, p, b] = some [a, b] ∧
      a = ⟨.ofRat 500000000, .ofRat 5000000000⟩ ∧ p = ⟨.ofRat 500000019, .ofRat 5000001000⟩ ∧
      b = ⟨.ofRat 500000038, .ofRat 5000000000⟩) := by
  refine ⟨⟨_, _, _, ?_, rfl, rfl, rfl⟩, ⟨_, _, _, ?_, rfl, rfl, rfl⟩⟩ <;> decide +kernel

theorem sized_two {s t : Bool} : Sized 2 (Point2D.mk (.fin s 2) (.fin t 2) : Point2D F64) := by
  have n : ∀ s, Num (.fin s 2) := fun s => ⟨⟨_, _, rfl⟩, (lit_two ▸ num_two : Num (.fin false 2)).2⟩
  refine ⟨⟨n s, n t⟩, ?_, ?_⟩
  · show |toR (.fin s 2)| ≤ 2
    rw [real_fin]; cases s <;> simp [val]
  · show |toR (.fin t 2)| ≤ 2
    rw [real_fin]; cases t <;> simp [val]

/-- points that meet the hypotheses: (-2,-2), (-2,2), (2,-2) with `M = 2`, `w = 4` and the tolerance 2, and (-2,-2),
(-2,-2), (2,-2) for the last theorem. The errors of the distance are at most 2^-41. -/
example : Mid 2 ∧ (2:ℝ) ≤ 2 ^ 12 * 4 ∧ Num (.fin false 2) ∧ 0 ≤ toR (.fin false 2) ∧
    (∀ p ∈ ([⟨.fin true 2, .fin true 2⟩, ⟨.fin true 2, .fin false 2⟩, ⟨.fin false 2, .fin true 2⟩] : List (Point2D F64)), Sized 2 p) ∧
    (4:ℝ) ≤ |toR (.fin true 2) - toR (.fin false 2)| ∧ lineErr 2 4 ≤ 2 ^ (-41 : ℤ) ∧
    NearLine (toR (.fin false 2) - lineErr 2 4) (Point2D.mk (.fin true 2) (.fin true 2) : Point2D F64).real
      (Point2D.mk (.fin false 2) (.fin true 2) : Point2D F64).real (Point2D.mk (.fin true 2) (.fin true 2) : Point2D F64).real := by
  have hE : lineErr 2 4 ≤ 2 ^ (-41 : ℤ) := by
    unfold lineErr
    norm_num
  refine ⟨⟨?_, ?_⟩, by norm_num, sized_two (s := false) (t := false) |>.1.1, ?_, ?_, ?_, hE, 0, ?_⟩
  · exact le_trans (zpow_le_one_of_nonpos₀ one_le_two (by norm_num)) one_le_two
  · exact le_of_eq_of_le (zpow_one 2).symm (zpow_le_zpow_right₀ one_le_two (by norm_num))
  · rw [real_fin]; simp [val]
  · intro p hp
    simp only [List.mem_cons, List.not_mem_nil, or_false] at hp
    rcases hp with rfl | rfl | rfl <;> exact sized_two
  · rw [real_fin, real_fin]; norm_num [val]
  · have : (2:ℝ) ^ (-41 : ℤ) ≤ 2 := by norm_num
    rw [real_fin]
    simp [segLen2, Spec.sqrDist, val]
    linarith

end R3D

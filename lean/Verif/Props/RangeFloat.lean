import Verif.Props.KdTreeFloat
import Verif.Props.KdGrid
import Verif.Props.Filter
import Verif.Props.BoxFloat
import Verif.Lemmas.F64Near
/-!
C108: range searches of the k-d tree and the outlier filter on doubles, in terms of true distances.
-/
namespace R3D
open Scalar Spec F64 KdTree

variable {P : Type}

/-- the true distance -/
noncomputable def Spec.trueDist (p q : Point3D F64) : ℝ := √(Spec.sqrDist (at3 p.real) (at3 q.real))

theorem coord_le_trueDist (p q : Point3D F64) (d : Fin 3) : |at3 p.real d - at3 q.real d| ≤ trueDist p q := by
  unfold trueDist Spec.sqrDist
  rw [← Real.sqrt_sq_eq_abs]
  apply Real.sqrt_le_sqrt
  exact Finset.single_le_sum (f := fun i => (at3 p.real i - at3 q.real i) ^ 2) (fun i _ => sq_nonneg _) (Finset.mem_univ d)

theorem acc_in {D R r : ℝ} (h : |D - r| ≤ 2 ^ (-50 : ℤ) * r + 2 ^ (-536 : ℤ)) (hR : 2 ^ (-400 : ℤ) ≤ R) (hr : r ≤ R * (1 - 2 ^ (-49 : ℤ))) : D < R := by
  have T : (2:ℝ) ^ (-536 : ℤ) = 2 ^ (-136 : ℤ) * 2 ^ (-400 : ℤ) := by rw [← zpow_add₀ two_ne_zero]; norm_num
  have T1 : (2:ℝ) ^ (-136 : ℤ) = 1 / 2 ^ 136 := by rw [zpow_neg]; norm_num
  have T0 : (0:ℝ) < 2 ^ (-400 : ℤ) := zpow_pos two_pos _
  rw [T, T1] at h
  rw [show (2:ℝ) ^ (-50 : ℤ) = 1 / 2 ^ 50 by rw [zpow_neg]; norm_num] at h
  rw [show (2:ℝ) ^ (-49 : ℤ) = 1 / 2 ^ 49 by rw [zpow_neg]; norm_num] at hr
  generalize (2:ℝ) ^ (-400 : ℤ) = Z at *
  have := (abs_le.1 h).2
  linarith

theorem acc_out {D R r : ℝ} (h : |D - r| ≤ 2 ^ (-50 : ℤ) * r + 2 ^ (-536 : ℤ)) (hR : 2 ^ (-400 : ℤ) ≤ R) (hr : D ≤ R) : r ≤ R * (1 + 2 ^ (-49 : ℤ)) := by
  have T : (2:ℝ) ^ (-536 : ℤ) = 2 ^ (-136 : ℤ) * 2 ^ (-400 : ℤ) := by rw [← zpow_add₀ two_ne_zero]; norm_num
  have T1 : (2:ℝ) ^ (-136 : ℤ) = 1 / 2 ^ 136 := by rw [zpow_neg]; norm_num
  have T0 : (0:ℝ) < 2 ^ (-400 : ℤ) := zpow_pos two_pos _
  rw [T, T1] at h
  rw [show (2:ℝ) ^ (-50 : ℤ) = 1 / 2 ^ 50 by rw [zpow_neg]; norm_num] at h
  rw [show (2:ℝ) ^ (-49 : ℤ) = 1 / 2 ^ 49 by rw [zpow_neg]; norm_num]
  generalize (2:ℝ) ^ (-400 : ℤ) = Z at *
  have := (abs_le.1 h).1
  linarith

/-- the computed comparison of a distance and a radius -/
theorem dist_decides {p q : Point3D F64} (hp : p.Num) (hq : q.Num) {R : F64} (hR : F64.Num R) (h1 : 2 ^ (-400 : ℤ) ≤ toR R) (h2 : toR R ≤ 2 ^ (511 : ℤ)) :
    (trueDist p q ≤ toR R * (1 - 2 ^ (-49 : ℤ)) → (p.dist q <. R) = true) ∧
    ((p.dist q <=. R) = true → trueDist p q ≤ toR R * (1 + 2 ^ (-49 : ℤ))) := by
  have R0 : 0 < toR R := (zpow_pos two_pos _).trans_le h1
  have c1 : (2:ℝ) ^ (-49 : ℤ) = 1 / 2 ^ 49 := by rw [zpow_neg]; norm_num
  have num : ∀ {s D}, p.dist q = .fin s D → F64.Num (p.dist q) ∧ toR (p.dist q) = D := by
    intro s D h
    obtain hn := sqrt_nonNeg (Point3D.sqrDist_nonNeg hp hq)
    have hn' : NonNeg (p.dist q) := hn
    rw [h] at hn'
    rcases hn' with h' | ⟨m, hm, r⟩
    · cases h'
    · obtain ⟨rfl, rfl⟩ := F64.fin.inj hm
      rw [h]
      exact ⟨⟨⟨_, _, rfl⟩, r⟩, by rw [real_fin]; rfl⟩
  constructor
  · intro h
    have hle : trueDist p q ≤ 2 ^ (511 : ℤ) := by
      refine le_trans (h.trans ?_) h2
      rw [c1]; nlinarith
    obtain ⟨D, hD⟩ := c92_finite_3d p q hp hq (fun d => (coord_le_trueDist p q d).trans hle)
    have acc := c92_dist_3d p q hp hq _ D hD
    obtain ⟨n, e⟩ := num hD
    rw [num_lt n hR, e]
    exact acc_in acc h1 h
  · intro h
    have hn : NonNeg (p.dist q) := sqrt_nonNeg (Point3D.sqrDist_nonNeg hp hq)
    rcases hn with h' | ⟨m, hm, -⟩
    · exfalso
      rw [h'] at h
      obtain ⟨s, m, rfl, -⟩ := hR.form
      exact Bool.noConfusion h
    · have acc := c92_dist_3d p q hp hq _ m hm
      obtain ⟨n, e⟩ := num hm
      rw [num_le n hR, e] at h
      exact acc_out acc h1 h

theorem filter_subperm {p q : P → Bool} {l : List P} (h : ∀ x ∈ l, p x = true → q x = true) : (l.filter p).Subperm (l.filter q) := by
  have : l.filter p = (l.filter q).filter p := by
    rw [List.filter_filter]
    apply List.filter_congr
    intro x hx
    cases hpx : p x with
    | false => simp
    | true => simp [h x hx hpx]
  rw [this]
  exact (List.filter_sublist).subperm

/-- **C108** `in_sphere` on doubles in terms of true distances: all points within `R (1 - 2^-49)` are found with their
multiplicity, none beyond `R (1 + 2^-49)`. -/
theorem c108_in_sphere (pos : P → Point3D F64) (pts : List P) (t : KdTree P) (ht : Built pos pts t)
    (hnum : ∀ x ∈ pts, (pos x).Num) (s : Sphere F64) (hc : s.center.Num) (hr : F64.Num s.radius.val)
    (h1 : 2 ^ (-400 : ℤ) ≤ toR s.radius.val) (h2 : toR s.radius.val ≤ 2 ^ (511 : ℤ)) (inner outer : P → Bool)
    (hi : ∀ x, inner x = true ↔ trueDist s.center (pos x) ≤ toR s.radius.val * (1 - 2 ^ (-49 : ℤ)))
    (ho : ∀ x, outer x = true ↔ trueDist s.center (pos x) ≤ toR s.radius.val * (1 + 2 ^ (-49 : ℤ))) (res : List P) :
    ∃ r, t.inSphere pos s res = res ++ r ∧ (pts.filter inner).Subperm r ∧ r.Subperm (pts.filter outer) := by
  have hmin : (F64.fin false (2 ^ (-511 : ℤ)) <=. s.radius.val) = true := by
    obtain ⟨u, m, hm, r, -, e⟩ := hr.form
    have : F64.key (F64.fin false (2 ^ (-511 : ℤ))) ≤ F64.key s.radius.val := by
      rw [key_fin_false, hr.key]
      have : (2:ℝ) ^ (-511 : ℤ) ≤ 2 ^ (-400 : ℤ) := zpow_le_zpow_right₀ one_le_two (by norm_num)
      have h3 := this.trans h1
      rw [show ((((2:ℚ) ^ (-511 : ℤ) : ℚ) : ℝ) : EReal) = (((2:ℝ) ^ (-511 : ℤ) : ℝ) : EReal) by push_cast; rfl]
      exact_mod_cast h3
    exact (le_f64 F64.noConfusion (by rw [hm]; exact F64.noConfusion)).2 this
  obtain ⟨r, e, a, b⟩ := c91_in_sphere_partial pos pts t ht hnum s hc hr.2 hmin res
  refine ⟨r, e, (filter_subperm fun x hx h => ?_).trans a, b.trans (filter_subperm fun x hx h => ?_)⟩
  · exact (dist_decides hc (hnum x hx) hr h1 h2).1 ((hi x).1 h)
  · exact (ho x).2 ((dist_decides hc (hnum x hx) hr h1 h2).2 h)

/-- the computed comparison of a coordinate difference and half of a size -/
theorem extent_decides {a b S : F64} (ha : F64.Num a) (hb : F64.Num b) (hS : F64.Num S) (hab : |toR a - toR b| ≤ 2 ^ (1000 : ℤ)) (h1 : 2 ^ (-900 : ℤ) ≤ toR S)
    (h2 : toR S ≤ 2 ^ (1000 : ℤ)) :
    (|toR a - toR b| ≤ toR S / 2 * (1 - 2 ^ (-49 : ℤ)) → (Scalar.abs (a - b) <. lit (1/2) * S) = true ∧ (Scalar.abs (a - b) <=. lit (1/2) * S) = true) ∧
    ((Scalar.abs (a - b) <=. lit (1/2) * S) = true → |toR a - toR b| ≤ toR S / 2 * (1 + 2 ^ (-49 : ℤ))) := by
  have B : (2:ℝ) ^ (1000 : ℤ) ≤ 2 ^ (1023 : ℤ) := zpow_le_zpow_right₀ one_le_two (by norm_num)
  have S0 : 0 < toR S := (zpow_pos two_pos _).trans_le h1
  have eh : (lit (1/2) : F64) = .fin false (1/2) := by decide +kernel
  have nh : F64.Num (lit (1/2) : F64) := ⟨⟨_, _, eh⟩, ofRat_rep _⟩
  have vh : toR (lit (1/2) : F64) = 1 / 2 := by rw [eh, real_fin]; norm_num [val]
  obtain ⟨nH, eH⟩ := toR_mul nh hS (by rw [vh, abs_of_nonneg (by linarith)]; exact (by linarith only [S0] : 1 / 2 * toR S ≤ toR S).trans (h2.trans B))
  obtain ⟨nd, ed⟩ := toR_sub ha hb (hab.trans B)
  rw [vh, abs_of_nonneg (by linarith : 0 ≤ 1 / 2 * toR S)] at eH
  have T : (2:ℝ) ^ (-1075 : ℤ) = 2 ^ (-175 : ℤ) * 2 ^ (-900 : ℤ) := by rw [← zpow_add₀ two_ne_zero]; norm_num
  have T1 : (2:ℝ) ^ (-175 : ℤ) = 1 / 2 ^ 175 := by rw [zpow_neg]; norm_num
  have U : (2:ℝ) ^ (-53 : ℤ) = 1 / 2 ^ 53 := by rw [zpow_neg]; norm_num
  rw [T, T1, U] at eH
  rw [U] at ed
  have c1 : (2:ℝ) ^ (-49 : ℤ) = 1 / 2 ^ 49 := by rw [zpow_neg]; norm_num
  have eA := abs_sub_abs_le_abs_sub (toR (a - b)) (toR a - toR b)
  have eB := abs_sub_abs_le_abs_sub (toR a - toR b) (toR (a - b))
  rw [_root_.abs_sub_comm (toR a - toR b) (toR (a - b))] at eB
  have na : F64.Num (Scalar.abs (a - b)) := nd.abs
  rw [num_lt na nH, num_le na nH, toR_abs nd, c1]
  obtain ⟨eh1, eh2⟩ := abs_le.1 eH
  clear eH T B
  generalize (2:ℝ) ^ (-900 : ℤ) = Z at *
  generalize toR (lit (1/2) * S) = H at *
  generalize |toR a - toR b| = x at *
  generalize |toR (a - b)| = y at *
  constructor
  · intro h
    have : y < H := by linarith
    exact ⟨this, this.le⟩
  · intro h
    linarith

/-- **C108** `in_box` on doubles in terms of true coordinates: all points inside of the box shrunk by the factor `1 - 2^-49`
are found with their multiplicity, none outside of the box grown by `1 + 2^-49`. -/
theorem c108_in_box (pos : P → Point3D F64) (pts : List P) (t : KdTree P) (ht : Built pos pts t)
    (hnum : ∀ x ∈ pts, (pos x).Num) (b : Box3D F64) (hc : b.center.Num)
    (hs : ∀ d, F64.Num (at3 ⟨b.sizeX.val, b.sizeY.val, b.sizeZ.val⟩ d) ∧ 2 ^ (-900 : ℤ) ≤ toR (at3 ⟨b.sizeX.val, b.sizeY.val, b.sizeZ.val⟩ d) ∧
      toR (at3 ⟨b.sizeX.val, b.sizeY.val, b.sizeZ.val⟩ d) ≤ 2 ^ (1000 : ℤ))
    (hfar : ∀ x ∈ pts, ∀ d, |at3 b.center.real d - at3 (pos x).real d| ≤ 2 ^ (1000 : ℤ)) (inner outer : P → Bool)
    (hi : ∀ x, inner x = true ↔ ∀ d, |at3 b.center.real d - at3 (pos x).real d| ≤
      toR (at3 ⟨b.sizeX.val, b.sizeY.val, b.sizeZ.val⟩ d) / 2 * (1 - 2 ^ (-49 : ℤ)))
    (ho : ∀ x, outer x = true ↔ ∀ d, |at3 b.center.real d - at3 (pos x).real d| ≤
      toR (at3 ⟨b.sizeX.val, b.sizeY.val, b.sizeZ.val⟩ d) / 2 * (1 + 2 ^ (-49 : ℤ))) (res : List P) :
    ∃ r, t.inBox pos b res = res ++ r ∧ (pts.filter inner).Subperm r ∧ r.Subperm (pts.filter outer) := by
  simp only [forall_fin3, at3_zero, at3_one, at3_two] at hs hi ho hfar
  obtain ⟨⟨x1, x2, x3⟩, ⟨y1, y2, y3⟩, z1, z2, z3⟩ := hs
  have nn : ∀ {S : F64}, F64.Num S → 2 ^ (-900 : ℤ) ≤ toR S → NonNeg S := by
    intro S hS h
    obtain ⟨s, m, rfl, r, -, e⟩ := hS.form
    have h0 : 0 < toR (.fin s m) := (zpow_pos two_pos _).trans_le h
    cases s with
    | false => exact .inr ⟨m, rfl, r⟩
    | true =>
      exfalso
      rw [real_fin] at h0
      have h3 : (0:ℚ) < val true m := by exact_mod_cast h0
      have : (0:ℚ) ≤ m := r.1
      simp [val] at h3
      linarith
  obtain ⟨r, e, h1, h2⟩ := c91_in_box_partial pos pts t ht hnum b hc (nn x1 x2) (nn y1 y2) res
  refine ⟨r, e, (filter_subperm fun x hx h => ?_).trans h1, h2.trans (filter_subperm fun x hx h => ?_)⟩
  · obtain ⟨a1, a2, a3⟩ := (hi x).1 h
    obtain ⟨f1, f2, f3⟩ := hfar x hx
    obtain ⟨n1, n2, n3⟩ := hnum x hx
    rw [Bool.and_eq_true, Bool.and_eq_true]
    have l3 := (extent_decides hc.2.2 n3 z1 f3 z2 z3).1 a3
    refine ⟨⟨(extent_decides hc.1 n1 x1 f1 x2 x3).1 a1 |>.1, (extent_decides hc.2.1 n2 y1 f2 y2 y3).1 a2 |>.1⟩, ?_⟩
    exact l3.2
  · obtain ⟨f1, f2, f3⟩ := hfar x hx
    obtain ⟨n1, n2, n3⟩ := hnum x hx
    rw [Bool.and_eq_true, Bool.and_eq_true] at h
    obtain ⟨⟨a1, a2⟩, a3⟩ := h
    exact (ho x).2 ⟨(extent_decides hc.1 n1 x1 f1 x2 x3).2 a1, (extent_decides hc.2.1 n2 y1 f2 y2 y3).2 a2, (extent_decides hc.2.2 n3 z1 f3 z2 z3).2 a3⟩

/-- **C108** the outlier filter on doubles: enough points within `R (1 - 2^-49)` and the point is allowed, not enough
within `R (1 + 2^-49)` and it is denied. -/
theorem c108_outlier (pos : P → Point3D F64) (pts : List P) (t : KdTree P) (ht : Built pos pts t)
    (hnum : ∀ x ∈ pts, (pos x).Num) (R : Positive F64) (hr : F64.Num R.val)
    (h1 : 2 ^ (-400 : ℤ) ≤ toR R.val) (h2 : toR R.val ≤ 2 ^ (511 : ℤ)) (n : Nat) (p : Point3D F64) (hp : p.Num) (inner outer : P → Bool)
    (hi : ∀ x, inner x = true ↔ trueDist p (pos x) ≤ toR R.val * (1 - 2 ^ (-49 : ℤ)))
    (ho : ∀ x, outer x = true ↔ trueDist p (pos x) ≤ toR R.val * (1 + 2 ^ (-49 : ℤ))) :
    (n ≤ (pts.filter inner).length → filterOutlier3D pos t R n p = true) ∧
    (filterOutlier3D pos t R n p = true → n ≤ (pts.filter outer).length) := by
  obtain ⟨r, e, a, b⟩ := c108_in_sphere pos pts t ht hnum ⟨p, R⟩ hp hr h1 h2 inner outer hi ho []
  rw [List.nil_append] at e
  rw [filterOutlier3D, e, decide_eq_true_eq]
  exact ⟨fun h => h.trans a.length_le, fun h => le_trans h b.length_le⟩

/-- **C108** with points and distance on a fixed point grid the outlier filter is exact. -/
theorem c108_outlier_grid (e : ℤ) (he : -500 ≤ e) (he' : e ≤ 400) (pos : P → Point3D F64) (pts : List P) (t : KdTree P) (ht : Built pos pts t)
    (hg : ∀ x ∈ pts, Grid3 e (pos x)) (R : Positive F64) (hr : F64.Num R.val) (m : ℤ) (h1 : 1 ≤ m) (hm : m ≤ 2 ^ 24) (hR : toR R.val = m * 2 ^ e)
    (n : Nat) (p : Point3D F64) (hp : Grid3 e p) (near : P → Bool)
    (hn : ∀ x, near x = true ↔ Spec.sqrDist (at3 p.real) (at3 (pos x).real) ≤ toR R.val ^ 2) :
    filterOutlier3D pos t R n p = true ↔ n ≤ (pts.filter near).length := by
  obtain ⟨r, hr, hp⟩ := c102_in_sphere e he he' pos pts t ht hg ⟨p, R⟩ hp hr m h1 hm hR []
  rw [filterOutlier3D, hr, List.nil_append, (hp near hn).length_eq, decide_eq_true_eq]

/-- a point and a radius that is not smaller than its true distance to the origin -/
def rangePt : Point3D F64 := ⟨f (13/10), f (16/10), f (24/10)⟩
def rangeR : Positive F64 := ⟨f (3163858403911275/1000000000000000)⟩
def rangeO : Point3D F64 := ⟨f 0, f 0, f 0⟩

/-- **C108 violated** without the margin: the point is within the radius, but not found, and the outlier filter does
not count it. -/
theorem c108_violated_rounding : ∃ t : KdTree (Point3D F64), Built id [rangePt] t ∧ rangeO.Num ∧ rangePt.Num ∧ F64.Num rangeR.val ∧
    trueDist rangeO rangePt ≤ toR rangeR.val ∧ t.inSphere id ⟨rangeO, rangeR⟩ [] = [] ∧ filterOutlier3D id t rangeR 1 rangeO = false := by
  have e1 := ex_num (13/10) false (5854679515581645/4503599627370496) (by decide +kernel)
  have e2 := ex_num (16/10) false (3602879701896397/2251799813685248) (by decide +kernel)
  have e3 := ex_num (24/10) false (5404319552844595/2251799813685248) (by decide +kernel)
  have e4 := ex_num (3163858403911275/1000000000000000) false (7124375764453915/2251799813685248) (by decide +kernel)
  have e0 := ex_num 0 false 0 (by decide +kernel)
  refine ⟨newNode id 1 0 [rangePt], rfl, ⟨e0.1, e0.1, e0.1⟩, ⟨e1.1, e2.1, e3.1⟩, e4.1, ?_, by decide +kernel, by decide +kernel⟩
  unfold trueDist
  rw [show toR rangeR.val = _ from e4.2]
  refine Real.sqrt_le_iff.2 ⟨by norm_num [val], ?_⟩
  simp only [Spec.sqrDist, Fin.sum_univ_three, at3_zero, at3_one, at3_two, Point3D.real, rangeO, rangePt]
  rw [e0.2, e1.2, e2.2, e3.2]
  norm_num [val]

/-- the hypotheses are met: one point and radius 3.16..., a box of size 4 around the origin -/
example : (∃ t : KdTree (Point3D F64), Built id [rangePt] t) ∧ rangePt.Num ∧ rangeO.Num ∧ F64.Num rangeR.val ∧
    2 ^ (-400 : ℤ) ≤ toR rangeR.val ∧ toR rangeR.val ≤ 2 ^ (511 : ℤ) ∧ F64.Num (f 4) ∧ 2 ^ (-900 : ℤ) ≤ toR (f 4) ∧ toR (f 4) ≤ 2 ^ (1000 : ℤ) ∧
    ∀ d, |at3 rangeO.real d - at3 rangePt.real d| ≤ 2 ^ (1000 : ℤ) := by
  have e1 := ex_num (13/10) false (5854679515581645/4503599627370496) (by decide +kernel)
  have e2 := ex_num (16/10) false (3602879701896397/2251799813685248) (by decide +kernel)
  have e3 := ex_num (24/10) false (5404319552844595/2251799813685248) (by decide +kernel)
  have e4 := ex_num (3163858403911275/1000000000000000) false (7124375764453915/2251799813685248) (by decide +kernel)
  have e0 := ex_num 0 false 0 (by decide +kernel)
  have e5 := ex_num 4 false 4 (by decide +kernel)
  have s1 : (2:ℝ) ^ (-400 : ℤ) ≤ 1 := zpow_le_one_of_nonpos₀ one_le_two (by norm_num)
  have s2 : (2:ℝ) ^ (-900 : ℤ) ≤ 1 := zpow_le_one_of_nonpos₀ one_le_two (by norm_num)
  have b1 : (2:ℝ) ^ (2 : ℤ) ≤ 2 ^ (511 : ℤ) := zpow_le_zpow_right₀ one_le_two (by norm_num)
  have b2 : (2:ℝ) ^ (2 : ℤ) ≤ 2 ^ (1000 : ℤ) := zpow_le_zpow_right₀ one_le_two (by norm_num)
  rw [show toR rangeR.val = _ from e4.2, e5.2]
  refine ⟨⟨newNode id 1 0 [rangePt], rfl⟩, ⟨e1.1, e2.1, e3.1⟩, ⟨e0.1, e0.1, e0.1⟩, e4.1, s1.trans ?_, le_trans ?_ b1, e5.1, s2.trans ?_, le_trans ?_ b2, ?_⟩
  any_goals norm_num [val]
  simp only [forall_fin3, at3_zero, at3_one, at3_two, Point3D.real, rangeO, rangePt]
  rw [e0.2, e1.2, e2.2, e3.2]
  refine ⟨le_trans ?_ b2, le_trans ?_ b2, le_trans ?_ b2⟩ <;> norm_num [val]

end R3D

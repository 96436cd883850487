import Verif.Lemmas.F64GridSqrt
import Verif.Props.HullGrid
import Verif.Props.KdTreeFloat
/-!
C102: doubles on a fixed point grid. Distances and the searches of the k-d tree.
-/
namespace R3D
open Scalar LawfulScalar Spec F64

theorem sqrDist_grid {e : ℤ} (he : -500 ≤ e) (he' : e ≤ 400) {p q : Point3D F64} (hp : Grid3 e p) (hq : Grid3 e q) :
    ∃ N : ℤ, N < 2 ^ 50 ∧ Grid (e + e) N (p.sqrDist q) ∧ NonNeg (p.sqrDist q) ∧
      p.real.sqrDist q.real = N * (2 ^ e * 2 ^ e) := by
  obtain ⟨a1, a2, a3, ha1, ha2, ha3, ga1, ga2, ga3⟩ := hp.get
  obtain ⟨b1, b2, b3, hb1, hb2, hb3, gb1, gb2, gb3⟩ := hq.get
  have s1 := sub_bound ha1 hb1
  have s2 := sub_bound ha2 hb2
  have s3 := sub_bound ha3 hb3
  have g1 := ga1.sub gb1 (by omega) (by omega) (by omega)
  have g2 := ga2.sub gb2 (by omega) (by omega) (by omega)
  have g3 := ga3.sub gb3 (by omega) (by omega) (by omega)
  have m1 := mul_bound s1 s1
  have m2 := mul_bound s2 s2
  have m3 := mul_bound s3 s3
  have p1 := g1.mul g1 (by omega) (by omega) (by omega)
  have p2 := g2.mul g2 (by omega) (by omega) (by omega)
  have p3 := g3.mul g3 (by omega) (by omega) (by omega)
  have m12 := add_bound m1 m2
  have p12 := p1.add p2 (by omega) (by omega) (by omega)
  have m123 := add_bound m12 m3
  have p123 := p12.add p3 (by omega) (by omega) (by omega)
  refine ⟨_, ?_, p123, Point3D.sqrDist_nonNeg hp.1 hq.1, ?_⟩
  · have := (abs_le.1 m123).2
    omega
  · rw [KdTree.sqrDist_real]
    simp only [Point3D.real, ga1.2, ga2.2, ga3.2, gb1.2, gb2.2, gb3.2]
    push_cast
    ring

/-- comparing computed distances is comparing the exact ones -/
theorem dist_lt_grid {e : ℤ} (he : -500 ≤ e) (he' : e ≤ 400) {p a b : Point3D F64} (hp : Grid3 e p) (ha : Grid3 e a) (hb : Grid3 e b) :
    (p.dist a <=. p.dist b) = true ↔ Spec.sqrDist (at3 p.real) (at3 a.real) ≤ Spec.sqrDist (at3 p.real) (at3 b.real) := by
  obtain ⟨N, hN, g, n, h⟩ := sqrDist_grid he he' hp ha
  obtain ⟨M, hM, g', n', h'⟩ := sqrDist_grid he he' hp hb
  rw [← KdTree.spec_sqrDist, ← KdTree.spec_sqrDist, h, h']
  have k1 := (g.sqrt_num n (by omega) he').1
  have k2 := (g'.sqrt_num n' (by omega) he').1
  have hlt := g'.sqrt_lt n' g n hM hN he'
  rw [Point3D.dist, Point3D.dist, num_le k1 k2, ← not_lt, hlt, not_lt]
  have g0 : (0:ℝ) < 2 ^ e * 2 ^ e := by positivity
  rw [mul_le_mul_iff_left₀ g0]
  exact_mod_cast Iff.rfl

/-- comparing a computed distance with a length on the grid is comparing the exact one -/
theorem dist_le_grid {e n : ℤ} (he : -500 ≤ e) (he' : e ≤ 400) {p a : Point3D F64} {R : F64} (hp : Grid3 e p) (ha : Grid3 e a) (hR : Grid e n R)
    (h0 : 0 ≤ n) (hn : n ≤ 2 ^ 24) : (p.dist a <=. R) = (p.real.dist a.real <=. toR R) := by
  obtain ⟨N, hN, g, n', h⟩ := sqrDist_grid he he' hp ha
  have k1 := (g.sqrt_num n' (by omega) he').1
  rw [Bool.eq_iff_iff, Point3D.dist, num_le k1 hR.1, g.sqrt_le_step n' hR h0 (by omega) (by omega) he']
  have R0 : (0:ℝ) ≤ toR R := by rw [hR.2]; exact mul_nonneg (by exact_mod_cast h0) (zpow_pos two_pos _).le
  have : (p.real.dist a.real <=. toR R) = true ↔ p.real.dist a.real ≤ toR R := by simp
  rw [this, ← pow_le_pow_iff_left₀ (KdTree.dist_nonneg _ _) R0 two_ne_zero, KdTree.dist_sq, h, hR.2,
    show ((n:ℝ) * 2 ^ e) ^ 2 = (n * n) * (2 ^ e * 2 ^ e) by ring]
  have g0 : (0:ℝ) < 2 ^ e * 2 ^ e := by positivity
  rw [mul_le_mul_iff_left₀ g0]
  exact_mod_cast Iff.rfl

namespace KdTree
variable {P : Type}

theorem leDim_real' {pos : P → Point3D F64} {d : Nat} {a b : P} (ha : (pos a).Num) (hb : (pos b).Num) :
    leDim pos d a b = leDim (fun x => (pos x).real) d a b := by
  match d with
  | 0 => simp only [leDim, Point3D.real, partialCmp_grid ha.1 hb.1]
  | 1 => simp only [leDim, Point3D.real, partialCmp_grid ha.2.1 hb.2.1]
  | 2 => simp only [leDim, Point3D.real, partialCmp_grid ha.2.2 hb.2.2]
  | _ + 3 => rfl

theorem dimensionCompare_num {a b : Point3D F64} {d : Nat} (ha : a.Num) (hb : b.Num) :
    dimensionCompare a b d = dimensionCompare a.real b.real d := by
  match d with
  | 0 => simp only [dimensionCompare, Point3D.real, partialCmp_grid ha.1 hb.1]
  | 1 => simp only [dimensionCompare, Point3D.real, partialCmp_grid ha.2.1 hb.2.1]
  | 2 => simp only [dimensionCompare, Point3D.real, partialCmp_grid ha.2.2 hb.2.2]
  | _ + 3 => rfl

/-- the tree built of doubles is the tree built of the numbers they stand for -/
theorem newNode_real (pos : P → Point3D F64) : ∀ (fuel dim : Nat) (pc : List P), (∀ x ∈ pc, (pos x).Num) →
    newNode pos fuel dim pc = newNode (fun x => (pos x).real) fuel dim pc := by
  intro fuel
  induction fuel with
  | zero => intro dim pc h; rfl
  | succ fuel ih =>
    intro dim pc h
    match pc with
    | [] => rfl
    | [p] => rfl
    | p :: q :: l =>
      have hs : stableSort (leDim pos (dim % 2)) (p :: q :: l) =
          stableSort (leDim (fun x => (pos x).real) (dim % 2)) (p :: q :: l) := by
        have := stableSort_map id (leDim pos (dim % 2)) (leDim (fun x => (pos x).real) (dim % 2)) (fun x => (pos x).Num)
          (fun a b ha hb => leDim_real' ha hb) (p :: q :: l) h
        simpa using this
      have hm : ∀ x ∈ stableSort (leDim (fun x => (pos x).real) (dim % 2)) (p :: q :: l), (pos x).Num :=
        fun x hx => h x ((stableSort_perm _).mem_iff.1 hx)
      simp only [newNode, hs]
      split
      · rfl
      · rw [ih _ _ (fun x hx => hm x (List.mem_of_mem_take hx)), ih _ _ (fun x hx => hm x (List.mem_of_mem_drop hx))]

theorem built_real {pos : P → Point3D F64} {pts : List P} {t : KdTree P} (ht : Built pos pts t) (hnum : ∀ x ∈ pts, (pos x).Num) :
    Built (fun x => (pos x).real) pts t := by
  obtain ⟨hne, rfl⟩ := built_eq ht
  rw [newNode_real _ _ _ _ hnum]
  unfold Built build
  match pts with
  | [] => exact absurd rfl hne
  | _ :: _ => rfl

theorem coord_grid {e : ℤ} {p : Point3D F64} (h : Grid3 e p) (d : Nat) :
    ∃ n : ℤ, |n| ≤ 2 ^ 23 ∧ Grid e n (coordOf d p) ∧ toR (coordOf d p) = coordOf d p.real := by
  obtain ⟨a1, a2, a3, ha1, ha2, ha3, ga1, ga2, ga3⟩ := h.get
  match d with
  | 0 => exact ⟨a1, ha1, ga1, rfl⟩
  | 1 => exact ⟨a2, ha2, ga2, rfl⟩
  | _ + 2 => exact ⟨a3, ha3, ga3, rfl⟩

theorem border_grid {e i j n : ℤ} (he : -500 ≤ e) (he' : e ≤ 400) {c v R : F64} (hc : Grid e i c) (hi : |i| ≤ 2 ^ 30) (hv : Grid e j v)
    (hR : Grid e n R) (hn : |n| ≤ 2 ^ 30) :
    ((c + R >=. v) = (toR c + toR R >=. toR v)) ∧ ((c - R <=. v) = (toR c - toR R <=. toR v)) := by
  have a := hc.add hR (by have := add_bound hi hn; omega) (by omega) (by omega)
  have s := hc.sub hR (by have := sub_bound hi hn; omega) (by omega) (by omega)
  constructor
  · rw [Bool.eq_iff_iff, num_le hv.1 a.1, a.2, hc.2, hR.2, hv.2]
    simp; rw [add_mul]
  · rw [Bool.eq_iff_iff, num_le s.1 hv.1, s.2, hc.2, hR.2, hv.2]
    push_cast; rw [sub_mul]; simp

end KdTree

/-- the sphere of the numbers the doubles stand for -/
noncomputable def Sphere.real (s : Sphere F64) : Sphere ℝ := ⟨s.center.real, ⟨toR s.radius.val⟩⟩
/-- the box of the numbers the doubles stand for -/
noncomputable def Box3D.real (b : Box3D F64) : Box3D ℝ := ⟨b.center.real, ⟨toR b.sizeX.val⟩, ⟨toR b.sizeY.val⟩, ⟨toR b.sizeZ.val⟩⟩

namespace KdTree
variable {P : Type}

theorem inSphere_grid {e n : ℤ} (he : -500 ≤ e) (he' : e ≤ 400) {pos : P → Point3D F64} {s : Sphere F64} (hc : Grid3 e s.center)
    (hR : Grid e n s.radius.val) (h0 : 0 ≤ n) (hn : n ≤ 2 ^ 24) : ∀ (t : KdTree P), (∀ x ∈ t.toPointcloud, Grid3 e (pos x)) → ∀ pc : List P,
    t.inSphere pos s pc = t.inSphere (fun x => (pos x).real) s.real pc := by
  intro t
  induction t with
  | nil => intro _ pc; rfl
  | node l r v d ihl ihr =>
    intro h pc
    have hv : Grid3 e (pos v) := h v (by simp [toPointcloud])
    have il := ihl (fun x hx => h x (by simp [toPointcloud, hx]))
    have ir := ihr (fun x hx => h x (by simp [toPointcloud, hx]))
    have hz : Grid3 e ⟨s.x, s.y, s.z⟩ := by
      refine ⟨⟨hc.1.1, hc.1.2.1, hc.1.2.1⟩, ?_⟩
      have := hc.2
      rw [forall_fin3] at this ⊢
      exact ⟨this.1, this.2.1, this.2.1⟩
    obtain ⟨i, hi, gi, ei⟩ := coord_grid hz d
    obtain ⟨j, hj, gj, ej⟩ := coord_grid hv d
    obtain ⟨b1, b2⟩ := border_grid he he' gi (by omega) gj hR (by rw [abs_of_nonneg h0]; omega)
    have hd := dist_le_grid he he' hc hv hR h0 hn
    simp only [inSphere]
    rw [hd, b1, b2, ei, ej, dimensionCompare_num hc.1 hv.1]
    simp only [il, ir]
    rfl

theorem half_grid {e n : ℤ} (he : -500 ≤ e) (he' : e ≤ 400) {a : F64} (h : Grid (e + 1) n a) (hn : |n| < 2 ^ 52) :
    Grid e n (lit (1/2) * a) := by
  have hh : Grid (-1) 1 (lit (1/2) : F64) := by
    have := ofRat_grid (n := 1) (e := -1) (by norm_num) (by norm_num) (by norm_num)
    have e2 : (lit (1/2) : F64) = F64.ofRat (((1:ℤ):ℚ) * 2 ^ (-1:ℤ)) := by
      show F64.ofRat (1/2) = _
      norm_num
    rw [e2]; exact this
  have := hh.mul h (by rw [one_mul]; omega) (by omega) (by omega)
  rw [one_mul] at this
  convert this using 1
  ring

theorem dimDist_grid {e i j n : ℤ} (he : -500 ≤ e) (he' : e ≤ 400) {c v R : F64} (hc : Grid e i c) (hi : |i| ≤ 2 ^ 23) (hv : Grid e j v)
    (hj : |j| ≤ 2 ^ 23) (hR : Grid e n R) : (Scalar.abs (c - v) <=. R) = (Scalar.abs (toR c - toR v) <=. toR R) := by
  have s := hc.sub hv (by have := sub_bound hi hj; omega) (by omega) (by omega)
  have na : F64.Num (Scalar.abs (c - v)) ∧ toR (Scalar.abs (c - v)) = |toR (c - v)| := ⟨s.1.abs, toR_abs s.1⟩
  rw [Bool.eq_iff_iff, num_le na.1 hR.1, na.2, s.2, hc.2, hv.2]
  push_cast; rw [sub_mul]; simp [-abs_mul]

theorem inBox_grid {e : ℤ} (he : -500 ≤ e) (he' : e ≤ 400) {pos : P → Point3D F64} {b : Box3D F64} (hc : Grid3 e b.center)
    {n1 n2 n3 : ℤ} (g1 : Grid (e + 1) n1 b.sizeX.val) (g2 : Grid (e + 1) n2 b.sizeY.val) (g3 : Grid (e + 1) n3 b.sizeZ.val)
    (k1 : |n1| ≤ 2 ^ 24) (k2 : |n2| ≤ 2 ^ 24) (k3 : |n3| ≤ 2 ^ 24) : ∀ (t : KdTree P), (∀ x ∈ t.toPointcloud, Grid3 e (pos x)) → ∀ pc : List P,
    t.inBox pos b pc = t.inBox (fun x => (pos x).real) b.real pc := by
  intro t
  have f1 := half_grid he he' g1 (by omega)
  have f2 := half_grid he he' g2 (by omega)
  have f3 := half_grid he he' g3 (by omega)
  induction t with
  | nil => intro _ pc; rfl
  | node l r v d ihl ihr =>
    intro h pc
    have hv : Grid3 e (pos v) := h v (by simp [toPointcloud])
    have il := ihl (fun x hx => h x (by simp [toPointcloud, hx]))
    have ir := ihr (fun x hx => h x (by simp [toPointcloud, hx]))
    obtain ⟨i, hi, gi, ei⟩ := coord_grid hc d
    obtain ⟨j, hj, gj, ej⟩ := coord_grid hv d
    have h05 : (lit (1/2) : ℝ) = 1/2 := by simp
    have hval : ∀ {n : ℤ} {a : F64}, Grid (e + 1) n a → Grid e n (lit (1/2) * a) → toR (lit (1/2) * a) = lit (1/2) * toR a := by
      intro n a h1 h2
      rw [h1.2, h2.2, h05, zpow_add₀ two_ne_zero]; ring
    have hsz : ∃ n : ℤ, |n| ≤ 2 ^ 24 ∧ Grid e n (lit (1/2) * coordOf d ⟨b.sizeX.val, b.sizeY.val, b.sizeZ.val⟩) ∧
        toR (lit (1/2) * coordOf d ⟨b.sizeX.val, b.sizeY.val, b.sizeZ.val⟩) =
          lit (1/2) * coordOf d ⟨b.real.sizeX.val, b.real.sizeY.val, b.real.sizeZ.val⟩ := by
      match d with
      | 0 => exact ⟨n1, k1, f1, hval g1 f1⟩
      | 1 => exact ⟨n2, k2, f2, hval g2 f2⟩
      | _ + 2 => exact ⟨n3, k3, f3, hval g3 f3⟩
    obtain ⟨m, hm, gm, em⟩ := hsz
    obtain ⟨b1, b2⟩ := border_grid he he' gi (by omega) gj gm (by omega)
    obtain ⟨i1, i2, i3, hi1, hi2, hi3, gi1, gi2, gi3⟩ := hc.get
    obtain ⟨j1, j2, j3, hj1, hj2, hj3, gj1, gj2, gj3⟩ := hv.get
    have d1 := dimDist_grid he he' gi1 hi1 gj1 hj1 f1
    have d2 := dimDist_grid he he' gi2 hi2 gj2 hj2 f2
    have d3 := dimDist_grid he he' gi3 hi3 gj3 hj3 f3
    simp only [inBox, dimensionDist, Box3D.x, Box3D.y, Box3D.z]
    simp only [d1, d2, d3, b1, b2, ei, ej, em, hval g1 f1, hval g2 f2, hval g3 f3, dimensionCompare_num hc.1 hv.1, il, ir]
    rfl

/-- C102, `in_sphere`: points, center and radius on a fixed point grid; exactly the points of the closed ball are
appended, with multiplicity, whatever the doubles round. -/
theorem c102_in_sphere (e : ℤ) (he : -500 ≤ e) (he' : e ≤ 400) (pos : P → Point3D F64) (pts : List P) (t : KdTree P) (ht : Built pos pts t)
    (hg : ∀ x ∈ pts, Grid3 e (pos x)) (s : Sphere F64) (hc : Grid3 e s.center) (hr : F64.Num s.radius.val)
    (n : ℤ) (h1 : 1 ≤ n) (hn : n ≤ 2 ^ 24) (hR : toR s.radius.val = n * 2 ^ e) (res : List P) :
    ∃ r, t.inSphere pos s res = res ++ r ∧ ∀ p : P → Bool,
      (∀ x, p x = true ↔ Spec.sqrDist (at3 s.center.real) (at3 (pos x).real) ≤ toR s.radius.val ^ 2) → r.Perm (pts.filter p) := by
  have hb := built_real ht (fun x hx => (hg x hx).1)
  have hp : t.toPointcloud.Perm pts := by
    obtain ⟨hne, rfl⟩ := built_eq ht
    exact newNode_perm pos _ _ _ le_rfl
  rw [inSphere_grid he he' hc ⟨hr, hR⟩ (by omega) hn t (fun x hx => hg x (hp.mem_iff.1 hx))]
  refine c27_in_sphere _ pts t hb s.real ?_ res
  show 0 < toR s.radius.val
  rw [hR]
  exact mul_pos (by exact_mod_cast (by omega : 0 < n)) (zpow_pos two_pos _)

/-- C102, `in_box`: points and center on a fixed point grid, sizes on the grid of twice the step; exactly the
points of the closed box are appended, with multiplicity. -/
theorem c102_in_box (e : ℤ) (he : -500 ≤ e) (he' : e ≤ 400) (pos : P → Point3D F64) (pts : List P) (t : KdTree P) (ht : Built pos pts t)
    (hg : ∀ x ∈ pts, Grid3 e (pos x)) (b : Box3D F64) (hc : Grid3 e b.center)
    (hs : Grid3 (e + 1) ⟨b.sizeX.val, b.sizeY.val, b.sizeZ.val⟩) (res : List P) :
    ∃ r, t.inBox pos b res = res ++ r ∧ ∀ p : P → Bool,
      (∀ x, p x = true ↔ ∀ d : Fin 3,
        at3 b.center.real d - ![toR b.sizeX.val, toR b.sizeY.val, toR b.sizeZ.val] d / 2 ≤ at3 (pos x).real d ∧
        at3 (pos x).real d ≤ at3 b.center.real d + ![toR b.sizeX.val, toR b.sizeY.val, toR b.sizeZ.val] d / 2) →
      r.Perm (pts.filter p) := by
  have hb := built_real ht (fun x hx => (hg x hx).1)
  have hp : t.toPointcloud.Perm pts := by
    obtain ⟨hne, rfl⟩ := built_eq ht
    exact newNode_perm pos _ _ _ le_rfl
  obtain ⟨n1, n2, n3, k1, k2, k3, g1, g2, g3⟩ := hs.get
  rw [inBox_grid he he' hc g1 g2 g3 (by omega) (by omega) (by omega) t (fun x hx => hg x (hp.mem_iff.1 hx))]
  exact c27_in_box _ pts t hb b.real res

/-- C102, `nearest`: points and search point on a fixed point grid; a point of truly minimal distance is returned. -/
theorem c102_nearest (e : ℤ) (he : -500 ≤ e) (he' : e ≤ 400) (pos : P → Point3D F64) (pts : List P) (t : KdTree P) (ht : Built pos pts t)
    (hg : ∀ x ∈ pts, Grid3 e (pos x)) (q : Point3D F64) (hq : Grid3 e q) :
    ∃ b ∈ pts, t.nearest pos q = some (some b) ∧
      ∀ x ∈ pts, Spec.sqrDist (at3 q.real) (at3 (pos b).real) ≤ Spec.sqrDist (at3 q.real) (at3 (pos x).real) := by
  obtain ⟨b, hb, h1, h2⟩ := c25_nearest_f64 pos pts t ht (fun x hx => (hg x hx).1) q hq.1
  exact ⟨b, hb, h1, fun x hx => (dist_lt_grid he he' hq (hg b hb) (hg x hx)).1 (h2 x hx)⟩

/-- C102: comparing computed distances is comparing the exact ones, and comparing a computed distance with a
length on the grid is comparing the exact one with it. -/
theorem c102_distances (e : ℤ) (he : -500 ≤ e) (he' : e ≤ 400) (p a b : Point3D F64) (hp : Grid3 e p) (ha : Grid3 e a) (hb : Grid3 e b)
    (R : F64) (hr : F64.Num R) (n : ℤ) (h0 : 0 ≤ n) (hn : n ≤ 2 ^ 24) (hR : toR R = n * 2 ^ e) :
    ((p.dist a <=. p.dist b) = true ↔ Spec.sqrDist (at3 p.real) (at3 a.real) ≤ Spec.sqrDist (at3 p.real) (at3 b.real)) ∧
    ((p.dist a <=. R) = true ↔ Spec.sqrDist (at3 p.real) (at3 a.real) ≤ toR R ^ 2) ∧
    F64.Num (p.sqrDist a) ∧ toR (p.sqrDist a) = Spec.sqrDist (at3 p.real) (at3 a.real) := by
  refine ⟨dist_lt_grid he he' hp ha hb, ?_, ?_⟩
  · rw [dist_le_grid he he' hp ha ⟨hr, hR⟩ h0 hn]
    have R0 : (0:ℝ) ≤ toR R := by rw [hR]; exact mul_nonneg (by exact_mod_cast h0) (zpow_pos two_pos _).le
    rw [← spec_sqrDist, ← dist_sq, pow_le_pow_iff_left₀ (dist_nonneg _ _) R0 two_ne_zero]
    simp
  · obtain ⟨N, hN, g, n', h⟩ := sqrDist_grid he he' hp ha
    exact ⟨g.1, by rw [g.2, ← spec_sqrDist, h, zpow_add₀ two_ne_zero]⟩

/-- the hypotheses are met: points at the border of the sphere (distance 5) and of the box, a corner and a point outside -/
example : ∃ (pts : List (Point3D F64)) (s : Sphere F64) (b : Box3D F64),
    pts = [⟨f ((3:ℤ)), f ((4:ℤ)), f ((0:ℤ))⟩, ⟨f ((0:ℤ)), f ((0:ℤ)), f ((5:ℤ))⟩, ⟨f ((4:ℤ)), f ((4:ℤ)), f ((0:ℤ))⟩] ∧
    (∃ t, Built id pts t) ∧ (∀ x ∈ pts, Grid3 0 (id x)) ∧ Grid3 0 s.center ∧ s.radius.val = f ((5:ℤ)) ∧ F64.Num s.radius.val ∧
    toR s.radius.val = (5:ℤ) * 2 ^ (0:ℤ) ∧ Grid3 0 b.center ∧ Grid3 (0 + 1) ⟨b.sizeX.val, b.sizeY.val, b.sizeZ.val⟩ := by
  have g5 := grid_whole (n := 5) (by norm_num)
  have g8 := grid_whole (n := 8) (by norm_num)
  have g10 := grid_whole (n := 10) (by norm_num)
  have c : Grid3 0 (⟨f ((0:ℤ)), f ((0:ℤ)), f ((0:ℤ))⟩ : Point3D F64) := grid3_whole (by norm_num) (by norm_num) (by norm_num)
  refine ⟨_, ⟨⟨f ((0:ℤ)), f ((0:ℤ)), f ((0:ℤ))⟩, ⟨f ((5:ℤ))⟩⟩, ⟨⟨f ((0:ℤ)), f ((0:ℤ)), f ((0:ℤ))⟩, ⟨f ((8:ℤ))⟩, ⟨f ((8:ℤ))⟩, ⟨f ((10:ℤ))⟩⟩, rfl, ⟨_, built_three _ _ _⟩, ?_,
    c, rfl, g5.1, g5.2, c, ?_⟩
  · intro q hq
    simp only [List.mem_cons, List.not_mem_nil, or_false] at hq
    rcases hq with rfl | rfl | rfl <;> exact grid3_whole (by norm_num) (by norm_num) (by norm_num)
  · refine ⟨⟨g8.1, g8.1, g10.1⟩, ?_⟩
    rw [forall_fin3]
    refine ⟨⟨4, by norm_num, g8.2.trans ?_⟩, ⟨4, by norm_num, g8.2.trans ?_⟩, 5, by norm_num, g10.2.trans ?_⟩ <;> norm_num

end KdTree
end R3D

import Verif.Lemmas.F64Scale
import Verif.Lemmas.F64Dist
import Verif.Props.Similar
import Verif.Props.DistFloat
/-!
C136: doubles, coordinates in a unit that differs by a power of two.
-/
namespace R3D
open Scalar Spec F64

/-- the double `2^k` -/
def Spec.twoPow (k : ℤ) : F64 := .fin false ((2:ℚ) ^ k)

/-- a finite double that is zero or of a magnitude between `2^-300` and `2^300` (about 10^-90 and 10^90) -/
def Spec.Usual (a : F64) : Prop := ∃ s m, a = .fin s m ∧ Rep a ∧ (m = 0 ∨ (2:ℚ) ^ (-300 : ℤ) ≤ m) ∧ m ≤ 2 ^ (300 : ℤ)

/-- a point of such coordinates -/
def Spec.Usual2 (p : Point2D F64) : Prop := Usual p.x ∧ Usual p.y
/-- the same in space -/
def Spec.Usual3 (p : Point3D F64) : Prop := Usual p.x ∧ Usual p.y ∧ Usual p.z

namespace Two
variable {k : ℤ}

theorem Usual.num {a : F64} (h : Usual a) : F64.Num a := by
  obtain ⟨s, m, rfl, hr, -⟩ := h; exact Num.mk' hr

theorem Usual.rep {a : F64} (h : Usual a) : Rep a := by obtain ⟨s, m, rfl, hr, -⟩ := h; exact hr

theorem Usual.calm {a : F64} (h : Usual a) : Calm (-352) 300 a := by
  obtain ⟨s, m, rfl, hr, h1, h2⟩ := h
  rcases h1 with rfl | h1
  · exact ⟨s, 0, by simp, by simp⟩
  · obtain ⟨-, -, hd⟩ := hr
    have hm := (two_zpow_pos (-300)).trans_le h1
    obtain ⟨j, -, -, hj⟩ := dyad_normal hd ((pow_le (by norm_num)).trans h1)
    have hi : -300 ≤ ilog2 m := by
      have h := h1.trans_lt (ilog2_spec hm).2
      rw [zpow_lt_zpow_iff_right₀ one_lt_two] at h; omega
    obtain ⟨i, hi⟩ := mult_down j (show (-352 : ℤ) ≤ ilog2 m - 52 by omega)
    exact ⟨s, i, by rw [← hi, ← hj], by rw [← hi, ← hj]; exact h2⟩

/-- the range of the factors -/
abbrev K (k : ℤ) : Prop := -100 ≤ k ∧ k ≤ 100

theorem f_mul (hk : K k) {n M : ℤ} {a : F64} (ha : Calm n M a) (hr : Rep a) (hn : -900 ≤ n) (hM : M ≤ 900) : twoPow k * a = pow2 k a := by
  obtain ⟨h1, h2⟩ := hk
  exact twoPow_mul ha hr (by omega) (by omega) (by omega) (by omega)

theorem f_usual (hk : K k) {a : F64} (ha : Usual a) : twoPow k * a = pow2 k a :=
  f_mul hk (Usual.calm ha) (Usual.rep ha) (by norm_num) (by norm_num)

def up2 (k : ℤ) (p : Point2D F64) : Point2D F64 := ⟨pow2 k p.x, pow2 k p.y⟩
def up3 (k : ℤ) (p : Point3D F64) : Point3D F64 := ⟨pow2 k p.x, pow2 k p.y, pow2 k p.z⟩

theorem smul2 (hk : K k) {p : Point2D F64} (hp : Usual2 p) : p.smul (twoPow k) = up2 k p := by
  simp only [Point2D.smul, up2, f_usual hk hp.1, f_usual hk hp.2]
theorem smul3 (hk : K k) {p : Point3D F64} (hp : Usual3 p) : p.smul (twoPow k) = up3 k p := by
  simp only [Point3D.smul, up3, f_usual hk hp.1, f_usual hk hp.2.1, f_usual hk hp.2.2]

theorem sub (hk : K k) {n M : ℤ} {a b : F64} (ha : Calm n M a) (hb : Calm n M b) (hn : -900 ≤ n) (hM0 : -900 ≤ M) (hM : M ≤ 900) :
    pow2 k a - pow2 k b = pow2 k (a - b) ∧ Calm n (M + 1) (a - b) := by
  obtain ⟨h1, h2⟩ := hk
  exact sub_pow2 ha hb (by omega) (by omega) (by omega) (by omega) (by omega)

theorem add (hk : K k) {n M : ℤ} {a b : F64} (ha : Calm n M a) (hb : Calm n M b) (hn : -900 ≤ n) (hM0 : -900 ≤ M) (hM : M ≤ 900) :
    pow2 k a + pow2 k b = pow2 k (a + b) ∧ Calm n (M + 1) (a + b) := by
  obtain ⟨h1, h2⟩ := hk
  exact add_pow2 ha hb (by omega) (by omega) (by omega) (by omega) (by omega)

theorem add' (hk : K k) {n M : ℤ} {a b : F64} (ha : Calm n M a) (hb : Calm n M b) (hn : -800 ≤ n) (hM0 : -800 ≤ M) (hM : M ≤ 800) :
    pow2 (k + k) a + pow2 (k + k) b = pow2 (k + k) (a + b) ∧ Calm n (M + 1) (a + b) := by
  obtain ⟨h1, h2⟩ := hk
  exact add_pow2 ha hb (by omega) (by omega) (by omega) (by omega) (by omega)

theorem sub' (hk : K k) {n M : ℤ} {a b : F64} (ha : Calm n M a) (hb : Calm n M b) (hn : -800 ≤ n) (hM0 : -800 ≤ M) (hM : M ≤ 800) :
    pow2 (k + k) a - pow2 (k + k) b = pow2 (k + k) (a - b) ∧ Calm n (M + 1) (a - b) := by
  obtain ⟨h1, h2⟩ := hk
  exact sub_pow2 ha hb (by omega) (by omega) (by omega) (by omega) (by omega)

theorem mul (hk : K k) {n M : ℤ} {a b : F64} (ha : Calm n M a) (hb : Calm n M b) (hn : -400 ≤ n) (hM0 : -400 ≤ M) (hM : M ≤ 400) :
    pow2 k a * pow2 k b = pow2 (k + k) (a * b) ∧ Calm (n + n) (M + M) (a * b) := by
  obtain ⟨h1, h2⟩ := hk
  exact mul_pow2 ha hb (by omega) (by omega) (by omega) (by omega) (by omega)

theorem half (hk : K k) (c : ℚ) (hc : c = 1/2 ∨ c = 2) {n M : ℤ} {a : F64} (ha : Calm n M a) (hn : -900 ≤ n) (hM0 : -900 ≤ M) (hM : M ≤ 900) :
    Scalar.lit c * pow2 k a = pow2 k (Scalar.lit c * a) ∧ Calm (n - 1) (M + 1) (Scalar.lit c * a) := by
  obtain ⟨h1, h2⟩ := hk
  exact lit_mul_pow2 c hc ha (by omega) (by omega) (by omega) (by omega) (by omega)

theorem div2 (hk : K k) {n M : ℤ} {a : F64} (ha : Calm n M a) (hn : -900 ≤ n) (hM0 : -900 ≤ M) (hM : M ≤ 900) :
    pow2 k a / Scalar.lit 2 = pow2 k (a / Scalar.lit 2) ∧ Calm (n - 1) M (a / Scalar.lit 2) := by
  obtain ⟨h1, h2⟩ := hk
  exact half_pow2 ha (by omega) (by omega) (by omega) (by omega) (by omega)

theorem cmp (k : ℤ) (a b : F64) : partialCmp (pow2 k a) (pow2 k b) = partialCmp a b := by
  simp only [partialCmp, pow2_lt, pow2_eq]

theorem usub (hk : K k) {a b : F64} (ha : Usual a) (hb : Usual b) : pow2 k a - pow2 k b = pow2 k (a - b) ∧ Calm (-352) 301 (a - b) :=
  sub hk (Usual.calm ha) (Usual.calm hb) (by norm_num) (by norm_num) (by norm_num)

theorem usq (hk : K k) {a b : F64} (ha : Usual a) (hb : Usual b) :
    Scalar.sq (pow2 k a - pow2 k b) = pow2 (k + k) (Scalar.sq (a - b)) ∧ Calm (-704) 602 (Scalar.sq (a - b)) := by
  obtain ⟨h1, h2⟩ := usub hk ha hb
  rw [h1]
  exact mul hk h2 h2 (by norm_num) (by norm_num) (by norm_num)

theorem num3 {p : Point3D F64} (h : Usual3 p) : p.Num := ⟨Usual.num h.1, Usual.num h.2.1, Usual.num h.2.2⟩

theorem sqrDist3 (hk : K k) {p q : Point3D F64} (hp : Usual3 p) (hq : Usual3 q) :
    (up3 k p).sqrDist (up3 k q) = pow2 (k + k) (p.sqrDist q) ∧ Calm (-704) 604 (p.sqrDist q) := by
  obtain ⟨x1, x2⟩ := usq hk hp.1 hq.1
  obtain ⟨y1, y2⟩ := usq hk hp.2.1 hq.2.1
  obtain ⟨z1, z2⟩ := usq hk hp.2.2 hq.2.2
  obtain ⟨s1, s2⟩ := add' hk x2 y2 (by norm_num) (by norm_num) (by norm_num)
  obtain ⟨t1, t2⟩ := add' hk s2 (z2.mono (by norm_num)) (by norm_num) (by norm_num) (by norm_num)
  simp only [Point3D.sqrDist, up3, x1, y1, z1, s1, t1]
  exact ⟨trivial, t2⟩

theorem sqrDist2 (hk : K k) {p q : Point2D F64} (hp : Usual2 p) (hq : Usual2 q) :
    (up2 k p).sqrDist (up2 k q) = pow2 (k + k) (p.sqrDist q) ∧ Calm (-704) 604 (p.sqrDist q) := by
  obtain ⟨x1, x2⟩ := usq hk hp.1 hq.1
  obtain ⟨y1, y2⟩ := usq hk hp.2 hq.2
  obtain ⟨s1, s2⟩ := add' hk x2 y2 (by norm_num) (by norm_num) (by norm_num)
  simp only [Point2D.sqrDist, up2, x1, y1, s1]
  exact ⟨trivial, s2.mono (by norm_num)⟩

theorem root (hk : K k) {a : F64} (ha : Calm (-704) 604 a) (hn : NonNeg a) :
    Scalar.sqrt (pow2 (k + k) a) = pow2 k (Scalar.sqrt a) ∧ Calm (-404) 303 (Scalar.sqrt a) := by
  have hs : ∃ m, a = .fin false m := by
    rcases hn with rfl | ⟨m, rfl, -⟩
    · obtain ⟨s, z, h, -⟩ := ha; cases h
    · exact ⟨m, rfl⟩
  obtain ⟨h1, h2⟩ := hk
  rw [← two_mul]
  refine ⟨sqrt_pow2 ha (by norm_num) (by omega) (by norm_num) (by omega), ?_⟩
  have := sqrt_calm ha hs (by norm_num) (by norm_num)
  norm_num at this
  exact this

theorem nonNeg2 {p q : Point2D F64} (hp : Usual2 p) (hq : Usual2 q) : NonNeg (p.sqrDist q) :=
  add_nonNeg (Point3D.sq_sub_nonNeg (Usual.num hp.1) (Usual.num hq.1)) (Point3D.sq_sub_nonNeg (Usual.num hp.2) (Usual.num hq.2))

theorem dist3 (hk : K k) {p q : Point3D F64} (hp : Usual3 p) (hq : Usual3 q) :
    (up3 k p).dist (up3 k q) = pow2 k (p.dist q) ∧ Calm (-404) 303 (p.dist q) := by
  obtain ⟨h1, h2⟩ := sqrDist3 hk hp hq
  rw [Point3D.dist, h1]
  exact root hk h2 (Point3D.sqrDist_nonNeg (num3 hp) (num3 hq))

theorem dist2 (hk : K k) {p q : Point2D F64} (hp : Usual2 p) (hq : Usual2 q) :
    (up2 k p).dist (up2 k q) = pow2 k (p.dist q) ∧ Calm (-404) 303 (p.dist q) := by
  obtain ⟨h1, h2⟩ := sqrDist2 hk hp hq
  rw [Point2D.dist, h1]
  exact root hk h2 (nonNeg2 hp hq)

theorem f_f (hk : K k) {a : F64} (ha : Calm (-704) 604 a) (hr : Rep a) : twoPow k * (twoPow k * a) = pow2 (k + k) a := by
  rw [f_mul hk ha hr (by norm_num) (by norm_num)]
  have h : Rep (pow2 k a) := by rw [← f_mul hk ha hr (by norm_num) (by norm_num)]; exact mul_rep _ _
  obtain ⟨h1, h2⟩ := hk
  rw [f_mul ⟨h1, h2⟩ ha.pow2 h (by omega) (by omega), pow2_pow2]

end Two

/-- **C136**: multiplying by a power of two is exact. -/
theorem c136_exact (k : ℤ) (hk : -100 ≤ k ∧ k ≤ 100) (s : Bool) (m : ℚ) (h : Usual (.fin s m)) :
    twoPow k * .fin s m = .fin s (m * 2 ^ k) := Two.f_usual hk h

/-- **C136**, distances: in the other unit the distances of points are, bit by bit, the same distances in the other unit. -/
theorem c136_distances (k : ℤ) (hk : -100 ≤ k ∧ k ≤ 100) :
    (∀ p q : Point3D F64, Usual3 p → Usual3 q → (p.smul (twoPow k)).dist (q.smul (twoPow k)) = twoPow k * p.dist q ∧
      (p.smul (twoPow k)).sqrDist (q.smul (twoPow k)) = twoPow k * (twoPow k * p.sqrDist q)) ∧
    (∀ p q : Point2D F64, Usual2 p → Usual2 q → (p.smul (twoPow k)).dist (q.smul (twoPow k)) = twoPow k * p.dist q ∧
      (p.smul (twoPow k)).sqrDist (q.smul (twoPow k)) = twoPow k * (twoPow k * p.sqrDist q)) := by
  constructor
  · intro p q hp hq
    obtain ⟨h1, h2⟩ := Two.sqrDist3 hk hp hq
    obtain ⟨h3, h4⟩ := Two.dist3 hk hp hq
    rw [Two.smul3 hk hp, Two.smul3 hk hq, h1, h3, Two.f_f hk h2 (add_rep _ _), Two.f_mul hk h4 (sqrt_rep _) (by norm_num) (by norm_num)]
    exact ⟨rfl, rfl⟩
  · intro p q hp hq
    obtain ⟨h1, h2⟩ := Two.sqrDist2 hk hp hq
    obtain ⟨h3, h4⟩ := Two.dist2 hk hp hq
    rw [Two.smul2 hk hp, Two.smul2 hk hq, h1, h3, Two.f_f hk h2 (add_rep _ _), Two.f_mul hk h4 (sqrt_rep _) (by norm_num) (by norm_num)]
    exact ⟨rfl, rfl⟩

namespace Two
variable {k : ℤ} {P : Type}

theorem leDim (k : ℤ) (pos : P → Point3D F64) (d : Nat) : KdTree.leDim (fun p => up3 k (pos p)) d = KdTree.leDim pos d := by
  funext a b
  unfold KdTree.leDim
  simp only [up3, cmp]

theorem newNode (k : ℤ) (pos : P → Point3D F64) (fuel dim : Nat) (pc : List P) :
    KdTree.newNode (fun p => up3 k (pos p)) fuel dim pc = KdTree.newNode pos fuel dim pc := by
  induction fuel generalizing dim pc with
  | zero => rfl
  | succ fuel ih => simp only [KdTree.newNode, leDim, ih]

theorem dimensionCompare (k : ℤ) (p q : Point3D F64) (d : Nat) :
    R3D.dimensionCompare (up3 k p) (up3 k q) d = R3D.dimensionCompare p q d := by
  unfold R3D.dimensionCompare
  simp only [up3, cmp]

theorem coordOf (k : ℤ) (d : Nat) (p : Point3D F64) : KdTree.coordOf d (up3 k p) = pow2 k (KdTree.coordOf d p) := by
  unfold KdTree.coordOf
  split <;> rfl

theorem coord_usual (d : Nat) {p : Point3D F64} (h : Usual3 p) : Usual (KdTree.coordOf d p) := by
  unfold KdTree.coordOf
  split
  · exact h.1
  · exact h.2.1
  · exact h.2.2

theorem sortAndLimit (hk : K k) (pos : P → Point3D F64) (hpos : ∀ p, Usual3 (pos p)) {s : Point3D F64} (hs : Usual3 s) (n : Nat) (pc : List P) :
    KdTree.sortAndLimit (fun p => up3 k (pos p)) (up3 k s) n pc = KdTree.sortAndLimit pos s n pc := by
  simp only [KdTree.sortAndLimit, (sqrDist3 hk hs (hpos _)).1, cmp]

theorem pushCandidate (hk : K k) (pos : P → Point3D F64) (hpos : ∀ p, Usual3 (pos p)) {s : Point3D F64} (hs : Usual3 s) (n : Nat) (p : P) (pc : List P) :
    KdTree.pushCandidate (fun p => up3 k (pos p)) (up3 k s) n p pc = KdTree.pushCandidate pos s n p pc := by
  simp only [KdTree.pushCandidate, (sqrDist3 hk hs (hpos _)).1, pow2_lt]

theorem border (hk : K k) {p q r : Point3D F64} (hp : Usual3 p) (hq : Usual3 q) (d : Nat) :
    pow2 k (KdTree.coordOf d r) - pow2 k (p.dist q) = pow2 k (KdTree.coordOf d r - p.dist q) ∧
    pow2 k (KdTree.coordOf d r) + pow2 k (p.dist q) = pow2 k (KdTree.coordOf d r + p.dist q) ∨ ¬ Usual3 r := by
  by_cases hr : Usual3 r
  · left
    have h2 := (dist3 hk hp hq).2
    have h1 := ((Usual.calm (coord_usual d hr)).down (show (-404:ℤ) ≤ -352 by norm_num)).mono (show (300:ℤ) ≤ 303 by norm_num)
    exact ⟨(sub hk h1 h2 (by norm_num) (by norm_num) (by norm_num)).1, (add hk h1 h2 (by norm_num) (by norm_num) (by norm_num)).1⟩
  · exact .inr hr

theorem border_sub (hk : K k) {p q r : Point3D F64} (hp : Usual3 p) (hq : Usual3 q) (hr : Usual3 r) (d : Nat) :
    pow2 k (KdTree.coordOf d r) - pow2 k (p.dist q) = pow2 k (KdTree.coordOf d r - p.dist q) :=
  ((border hk hp hq d).resolve_right (not_not.2 hr)).1
theorem border_add (hk : K k) {p q r : Point3D F64} (hp : Usual3 p) (hq : Usual3 q) (hr : Usual3 r) (d : Nat) :
    pow2 k (KdTree.coordOf d r) + pow2 k (p.dist q) = pow2 k (KdTree.coordOf d r + p.dist q) :=
  ((border hk hp hq d).resolve_right (not_not.2 hr)).2

theorem knearestNode (hk : K k) (pos : P → Point3D F64) (hpos : ∀ p, Usual3 (pos p)) {s : Point3D F64} (hs : Usual3 s) (n : Nat) (t : KdTree P) (pc : List P) :
    KdTree.knearestNode (fun p => up3 k (pos p)) (up3 k s) n t pc = KdTree.knearestNode pos s n t pc := by
  induction t generalizing pc with
  | nil => rfl
  | node l r x d ihl ihr =>
    simp only [KdTree.knearestNode, pushCandidate hk pos hpos hs, dimensionCompare, sortAndLimit hk pos hpos hs, ihl, ihr, coordOf,
      (dist3 hk hs (hpos _)).1, border_sub hk hs (hpos _) hs, border_add hk hs (hpos _) hs, pow2_le]

theorem inSphere (hk : K k) (pos : P → Point3D F64) (hpos : ∀ p, Usual3 (pos p)) {c : Point3D F64} (hc : Usual3 c) {r : F64} (hr : Usual r)
    (t : KdTree P) (pc : List P) :
    t.inSphere (fun p => up3 k (pos p)) ⟨up3 k c, ⟨pow2 k r⟩⟩ pc = t.inSphere pos ⟨c, ⟨r⟩⟩ pc := by
  have e : ∀ d, KdTree.coordOf d (⟨(Sphere.mk (up3 k c) ⟨pow2 k r⟩).x, (Sphere.mk (up3 k c) ⟨pow2 k r⟩).y, (Sphere.mk (up3 k c) ⟨pow2 k r⟩).z⟩ : Point3D F64) =
      pow2 k (KdTree.coordOf d ⟨(Sphere.mk c ⟨r⟩).x, (Sphere.mk c ⟨r⟩).y, (Sphere.mk c ⟨r⟩).z⟩) := fun d =>
    coordOf k d ⟨(Sphere.mk c ⟨r⟩).x, (Sphere.mk c ⟨r⟩).y, (Sphere.mk c ⟨r⟩).z⟩
  have u : Usual3 ⟨(Sphere.mk c ⟨r⟩).x, (Sphere.mk c ⟨r⟩).y, (Sphere.mk c ⟨r⟩).z⟩ := ⟨hc.1, hc.2.1, hc.2.1⟩
  have b1 : ∀ d, pow2 k (KdTree.coordOf d ⟨(Sphere.mk c ⟨r⟩).x, (Sphere.mk c ⟨r⟩).y, (Sphere.mk c ⟨r⟩).z⟩) - pow2 k r =
      pow2 k (KdTree.coordOf d ⟨(Sphere.mk c ⟨r⟩).x, (Sphere.mk c ⟨r⟩).y, (Sphere.mk c ⟨r⟩).z⟩ - r) := fun d => (usub hk (coord_usual d u) hr).1
  have b2 : ∀ d, pow2 k (KdTree.coordOf d ⟨(Sphere.mk c ⟨r⟩).x, (Sphere.mk c ⟨r⟩).y, (Sphere.mk c ⟨r⟩).z⟩) + pow2 k r =
      pow2 k (KdTree.coordOf d ⟨(Sphere.mk c ⟨r⟩).x, (Sphere.mk c ⟨r⟩).y, (Sphere.mk c ⟨r⟩).z⟩ + r) := fun d =>
    (add hk (Usual.calm (coord_usual d u)) (Usual.calm hr) (by norm_num) (by norm_num) (by norm_num)).1
  induction t generalizing pc with
  | nil => rfl
  | node lt rt x d ihl ihr =>
    simp only [KdTree.inSphere, (dist3 hk hc (hpos _)).1, pow2_le, dimensionCompare, ihl, ihr, e, b1, b2, coordOf]

theorem inBox (hk : K k) (pos : P → Point3D F64) (hpos : ∀ p, Usual3 (pos p)) {c : Point3D F64} (hc : Usual3 c) {sx sy sz : F64}
    (hx : Usual sx) (hy : Usual sy) (hz : Usual sz) (t : KdTree P) (pc : List P) :
    t.inBox (fun p => up3 k (pos p)) ⟨up3 k c, ⟨pow2 k sx⟩, ⟨pow2 k sy⟩, ⟨pow2 k sz⟩⟩ pc = t.inBox pos ⟨c, ⟨sx⟩, ⟨sy⟩, ⟨sz⟩⟩ pc := by
  have e' : ∀ d, KdTree.coordOf d (⟨pow2 k sx, pow2 k sy, pow2 k sz⟩ : Point3D F64) = pow2 k (KdTree.coordOf d ⟨sx, sy, sz⟩) :=
    fun d => coordOf k d ⟨sx, sy, sz⟩
  have us : Usual3 ⟨sx, sy, sz⟩ := ⟨hx, hy, hz⟩
  have h2 : ∀ {a : F64}, Usual a → lit (1/2) * pow2 k a = pow2 k (lit (1/2) * a) ∧ Calm (-353) 301 (lit (1/2) * a) := fun ha =>
    half hk (1/2) (.inl rfl) (Usual.calm ha) (by norm_num) (by norm_num) (by norm_num)
  have hb : ∀ {a b : F64}, Usual a → Usual b → pow2 k a - pow2 k (lit (1/2) * b) = pow2 k (a - lit (1/2) * b) ∧
      pow2 k a + pow2 k (lit (1/2) * b) = pow2 k (a + lit (1/2) * b) := fun ha hb => by
    have h1 := ((Usual.calm ha).down (show (-353:ℤ) ≤ -352 by norm_num)).mono (show (300:ℤ) ≤ 301 by norm_num)
    exact ⟨(sub hk h1 (h2 hb).2 (by norm_num) (by norm_num) (by norm_num)).1, (add hk h1 (h2 hb).2 (by norm_num) (by norm_num) (by norm_num)).1⟩
  have a1 : ∀ {a b : F64}, Usual a → Usual b → Scalar.abs (pow2 k a - pow2 k b) = pow2 k (Scalar.abs (a - b)) := fun ha hb => by
    rw [(usub hk ha hb).1, pow2_abs]
  induction t generalizing pc with
  | nil => rfl
  | node lt rt x d ihl ihr =>
    have q1 := (h2 (coord_usual d us)).1
    have q2 := hb (coord_usual d hc) (coord_usual d us)
    simp only [KdTree.inBox, Box3D.x, Box3D.y, Box3D.z, dimensionCompare, ihl, ihr]
    simp only [dimensionDist, up3, a1 hc.1 (hpos x).1, a1 hc.2.1 (hpos x).2.1, a1 hc.2.2 (hpos x).2.2, (h2 hx).1, (h2 hy).1, (h2 hz).1, pow2_le]
    simp only [e', show KdTree.coordOf d (⟨pow2 k c.x, pow2 k c.y, pow2 k c.z⟩ : Point3D F64) = pow2 k (KdTree.coordOf d c) from coordOf k d c,
      show KdTree.coordOf d (⟨pow2 k (pos x).x, pow2 k (pos x).y, pow2 k (pos x).z⟩ : Point3D F64) = pow2 k (KdTree.coordOf d (pos x)) from coordOf k d _,
      q1, q2.1, q2.2, pow2_le]
    rfl

theorem pos_eq (hk : K k) (pos : P → Point3D F64) (hpos : ∀ p, Usual3 (pos p)) : (fun p => (pos p).smul (twoPow k)) = fun p => up3 k (pos p) :=
  funext fun p => smul3 hk (hpos p)

end Two

/-- **C136**, k-d tree: in the other unit the same tree is built, and all searches find the same points in the same order. -/
theorem c136_kd {P : Type} (k : ℤ) (hk : -100 ≤ k ∧ k ≤ 100) (pos : P → Point3D F64) (hpos : ∀ p, Usual3 (pos p)) (t : KdTree P) (pc res : List P)
    (q : Point3D F64) (hq : Usual3 q) :
    KdTree.build (fun p => (pos p).smul (twoPow k)) t pc = KdTree.build pos t pc ∧
    t.nearest (fun p => (pos p).smul (twoPow k)) (q.smul (twoPow k)) = t.nearest pos q ∧
    (∀ n, t.knearest (fun p => (pos p).smul (twoPow k)) (q.smul (twoPow k)) n res = t.knearest pos q n res) ∧
    (∀ r, Usual r → t.inSphere (fun p => (pos p).smul (twoPow k)) ⟨q.smul (twoPow k), ⟨twoPow k * r⟩⟩ res = t.inSphere pos ⟨q, ⟨r⟩⟩ res) ∧
    (∀ sx sy sz, Usual sx → Usual sy → Usual sz →
      t.inBox (fun p => (pos p).smul (twoPow k)) ⟨q.smul (twoPow k), ⟨twoPow k * sx⟩, ⟨twoPow k * sy⟩, ⟨twoPow k * sz⟩⟩ res =
        t.inBox pos ⟨q, ⟨sx⟩, ⟨sy⟩, ⟨sz⟩⟩ res) := by
  rw [Two.pos_eq hk pos hpos, Two.smul3 hk hq]
  refine ⟨?_, ?_, ?_, ?_, ?_⟩
  · simp only [KdTree.build, Two.newNode]
  · simp only [KdTree.nearest, KdTree.knearest, Two.knearestNode hk pos hpos hq]
  · intro n
    simp only [KdTree.knearest, Two.knearestNode hk pos hpos hq]
  · intro r hr
    rw [Two.f_usual hk hr, Two.inSphere hk pos hpos hq hr]
  · intro sx sy sz hx hy hz
    rw [Two.f_usual hk hx, Two.f_usual hk hy, Two.f_usual hk hz, Two.inBox hk pos hpos hq hx hy hz]


/-- **C136**, filters: in the other unit the same points are allowed. -/
theorem c136_filters (k : ℤ) (hk : -100 ≤ k ∧ k ≤ 100) :
    (∀ (c p : Point3D F64) r, Usual3 c → Usual3 p → Usual r →
      filterSphere ⟨c.smul (twoPow k), ⟨twoPow k * r⟩⟩ (p.smul (twoPow k)) = filterSphere ⟨c, ⟨r⟩⟩ p) ∧
    (∀ (c p : Point2D F64) r, Usual2 c → Usual2 p → Usual r →
      filterCircle ⟨c.smul (twoPow k), ⟨twoPow k * r⟩⟩ (p.smul (twoPow k)) = filterCircle ⟨c, ⟨r⟩⟩ p) ∧
    (∀ (c p : Point3D F64) sx sy sz, Usual3 c → Usual3 p → Usual sx → Usual sy → Usual sz →
      filterBox3D ⟨c.smul (twoPow k), ⟨twoPow k * sx⟩, ⟨twoPow k * sy⟩, ⟨twoPow k * sz⟩⟩ (p.smul (twoPow k)) =
        filterBox3D ⟨c, ⟨sx⟩, ⟨sy⟩, ⟨sz⟩⟩ p) ∧
    (∀ (c p : Point2D F64) sx sy, Usual2 c → Usual2 p → Usual sx → Usual sy →
      filterBox2D ⟨c.smul (twoPow k), ⟨twoPow k * sx⟩, ⟨twoPow k * sy⟩⟩ (p.smul (twoPow k)) = filterBox2D ⟨c, ⟨sx⟩, ⟨sy⟩⟩ p) := by
  have h2 : ∀ {a : F64}, Usual a → pow2 k a / lit 2 = pow2 k (a / lit 2) ∧ Calm (-353) 300 (a / lit 2) := fun ha =>
    Two.div2 hk (Two.Usual.calm ha) (by norm_num) (by norm_num) (by norm_num)
  have hm : ∀ {a b : F64}, Usual a → Usual b → pow2 k a - pow2 k b / lit 2 = pow2 k (a - b / lit 2) := fun ha hb => by
    rw [(h2 hb).1]
    exact (Two.sub hk ((Two.Usual.calm ha).down (by norm_num)) (h2 hb).2 (by norm_num) (by norm_num) (by norm_num)).1
  have hp : ∀ {a b : F64}, Usual a → Usual b → pow2 k a + pow2 k b / lit 2 = pow2 k (a + b / lit 2) := fun ha hb => by
    rw [(h2 hb).1]
    exact (Two.add hk ((Two.Usual.calm ha).down (by norm_num)) (h2 hb).2 (by norm_num) (by norm_num) (by norm_num)).1
  refine ⟨?_, ?_, ?_, ?_⟩
  · intro c p r hc hpp hr
    rw [Two.smul3 hk hc, Two.smul3 hk hpp, Two.f_usual hk hr]
    simp only [filterSphere, (Two.dist3 hk hpp hc).1, pow2_le]
  · intro c p r hc hpp hr
    rw [Two.smul2 hk hc, Two.smul2 hk hpp, Two.f_usual hk hr]
    simp only [filterCircle, (Two.dist2 hk hpp hc).1, pow2_le]
  · intro c p sx sy sz hc hpp hx hy hz
    rw [Two.smul3 hk hc, Two.smul3 hk hpp, Two.f_usual hk hx, Two.f_usual hk hy, Two.f_usual hk hz]
    simp only [filterBox3D, Box3D.x, Box3D.y, Box3D.z, Two.up3, hm hc.1 hx, hm hc.2.1 hy, hm hc.2.2 hz, hp hc.1 hx, hp hc.2.1 hy, hp hc.2.2 hz, pow2_le]
  · intro c p sx sy hc hpp hx hy
    rw [Two.smul2 hk hc, Two.smul2 hk hpp, Two.f_usual hk hx, Two.f_usual hk hy]
    simp only [filterBox2D, Box2D.x, Box2D.y, Two.up2, hm hc.1 hx, hm hc.2 hy, hp hc.1 hx, hp hc.2 hy, pow2_le]

namespace Two
variable {k : ℤ}

theorem ccw (hk : K k) {a b c : Point2D F64} (ha : Usual2 a) (hb : Usual2 b) (hc : Usual2 c) :
    R3D.ccw (up2 k a) (up2 k b) (up2 k c) = pow2 (k + k) (R3D.ccw a b c) := by
  have s1 := usub hk hb.1 ha.1
  have s2 := usub hk hc.2 ha.2
  have s3 := usub hk hb.2 ha.2
  have s4 := usub hk hc.1 ha.1
  obtain ⟨m1, n1⟩ := mul hk s1.2 s2.2 (by norm_num) (by norm_num) (by norm_num)
  obtain ⟨m2, n2⟩ := mul hk s3.2 s4.2 (by norm_num) (by norm_num) (by norm_num)
  simp only [R3D.ccw, up2, s1.1, s2.1, s3.1, s4.1, m1, m2]
  exact (sub' hk n1 n2 (by norm_num) (by norm_num) (by norm_num)).1

theorem le_zero (j : ℤ) (a : F64) : (pow2 j a <=. (zero : F64)) = (a <=. (zero : F64)) := by
  conv_lhs => rw [← pow2_zero j]
  exact pow2_le j a zero
theorem zero_lt (j : ℤ) (a : F64) : ((zero : F64) <. pow2 j a) = ((zero : F64) <. a) := by
  conv_lhs => rw [← pow2_zero j]
  exact pow2_lt j zero a
theorem zero_le (j : ℤ) (a : F64) : ((zero : F64) <=. pow2 j a) = ((zero : F64) <=. a) := by
  conv_lhs => rw [← pow2_zero j]
  exact pow2_le j zero a

theorem hullPop (hk : K k) {p : Point2D F64} (hp : Usual2 p) (l : List (Point2D F64)) (hl : ∀ q ∈ l, Usual2 q) :
    R3D.hullPop (up2 k p) (l.map (up2 k)) = (R3D.hullPop p l).map (up2 k) ∧ ∀ q ∈ R3D.hullPop p l, Usual2 q := by
  induction l with
  | nil => exact ⟨rfl, hl⟩
  | cons b l ih =>
    cases l with
    | nil => exact ⟨rfl, hl⟩
    | cons a l =>
      have ih := ih (fun q hq => hl q (List.mem_cons_of_mem _ hq))
      simp only [List.map_cons, R3D.hullPop, ccw hk (hl a (by simp)) (hl b (by simp)) hp, le_zero] at ih ⊢
      split
      · exact ih
      · exact ⟨by simp, hl⟩

theorem hullChain (hk : K k) (l : List (Point2D F64)) (hl : ∀ q ∈ l, Usual2 q) :
    R3D.hullChain (l.map (up2 k)) = (R3D.hullChain l).map (up2 k) ∧ ∀ q ∈ R3D.hullChain l, Usual2 q := by
  have : ∀ l s : List (Point2D F64), (∀ q ∈ l, Usual2 q) → (∀ q ∈ s, Usual2 q) →
      (l.map (up2 k)).foldl hullStep (s.map (up2 k)) = (l.foldl hullStep s).map (up2 k) ∧ ∀ q ∈ l.foldl hullStep s, Usual2 q := by
    intro l
    induction l with
    | nil => intro s _ hs; exact ⟨rfl, hs⟩
    | cons p l ih =>
      intro s hl hs
      obtain ⟨h1, h2⟩ := hullPop hk (hl p (by simp)) s hs
      simp only [List.map_cons, List.foldl_cons, hullStep, h1]
      refine ih (p :: R3D.hullPop p s) (fun q hq => hl q (List.mem_cons_of_mem _ hq)) ?_
      intro q hq
      rcases List.mem_cons.1 hq with rfl | hq
      · exact hl q (by simp)
      · exact h2 q hq
  simp only [R3D.hullChain]
  rw [List.map_reverse]
  exact ⟨congrArg List.reverse (this l [] hl (by simp)).1, fun q hq => (this l [] hl (by simp)).2 q (List.mem_reverse.1 hq)⟩

theorem map_smul2 (hk : K k) {l : List (Point2D F64)} (hl : ∀ q ∈ l, Usual2 q) : l.map (fun p => p.smul (twoPow k)) = l.map (up2 k) :=
  List.map_congr_left fun q hq => smul2 hk (hl q hq)
theorem map_smul3 (hk : K k) {l : List (Point3D F64)} (hl : ∀ q ∈ l, Usual3 q) : l.map (fun p => p.smul (twoPow k)) = l.map (up3 k) :=
  List.map_congr_left fun q hq => smul3 hk (hl q hq)
end Two

/-- **C136**, convex hull: in the other unit the hull has the same points in the same order. -/
theorem c136_hull (k : ℤ) (hk : -100 ≤ k ∧ k ≤ 100) (pts : List (Point2D F64)) (h : ∀ p ∈ pts, Usual2 p) :
    convexHull2D (pts.map fun p => p.smul (twoPow k)) = (convexHull2D pts).map fun p => p.smul (twoPow k) := by
  have hs : sortVec2DX (pts.map (Two.up2 k)) = (sortVec2DX pts).map (Two.up2 k) := by
    simp only [sortVec2DX, Sim.stableSort_map]
    simp only [Two.up2, Two.cmp]
  have hm : ∀ q ∈ sortVec2DX pts, Usual2 q := fun q hq => h q ((mem_stableSort _).1 hq)
  obtain ⟨a1, a2⟩ := Two.hullChain hk _ hm
  obtain ⟨b1, b2⟩ := Two.hullChain hk (sortVec2DX pts).reverse (fun q hq => hm q (List.mem_reverse.1 hq))
  have hr : ∀ q ∈ convexHull2D pts, Usual2 q := by
    intro q hq
    rcases List.mem_append.1 hq with hq | hq
    · exact a2 q (List.mem_of_mem_dropLast hq)
    · exact b2 q (List.mem_of_mem_dropLast hq)
  rw [Two.map_smul2 hk h, Two.map_smul2 hk hr]
  simp only [convexHull2D, hs, a1, ← List.map_reverse, b1, List.map_append, List.map_dropLast]

namespace Two
variable {k : ℤ}

theorem most_dist3 (hk : K k) {j : ℕ} (hj : j + 1 < 2 ^ 53) {acc : F64} (ha : Most (-404) 303 j acc) {p q : Point3D F64} (hp : Usual3 p) (hq : Usual3 q) :
    pow2 k acc + (up3 k p).dist (up3 k q) = pow2 k (acc + p.dist q) ∧ Most (-404) 303 (j + 1) (acc + p.dist q) := by
  obtain ⟨h1, h2⟩ := dist3 hk hp hq
  obtain ⟨k1, k2⟩ := hk
  rw [h1]
  exact most_add ha h2 hj (by omega) (by omega) (by omega) (by omega) (by omega)

theorem most_dist2 (hk : K k) {j : ℕ} (hj : j + 1 < 2 ^ 53) {acc : F64} (ha : Most (-404) 303 j acc) {p q : Point2D F64} (hp : Usual2 p) (hq : Usual2 q) :
    pow2 k acc + (up2 k p).dist (up2 k q) = pow2 k (acc + p.dist q) ∧ Most (-404) 303 (j + 1) (acc + p.dist q) := by
  obtain ⟨h1, h2⟩ := dist2 hk hp hq
  obtain ⟨k1, k2⟩ := hk
  rw [h1]
  exact most_add ha h2 hj (by omega) (by omega) (by omega) (by omega) (by omega)

theorem lengthLoop3 (hk : K k) (l : List (Point3D F64)) (hl : ∀ p ∈ l, Usual3 p) {j : ℕ} (hj : j + l.length < 2 ^ 53) {acc : F64} (ha : Most (-404) 303 j acc)
    (hr : Rep acc) :
    PointCloud3D.lengthLoop (pow2 k acc) (l.map (up3 k)) = pow2 k (PointCloud3D.lengthLoop acc l) ∧
      (∃ i, i ≤ j + l.length ∧ Most (-404) 303 i (PointCloud3D.lengthLoop acc l)) ∧ Rep (PointCloud3D.lengthLoop acc l) := by
  induction l generalizing j acc with
  | nil => exact ⟨rfl, ⟨j, by simp, ha⟩, hr⟩
  | cons a l ih =>
    cases l with
    | nil => exact ⟨rfl, ⟨j, by simp, ha⟩, hr⟩
    | cons b l =>
      simp only [List.length_cons] at hj
      obtain ⟨h1, h2⟩ := most_dist3 hk (by omega) ha (hl b (by simp)) (hl a (by simp))
      have ih := ih (fun q hq => hl q (List.mem_cons_of_mem _ hq)) (j := j + 1) (by simp only [List.length_cons]; omega) h2 (add_rep _ _)
      simp only [List.map_cons, PointCloud3D.lengthLoop, h1] at ih ⊢
      refine ⟨ih.1, ?_, ih.2.2⟩
      obtain ⟨i, hi, hm⟩ := ih.2.1
      exact ⟨i, by simp only [List.length_cons] at hi ⊢; omega, hm⟩

theorem lengthLoop2 (hk : K k) (l : List (Point2D F64)) (hl : ∀ p ∈ l, Usual2 p) {j : ℕ} (hj : j + l.length < 2 ^ 53) {acc : F64} (ha : Most (-404) 303 j acc)
    (hr : Rep acc) :
    PointCloud2D.lengthLoop (pow2 k acc) (l.map (up2 k)) = pow2 k (PointCloud2D.lengthLoop acc l) ∧
      (∃ i, i ≤ j + l.length ∧ Most (-404) 303 i (PointCloud2D.lengthLoop acc l)) ∧ Rep (PointCloud2D.lengthLoop acc l) := by
  induction l generalizing j acc with
  | nil => exact ⟨rfl, ⟨j, by simp, ha⟩, hr⟩
  | cons a l ih =>
    cases l with
    | nil => exact ⟨rfl, ⟨j, by simp, ha⟩, hr⟩
    | cons b l =>
      simp only [List.length_cons] at hj
      obtain ⟨h1, h2⟩ := most_dist2 hk (by omega) ha (hl b (by simp)) (hl a (by simp))
      have ih := ih (fun q hq => hl q (List.mem_cons_of_mem _ hq)) (j := j + 1) (by simp only [List.length_cons]; omega) h2 (add_rep _ _)
      simp only [List.map_cons, PointCloud2D.lengthLoop, h1] at ih ⊢
      refine ⟨ih.1, ?_, ih.2.2⟩
      obtain ⟨i, hi, hm⟩ := ih.2.1
      exact ⟨i, by simp only [List.length_cons] at hi ⊢; omega, hm⟩

theorem zero_fin : (Scalar.zero : F64) = .fin false 0 := by decide +kernel
theorem most_zero (n c : ℤ) : Most n c 0 (Scalar.zero : F64) := ⟨false, 0, by rw [zero_fin]; simp, by simp⟩
theorem rep_zero : Rep (Scalar.zero : F64) := by rw [zero_fin]; exact fin_zero_rep _

end Two

/-- **C136**, lengths: in the other unit the lengths of curves and polygons are, bit by bit, the same lengths in the other unit. -/
theorem c136_length (k : ℤ) (hk : -100 ≤ k ∧ k ≤ 100) :
    (∀ ps : List (Point3D F64), (∀ p ∈ ps, Usual3 p) → ps.length < 2 ^ 52 →
      PointCloud3D.length ⟨ps.map fun p => p.smul (twoPow k)⟩ = twoPow k * PointCloud3D.length ⟨ps⟩ ∧
      Polygon.length3D ⟨⟨ps.map fun p => p.smul (twoPow k)⟩⟩ = (Polygon.length3D ⟨⟨ps⟩⟩).map (twoPow k * ·)) ∧
    (∀ ps : List (Point2D F64), (∀ p ∈ ps, Usual2 p) → ps.length < 2 ^ 52 →
      PointCloud2D.length ⟨ps.map fun p => p.smul (twoPow k)⟩ = twoPow k * PointCloud2D.length ⟨ps⟩ ∧
      Polygon.length2D ⟨⟨ps.map fun p => p.smul (twoPow k)⟩⟩ = (Polygon.length2D ⟨⟨ps⟩⟩).map (twoPow k * ·)) := by
  have fm : ∀ {i : ℕ} {a : F64}, Most (-404) 303 i a → i < 2 ^ 53 → Rep a → twoPow k * a = pow2 k a := fun h hi hr =>
    Two.f_mul hk (h.calm hi.le) hr (by norm_num) (by norm_num)
  constructor
  · intro ps hps hl
    rw [Two.map_smul3 hk hps]
    have key : ∃ i, i ≤ ps.length ∧ PointCloud3D.length ⟨ps.map (Two.up3 k)⟩ = pow2 k (PointCloud3D.length ⟨ps⟩) ∧
        Most (-404) 303 i (PointCloud3D.length ⟨ps⟩) ∧ Rep (PointCloud3D.length ⟨ps⟩) := by
      simp only [PointCloud3D.length, PointCloud.len, List.length_map]
      split
      · exact ⟨0, Nat.zero_le _, (pow2_zero k).symm, Two.most_zero _ _, Two.rep_zero⟩
      · obtain ⟨h1, ⟨i, hi, h2⟩, h3⟩ := Two.lengthLoop3 hk ps hps (j := 0) (by omega) (Two.most_zero _ _) Two.rep_zero
        rw [pow2_zero] at h1
        exact ⟨i, by omega, h1, h2, h3⟩
    obtain ⟨i, hi, h1, h2, h3⟩ := key
    refine ⟨by rw [h1, fm h2 (by omega) h3], ?_⟩
    simp only [Polygon.length3D, h1, PointCloud.len, PointCloud.index, List.length_map, List.getElem?_map]
    split
    · cases hx : ps[ps.length - 1]? with
      | none => rfl
      | some x =>
        cases hy : ps[0]? with
        | none => rfl
        | some y =>
          have ux := hps x (List.mem_of_getElem? hx)
          have uy := hps y (List.mem_of_getElem? hy)
          obtain ⟨g1, g2⟩ := Two.most_dist3 hk (by omega) h2 ux uy
          simp only [Option.map_some, Option.bind_eq_bind, Option.bind_some, g1, fm g2 (by omega) (add_rep _ _)]
    · simp only [Option.map_some, fm h2 (by omega) h3]
  · intro ps hps hl
    rw [Two.map_smul2 hk hps]
    have key : ∃ i, i ≤ ps.length ∧ PointCloud2D.length ⟨ps.map (Two.up2 k)⟩ = pow2 k (PointCloud2D.length ⟨ps⟩) ∧
        Most (-404) 303 i (PointCloud2D.length ⟨ps⟩) ∧ Rep (PointCloud2D.length ⟨ps⟩) := by
      simp only [PointCloud2D.length, PointCloud.len, List.length_map]
      split
      · exact ⟨0, Nat.zero_le _, (pow2_zero k).symm, Two.most_zero _ _, Two.rep_zero⟩
      · obtain ⟨h1, ⟨i, hi, h2⟩, h3⟩ := Two.lengthLoop2 hk ps hps (j := 0) (by omega) (Two.most_zero _ _) Two.rep_zero
        rw [pow2_zero] at h1
        exact ⟨i, by omega, h1, h2, h3⟩
    obtain ⟨i, hi, h1, h2, h3⟩ := key
    refine ⟨by rw [h1, fm h2 (by omega) h3], ?_⟩
    simp only [Polygon.length2D, h1, PointCloud.len, PointCloud.index, List.length_map, List.getElem?_map]
    split
    · cases hx : ps[ps.length - 1]? with
      | none => rfl
      | some x =>
        cases hy : ps[0]? with
        | none => rfl
        | some y =>
          have ux := hps x (List.mem_of_getElem? hx)
          have uy := hps y (List.mem_of_getElem? hy)
          obtain ⟨g1, g2⟩ := Two.most_dist2 hk (by omega) h2 ux uy
          simp only [Option.map_some, Option.bind_eq_bind, Option.bind_some, g1, fm g2 (by omega) (add_rep _ _)]
    · simp only [Option.map_some, fm h2 (by omega) h3]

namespace Two
variable {k : ℤ}

/-- sums of coordinates -/
theorem most_coord (hk : K k) {j : ℕ} (hj : j + 1 < 2 ^ 53) {acc a : F64} (hm : Most (-352) 300 j acc) (ha : Usual a) :
    pow2 k acc + pow2 k a = pow2 k (acc + a) ∧ Most (-352) 300 (j + 1) (acc + a) := by
  obtain ⟨k1, k2⟩ := hk
  exact most_add hm (Usual.calm ha) hj (by omega) (by omega) (by omega) (by omega) (by omega)

/-- division by the number of points -/
theorem by_count (hk : K k) {j c : ℕ} (hj : j ≤ 2 ^ 53) {a : F64} (hm : Most (-352) 300 j a) (h1 : 1 ≤ c) (h2 : c < 2 ^ 53) :
    pow2 k a / lit (c : ℚ) = twoPow k * (a / lit (c : ℚ)) := by
  have hd : Rep (.fin false (c : ℚ)) := by
    refine ⟨Nat.cast_nonneg _, ?_, c, 0, h2, by norm_num, by simp⟩
    refine lt_of_lt_of_le (b := (2:ℚ) ^ (53 : ℤ)) (by exact_mod_cast h2) (pow_le (by norm_num))
  have hl : (lit (c : ℚ) : F64) = .fin false c := by
    show ofRat (c : ℚ) = _
    unfold ofRat
    rw [if_neg (not_lt.2 (Nat.cast_nonneg _)), round_exact false hd]
  have hc1 : (1:ℚ) ≤ c := by exact_mod_cast h1
  have hc2 : (c:ℚ) ≤ 2 ^ (60 : ℤ) := le_trans (b := (2:ℚ) ^ (53 : ℤ)) (by exact_mod_cast h2.le) (pow_le (by norm_num))
  have hk' := hk
  obtain ⟨k1, k2⟩ := hk'
  obtain ⟨e1, e2⟩ := div_pow2 (k := k) (hm.calm hj) hc1 hc2 (by norm_num) (by omega) (by norm_num) (by norm_num) (by omega)
  rw [hl, e1, f_mul hk e2 (div_rep _ _) (by norm_num) (by norm_num)]

theorem sum3 (hk : K k) (l : List (Point3D F64)) (hl : ∀ p ∈ l, Usual3 p) {j : ℕ} (hj : j + l.length < 2 ^ 53) (a b c : F64)
    (ha : Most (-352) 300 j a) (hb : Most (-352) 300 j b) (hc : Most (-352) 300 j c) :
    ∃ x y z : F64, l.foldl (fun (s : F64 × F64 × F64) p => (s.1 + p.x, s.2.1 + p.y, s.2.2 + p.z)) (a, b, c) = (x, y, z) ∧
      (l.map (up3 k)).foldl (fun (s : F64 × F64 × F64) p => (s.1 + p.x, s.2.1 + p.y, s.2.2 + p.z)) (pow2 k a, pow2 k b, pow2 k c) =
        (pow2 k x, pow2 k y, pow2 k z) ∧
      Most (-352) 300 (j + l.length) x ∧ Most (-352) 300 (j + l.length) y ∧ Most (-352) 300 (j + l.length) z := by
  induction l generalizing j a b c with
  | nil => exact ⟨a, b, c, rfl, rfl, ha, hb, hc⟩
  | cons p l ih =>
    simp only [List.length_cons] at hj ⊢
    have hp := hl p (by simp)
    obtain ⟨a1, a2⟩ := most_coord hk (by omega) ha hp.1
    obtain ⟨b1, b2⟩ := most_coord hk (by omega) hb hp.2.1
    obtain ⟨c1, c2⟩ := most_coord hk (by omega) hc hp.2.2
    have := ih (fun q hq => hl q (List.mem_cons_of_mem _ hq)) (j := j + 1) (by omega) _ _ _ a2 b2 c2
    rw [← a1, ← b1, ← c1] at this
    rwa [show j + 1 + l.length = j + (l.length + 1) by omega] at this

theorem sum2 (hk : K k) (l : List (Point2D F64)) (hl : ∀ p ∈ l, Usual2 p) {j : ℕ} (hj : j + l.length < 2 ^ 53) (a b : F64)
    (ha : Most (-352) 300 j a) (hb : Most (-352) 300 j b) :
    ∃ x y : F64, l.foldl (fun (s : F64 × F64) p => (s.1 + p.x, s.2 + p.y)) (a, b) = (x, y) ∧
      (l.map (up2 k)).foldl (fun (s : F64 × F64) p => (s.1 + p.x, s.2 + p.y)) (pow2 k a, pow2 k b) = (pow2 k x, pow2 k y) ∧
      Most (-352) 300 (j + l.length) x ∧ Most (-352) 300 (j + l.length) y := by
  induction l generalizing j a b with
  | nil => exact ⟨a, b, rfl, rfl, ha, hb⟩
  | cons p l ih =>
    simp only [List.length_cons] at hj ⊢
    have hp := hl p (by simp)
    obtain ⟨a1, a2⟩ := most_coord hk (by omega) ha hp.1
    obtain ⟨b1, b2⟩ := most_coord hk (by omega) hb hp.2
    have := ih (fun q hq => hl q (List.mem_cons_of_mem _ hq)) (j := j + 1) (by omega) _ _ a2 b2
    rw [← a1, ← b1] at this
    rwa [show j + 1 + l.length = j + (l.length + 1) by omega] at this

end Two

/-- **C136**, centers of gravity: bit by bit the same in the other unit, though sums and a quotient are rounded. -/
theorem c136_gravity (k : ℤ) (hk : -100 ≤ k ∧ k ≤ 100) :
    (∀ ps : List (Point3D F64), (∀ p ∈ ps, Usual3 p) → ps.length < 2 ^ 53 →
      PointCloud3D.centerOfGravity ⟨ps.map fun p => p.smul (twoPow k)⟩ = (PointCloud3D.centerOfGravity ⟨ps⟩).map fun c => c.smul (twoPow k)) ∧
    (∀ ps : List (Point2D F64), (∀ p ∈ ps, Usual2 p) → ps.length < 2 ^ 53 →
      PointCloud2D.centerOfGravity ⟨ps.map fun p => p.smul (twoPow k)⟩ = (PointCloud2D.centerOfGravity ⟨ps⟩).map fun c => c.smul (twoPow k)) := by
  constructor
  · intro ps hps hl
    rw [Two.map_smul3 hk hps]
    obtain ⟨x, y, z, h1, h2, hx, hy, hz⟩ := Two.sum3 hk ps hps (j := 0) (by omega) _ _ _ (Two.most_zero _ _) (Two.most_zero _ _) (Two.most_zero _ _)
    rw [pow2_zero] at h2
    simp only [PointCloud3D.centerOfGravity, PointCloud.len, List.length_map, h1, h2]
    split
    · rfl
    · rw [Two.by_count hk (by omega) hx (by omega) hl, Two.by_count hk (by omega) hy (by omega) hl, Two.by_count hk (by omega) hz (by omega) hl]
      rfl
  · intro ps hps hl
    rw [Two.map_smul2 hk hps]
    obtain ⟨x, y, h1, h2, hx, hy⟩ := Two.sum2 hk ps hps (j := 0) (by omega) _ _ (Two.most_zero _ _) (Two.most_zero _ _)
    rw [pow2_zero] at h2
    simp only [PointCloud2D.centerOfGravity, PointCloud.len, List.length_map, h1, h2]
    split
    · rfl
    · rw [Two.by_count hk (by omega) hx (by omega) hl, Two.by_count hk (by omega) hy (by omega) hl]
      rfl


/-- the box in the other unit -/
def Spec.inUnit3 (k : ℤ) (b : BoundingBox3D F64) : BoundingBox3D F64 := ⟨b.min.smul (twoPow k), b.max.smul (twoPow k)⟩

namespace Two
variable {k : ℤ}

def box3 (k : ℤ) (b : BoundingBox3D F64) : BoundingBox3D F64 := ⟨up3 k b.min, up3 k b.max⟩

theorem inUnit3_eq (hk : K k) {b : BoundingBox3D F64} (h1 : Usual3 b.min) (h2 : Usual3 b.max) : inUnit3 k b = box3 k b := by
  simp only [inUnit3, box3, smul3 hk h1, smul3 hk h2]

theorem new3 (k : ℤ) (a b : Point3D F64) : BoundingBox3D.new (up3 k a) (up3 k b) = (BoundingBox3D.new a b).map (box3 k) := by
  simp only [BoundingBox3D.new, up3, pow2_eq, pow2_lt]
  split
  · rfl
  · split <;> rfl

theorem step3 (k : ℤ) (s : Point3D F64 × Point3D F64 × Nat) (p : Point3D F64) :
    BoundingBox3D.step (up3 k s.1, up3 k s.2.1, s.2.2) (up3 k p) =
      (up3 k (BoundingBox3D.step s p).1, up3 k (BoundingBox3D.step s p).2.1, (BoundingBox3D.step s p).2.2) := by
  simp only [BoundingBox3D.step, up3, pow2_lt, pow2_ite]

theorem fold3 (k : ℤ) (l : List (Point3D F64)) (s : Point3D F64 × Point3D F64 × Nat) :
    (l.map (up3 k)).foldl BoundingBox3D.step (up3 k s.1, up3 k s.2.1, s.2.2) =
      (up3 k (l.foldl BoundingBox3D.step s).1, up3 k (l.foldl BoundingBox3D.step s).2.1, (l.foldl BoundingBox3D.step s).2.2) := by
  induction l generalizing s with
  | nil => rfl
  | cons p l ih => simp only [List.map_cons, List.foldl_cons, step3]; exact ih _

theorem fromIterator3 (k : ℤ) (l : List (Point3D F64)) :
    BoundingBox3D.fromIterator (l.map (up3 k)) = (BoundingBox3D.fromIterator l).map (box3 k) := by
  cases l with
  | nil => rfl
  | cons p l =>
    have h := fold3 k l (p, p, 1)
    simp only [List.map_cons, BoundingBox3D.fromIterator, h]
    split
    · exact new3 k _ _
    · rfl

/-- the corners of the box of points have coordinates of the points -/
theorem fold_usual3 (l : List (Point3D F64)) (hl : ∀ p ∈ l, Usual3 p) (s : Point3D F64 × Point3D F64 × Nat) (h1 : Usual3 s.1) (h2 : Usual3 s.2.1) :
    Usual3 (l.foldl BoundingBox3D.step s).1 ∧ Usual3 (l.foldl BoundingBox3D.step s).2.1 := by
  induction l generalizing s with
  | nil => exact ⟨h1, h2⟩
  | cons p l ih =>
    have hp := hl p (by simp)
    have hi : ∀ (c : Bool) {a b : F64}, Usual a → Usual b → Usual (if c = true then a else b) := by
      intro c a b ha hb; cases c
      · exact hb
      · exact ha
    refine ih (fun q hq => hl q (List.mem_cons_of_mem _ hq)) _ ?_ ?_
    · exact ⟨hi _ hp.1 h1.1, hi _ hp.2.1 h1.2.1, hi _ hp.2.2 h1.2.2⟩
    · exact ⟨hi _ hp.1 h2.1, hi _ hp.2.1 h2.2.1, hi _ hp.2.2 h2.2.2⟩

theorem fromIterator_usual3 (l : List (Point3D F64)) (hl : ∀ p ∈ l, Usual3 p) {b : BoundingBox3D F64} (hb : BoundingBox3D.fromIterator l = .ok b) :
    Usual3 b.min ∧ Usual3 b.max := by
  cases l with
  | nil => cases hb
  | cons p l =>
    have h := fold_usual3 l (fun q hq => hl q (List.mem_cons_of_mem _ hq)) (p, p, 1) (hl p (by simp)) (hl p (by simp))
    simp only [BoundingBox3D.fromIterator] at hb
    split at hb
    · simp only [BoundingBox3D.new] at hb
      split at hb
      · cases hb
      · split at hb
        · cases hb
        · cases hb; exact h
    · cases hb

end Two

/-- the box in the other unit -/
def Spec.inUnit2 (k : ℤ) (b : BoundingBox2D F64) : BoundingBox2D F64 := ⟨b.min.smul (twoPow k), b.max.smul (twoPow k)⟩

namespace Two
variable {k : ℤ}

def box2 (k : ℤ) (b : BoundingBox2D F64) : BoundingBox2D F64 := ⟨up2 k b.min, up2 k b.max⟩

theorem inUnit2_eq (hk : K k) {b : BoundingBox2D F64} (h1 : Usual2 b.min) (h2 : Usual2 b.max) : inUnit2 k b = box2 k b := by
  simp only [inUnit2, box2, smul2 hk h1, smul2 hk h2]

theorem new2 (k : ℤ) (a b : Point2D F64) : BoundingBox2D.new (up2 k a) (up2 k b) = (BoundingBox2D.new a b).map (box2 k) := by
  simp only [BoundingBox2D.new, up2, pow2_eq, pow2_lt]
  split
  · rfl
  · split <;> rfl

theorem step2 (k : ℤ) (s : Point2D F64 × Point2D F64 × Nat) (p : Point2D F64) :
    BoundingBox2D.step (up2 k s.1, up2 k s.2.1, s.2.2) (up2 k p) =
      (up2 k (BoundingBox2D.step s p).1, up2 k (BoundingBox2D.step s p).2.1, (BoundingBox2D.step s p).2.2) := by
  simp only [BoundingBox2D.step, up2, pow2_lt, pow2_ite]

theorem fold2 (k : ℤ) (l : List (Point2D F64)) (s : Point2D F64 × Point2D F64 × Nat) :
    (l.map (up2 k)).foldl BoundingBox2D.step (up2 k s.1, up2 k s.2.1, s.2.2) =
      (up2 k (l.foldl BoundingBox2D.step s).1, up2 k (l.foldl BoundingBox2D.step s).2.1, (l.foldl BoundingBox2D.step s).2.2) := by
  induction l generalizing s with
  | nil => rfl
  | cons p l ih => simp only [List.map_cons, List.foldl_cons, step2]; exact ih _

theorem fromIterator2 (k : ℤ) (l : List (Point2D F64)) :
    BoundingBox2D.fromIterator (l.map (up2 k)) = (BoundingBox2D.fromIterator l).map (box2 k) := by
  cases l with
  | nil => rfl
  | cons p l =>
    have h := fold2 k l (p, p, 1)
    simp only [List.map_cons, BoundingBox2D.fromIterator, h]
    split
    · exact new2 k _ _
    · rfl

/-- the corners of the box of points have coordinates of the points -/
theorem fold_usual2 (l : List (Point2D F64)) (hl : ∀ p ∈ l, Usual2 p) (s : Point2D F64 × Point2D F64 × Nat) (h1 : Usual2 s.1) (h2 : Usual2 s.2.1) :
    Usual2 (l.foldl BoundingBox2D.step s).1 ∧ Usual2 (l.foldl BoundingBox2D.step s).2.1 := by
  induction l generalizing s with
  | nil => exact ⟨h1, h2⟩
  | cons p l ih =>
    have hp := hl p (by simp)
    have hi : ∀ (c : Bool) {a b : F64}, Usual a → Usual b → Usual (if c = true then a else b) := by
      intro c a b ha hb; cases c
      · exact hb
      · exact ha
    refine ih (fun q hq => hl q (List.mem_cons_of_mem _ hq)) _ ?_ ?_
    · exact ⟨hi _ hp.1 h1.1, hi _ hp.2 h1.2⟩
    · exact ⟨hi _ hp.1 h2.1, hi _ hp.2 h2.2⟩

theorem fromIterator_usual2 (l : List (Point2D F64)) (hl : ∀ p ∈ l, Usual2 p) {b : BoundingBox2D F64} (hb : BoundingBox2D.fromIterator l = .ok b) :
    Usual2 b.min ∧ Usual2 b.max := by
  cases l with
  | nil => cases hb
  | cons p l =>
    have h := fold_usual2 l (fun q hq => hl q (List.mem_cons_of_mem _ hq)) (p, p, 1) (hl p (by simp)) (hl p (by simp))
    simp only [BoundingBox2D.fromIterator] at hb
    split at hb
    · simp only [BoundingBox2D.new] at hb
      split at hb
      · cases hb
      · split at hb
        · cases hb
        · cases hb; exact h
    · cases hb

end Two

namespace Two
variable {k : ℤ}

theorem size (hk : K k) {a b : F64} (ha : Usual a) (hb : Usual b) :
    Positive.new (Scalar.abs (pow2 k a - pow2 k b)) = (Positive.new (Scalar.abs (a - b))).map (fun s => ⟨pow2 k s.val⟩) ∧
    ∀ s, Positive.new (Scalar.abs (a - b)) = some s → s.val = Scalar.abs (a - b) ∧ Calm (-352) 301 s.val := by
  obtain ⟨h1, h2⟩ := usub hk ha hb
  constructor
  · rw [h1, pow2_abs]
    simp only [Positive.new, zero_lt]
    split <;> rfl
  · intro s hs
    simp only [Positive.new] at hs
    split at hs
    · cases hs; exact ⟨rfl, h2.abs⟩
    · cases hs

theorem size_f (hk : K k) {a b : F64} (ha : Usual a) (hb : Usual b) :
    Positive.new (Scalar.abs (pow2 k a - pow2 k b)) = (Positive.new (Scalar.abs (a - b))).map (fun s => ⟨twoPow k * s.val⟩) := by
  obtain ⟨h1, h2⟩ := size hk ha hb
  rw [h1]
  cases hs : Positive.new (Scalar.abs (a - b)) with
  | none => rfl
  | some s =>
    obtain ⟨e, hc⟩ := h2 s hs
    have hr : Rep s.val := by rw [e]; exact abs_rep (sub_rep a b)
    simp only [Option.map_some, f_mul hk hc hr (by norm_num) (by norm_num)]

theorem center (hk : K k) {a b : F64} (ha : Usual a) (hb : Usual b) :
    pow2 k a + (pow2 k b - pow2 k a) / lit 2 = pow2 k (a + (b - a) / lit 2) ∧ Calm (-353) 302 (a + (b - a) / lit 2) := by
  obtain ⟨h1, h2⟩ := usub hk hb ha
  obtain ⟨d1, d2⟩ := div2 hk h2 (by norm_num) (by norm_num) (by norm_num)
  rw [h1, d1]
  exact add hk (((Usual.calm ha).down (by norm_num)).mono (by norm_num)) d2 (by norm_num) (by norm_num) (by norm_num)

theorem center_f (hk : K k) {a b : F64} (ha : Usual a) (hb : Usual b) :
    pow2 k a + (pow2 k b - pow2 k a) / lit 2 = twoPow k * (a + (b - a) / lit 2) := by
  obtain ⟨h1, h2⟩ := center hk ha hb
  rw [h1, f_mul hk h2 (add_rep _ _) (by norm_num) (by norm_num)]

/-- the test of one dimension of `collides_with` -/
theorem meet (hk : K k) {a b c d : F64} (ha : Usual a) (hb : Usual b) (hc : Usual c) (hd : Usual d) {s o : Positive F64}
    (hs : Calm (-352) 301 s.val) (ho : Calm (-352) 301 o.val) :
    (lit 2 * Scalar.abs (pow2 k a + (pow2 k b - pow2 k a) / lit 2 - (pow2 k c + (pow2 k d - pow2 k c) / lit 2)) <. pow2 k s.val + pow2 k o.val) =
      (lit 2 * Scalar.abs (a + (b - a) / lit 2 - (c + (d - c) / lit 2)) <. s.val + o.val) := by
  obtain ⟨h1, h2⟩ := center hk ha hb
  obtain ⟨g1, g2⟩ := center hk hc hd
  obtain ⟨s1, s2⟩ := sub hk h2 g2 (by norm_num) (by norm_num) (by norm_num)
  obtain ⟨t1, -⟩ := half hk 2 (.inr rfl) s2.abs (by norm_num) (by norm_num) (by norm_num)
  rw [h1, g1, s1, pow2_abs, t1, (add hk hs ho (by norm_num) (by norm_num) (by norm_num)).1, pow2_lt]

theorem max2 (k : ℤ) (a b : F64) : Scalar.max2 (pow2 k a) (pow2 k b) = pow2 k (Scalar.max2 a b) := by
  simp only [Scalar.max2, pow2_lt, pow2_ite]
theorem calm_max2 {n M : ℤ} {a b : F64} (ha : Calm n M a) (hb : Calm n M b) : Calm n M (Scalar.max2 a b) := by
  unfold Scalar.max2; split
  · exact ha
  · exact hb

/-- one dimension of the distance of a point -/
theorem gapP (hk : K k) {a b p : F64} (ha : Usual a) (hb : Usual b) (hp : Usual p) :
    max3 (pow2 k a - pow2 k p) zero (pow2 k p - pow2 k b) = pow2 k (max3 (a - p) zero (p - b)) ∧ Calm (-352) 301 (max3 (a - p) zero (p - b)) := by
  obtain ⟨h1, h2⟩ := usub hk ha hp
  obtain ⟨g1, g2⟩ := usub hk hp hb
  constructor
  · rw [h1, g1, max3, max3]
    conv_lhs => rw [← pow2_zero k]
    rw [max2, max2]
  · exact calm_max2 (calm_max2 h2 (Calm.zero _ _)) g2

theorem nonNeg_new (k : ℤ) (a : F64) : NonNegative.new (pow2 k a) = (NonNegative.new a).map fun s => ⟨pow2 k s.val⟩ := by
  simp only [NonNegative.new, zero_le]
  split <;> rfl

end Two

/-- **C136**, bounding boxes in space: the box of the points, sizes, center, tests and distances are the same in the other unit. -/
theorem c136_box_3d (k : ℤ) (hk : -100 ≤ k ∧ k ≤ 100) :
    (∀ ps : List (Point3D F64), (∀ p ∈ ps, Usual3 p) →
      BoundingBox3D.fromIterator (ps.map fun p => p.smul (twoPow k)) = (BoundingBox3D.fromIterator ps).map (inUnit3 k)) ∧
    (∀ b : BoundingBox3D F64, Usual3 b.min → Usual3 b.max →
      (inUnit3 k b).sizeX = b.sizeX.map (fun s => ⟨twoPow k * s.val⟩) ∧ (inUnit3 k b).sizeY = b.sizeY.map (fun s => ⟨twoPow k * s.val⟩) ∧
      (inUnit3 k b).sizeZ = b.sizeZ.map (fun s => ⟨twoPow k * s.val⟩) ∧ (inUnit3 k b).centerBB = b.centerBB.smul (twoPow k) ∧
      (∀ p, Usual3 p → (inUnit3 k b).contains (p.smul (twoPow k)) = b.contains p ∧
        (inUnit3 k b).sqrDistance (p.smul (twoPow k)) = (b.sqrDistance p).map (fun s => ⟨twoPow k * (twoPow k * s.val)⟩)) ∧
      (∀ o : BoundingBox3D F64, Usual3 o.min → Usual3 o.max → (inUnit3 k b).collidesWith (inUnit3 k o) = b.collidesWith o ∧
        (inUnit3 k b).isInside (inUnit3 k o) = b.isInside o ∧ (inUnit3 k b).hasInside (inUnit3 k o) = b.hasInside o)) := by
  constructor
  · intro ps hps
    rw [Two.map_smul3 hk hps, Two.fromIterator3]
    cases hb : BoundingBox3D.fromIterator ps with
    | error e => rfl
    | ok b =>
      obtain ⟨h1, h2⟩ := Two.fromIterator_usual3 ps hps hb
      exact congrArg Except.ok (Two.inUnit3_eq hk h1 h2).symm
  · intro b h1 h2
    rw [Two.inUnit3_eq hk h1 h2]
    refine ⟨Two.size_f hk h2.1 h1.1, Two.size_f hk h2.2.1 h1.2.1, Two.size_f hk h2.2.2 h1.2.2, ?_, ?_, ?_⟩
    · simp only [BoundingBox3D.centerBB, Two.box3, Two.up3, Two.center_f hk h1.1 h2.1, Two.center_f hk h1.2.1 h2.2.1, Two.center_f hk h1.2.2 h2.2.2]
      rfl
    · intro p hp
      rw [Two.smul3 hk hp]
      refine ⟨by simp only [BoundingBox3D.contains, Two.box3, Two.up3, pow2_lt], ?_⟩
      obtain ⟨x1, x2⟩ := Two.gapP hk h1.1 h2.1 hp.1
      obtain ⟨y1, y2⟩ := Two.gapP hk h1.2.1 h2.2.1 hp.2.1
      obtain ⟨z1, z2⟩ := Two.gapP hk h1.2.2 h2.2.2 hp.2.2
      obtain ⟨a1, a2⟩ := Two.mul hk x2 x2 (by norm_num) (by norm_num) (by norm_num)
      obtain ⟨b1, b2⟩ := Two.mul hk y2 y2 (by norm_num) (by norm_num) (by norm_num)
      obtain ⟨c1, c2⟩ := Two.mul hk z2 z2 (by norm_num) (by norm_num) (by norm_num)
      obtain ⟨s1, s2⟩ := Two.add' hk a2 b2 (by norm_num) (by norm_num) (by norm_num)
      obtain ⟨t1, t2⟩ := Two.add' hk s2 (c2.mono (by norm_num)) (by norm_num) (by norm_num) (by norm_num)
      simp only [BoundingBox3D.sqrDistance, Two.box3, Two.up3, x1, y1, z1, a1, b1, c1, s1, t1, Two.nonNeg_new]
      rw [NonNegative.new]
      split
      · simp only [Option.map_some, Two.f_f hk (t2.mono (by norm_num)) (add_rep _ _)]
      · rfl
    · intro o o1 o2
      rw [Two.inUnit3_eq hk o1 o2]
      refine ⟨?_, by simp only [BoundingBox3D.isInside, Two.box3, Two.up3, pow2_lt], by simp only [BoundingBox3D.hasInside, Two.box3, Two.up3, pow2_lt]⟩
      obtain ⟨x1, x2⟩ := Two.size hk h2.1 h1.1
      obtain ⟨y1, y2⟩ := Two.size hk h2.2.1 h1.2.1
      obtain ⟨z1, z2⟩ := Two.size hk h2.2.2 h1.2.2
      obtain ⟨u1, u2⟩ := Two.size hk o2.1 o1.1
      obtain ⟨v1, v2⟩ := Two.size hk o2.2.1 o1.2.1
      obtain ⟨w1, w2⟩ := Two.size hk o2.2.2 o1.2.2
      simp only [BoundingBox3D.collidesWith, BoundingBox3D.sizeX, BoundingBox3D.sizeY, BoundingBox3D.sizeZ, BoundingBox3D.centerBB, Two.box3, Two.up3,
        x1, y1, z1, u1, v1, w1, Positive.add]
      cases hx : Positive.new (Scalar.abs (b.max.x - b.min.x)) with
      | none => rfl
      | some sx =>
      cases hu : Positive.new (Scalar.abs (o.max.x - o.min.x)) with
      | none => rfl
      | some ox =>
      simp only [Option.map_some, Option.bind_eq_bind, Option.bind_some, Two.meet hk h1.1 h2.1 o1.1 o2.1 (x2 _ hx).2 (u2 _ hu).2]
      refine if_congr Iff.rfl ?_ rfl
      cases hy : Positive.new (Scalar.abs (b.max.y - b.min.y)) with
      | none => rfl
      | some sy =>
      cases hv : Positive.new (Scalar.abs (o.max.y - o.min.y)) with
      | none => rfl
      | some oy =>
      simp only [Option.map_some, Option.bind_some, Two.meet hk h1.2.1 h2.2.1 o1.2.1 o2.2.1 (y2 _ hy).2 (v2 _ hv).2]
      refine if_congr Iff.rfl ?_ rfl
      cases hz : Positive.new (Scalar.abs (b.max.z - b.min.z)) with
      | none => rfl
      | some sz =>
      cases hw : Positive.new (Scalar.abs (o.max.z - o.min.z)) with
      | none => rfl
      | some oz =>
      simp only [Option.map_some, Option.bind_some, Two.meet hk h1.2.2 h2.2.2 o1.2.2 o2.2.2 (z2 _ hz).2 (w2 _ hw).2]

/-- **C136**, bounding boxes in the plane. -/
theorem c136_box_2d (k : ℤ) (hk : -100 ≤ k ∧ k ≤ 100) :
    (∀ ps : List (Point2D F64), (∀ p ∈ ps, Usual2 p) →
      BoundingBox2D.fromIterator (ps.map fun p => p.smul (twoPow k)) = (BoundingBox2D.fromIterator ps).map (inUnit2 k)) ∧
    (∀ b : BoundingBox2D F64, Usual2 b.min → Usual2 b.max →
      (inUnit2 k b).sizeX = b.sizeX.map (fun s => ⟨twoPow k * s.val⟩) ∧ (inUnit2 k b).sizeY = b.sizeY.map (fun s => ⟨twoPow k * s.val⟩) ∧
      (inUnit2 k b).centerBB = b.centerBB.smul (twoPow k) ∧
      (∀ p, Usual2 p → (inUnit2 k b).contains (p.smul (twoPow k)) = b.contains p ∧
        (inUnit2 k b).sqrDistance (p.smul (twoPow k)) = (b.sqrDistance p).map (fun s => ⟨twoPow k * (twoPow k * s.val)⟩)) ∧
      (∀ o : BoundingBox2D F64, Usual2 o.min → Usual2 o.max → (inUnit2 k b).collidesWith (inUnit2 k o) = b.collidesWith o ∧
        (inUnit2 k b).isInside (inUnit2 k o) = b.isInside o ∧ (inUnit2 k b).hasInside (inUnit2 k o) = b.hasInside o)) := by
  constructor
  · intro ps hps
    rw [Two.map_smul2 hk hps, Two.fromIterator2]
    cases hb : BoundingBox2D.fromIterator ps with
    | error e => rfl
    | ok b =>
      obtain ⟨h1, h2⟩ := Two.fromIterator_usual2 ps hps hb
      exact congrArg Except.ok (Two.inUnit2_eq hk h1 h2).symm
  · intro b h1 h2
    rw [Two.inUnit2_eq hk h1 h2]
    refine ⟨Two.size_f hk h2.1 h1.1, Two.size_f hk h2.2 h1.2, ?_, ?_, ?_⟩
    · simp only [BoundingBox2D.centerBB, Two.box2, Two.up2, Two.center_f hk h1.1 h2.1, Two.center_f hk h1.2 h2.2]
      rfl
    · intro p hp
      rw [Two.smul2 hk hp]
      refine ⟨by simp only [BoundingBox2D.contains, Two.box2, Two.up2, pow2_lt], ?_⟩
      obtain ⟨x1, x2⟩ := Two.gapP hk h1.1 h2.1 hp.1
      obtain ⟨y1, y2⟩ := Two.gapP hk h1.2 h2.2 hp.2
      obtain ⟨a1, a2⟩ := Two.mul hk x2 x2 (by norm_num) (by norm_num) (by norm_num)
      obtain ⟨b1, b2⟩ := Two.mul hk y2 y2 (by norm_num) (by norm_num) (by norm_num)
      obtain ⟨s1, s2⟩ := Two.add' hk a2 b2 (by norm_num) (by norm_num) (by norm_num)
      simp only [BoundingBox2D.sqrDistance, Two.box2, Two.up2, x1, y1, a1, b1, s1, Two.nonNeg_new]
      rw [NonNegative.new]
      split
      · simp only [Option.map_some, Two.f_f hk (s2.mono (by norm_num)) (add_rep _ _)]
      · rfl
    · intro o o1 o2
      rw [Two.inUnit2_eq hk o1 o2]
      refine ⟨?_, by simp only [BoundingBox2D.isInside, Two.box2, Two.up2, pow2_lt], by simp only [BoundingBox2D.hasInside, Two.box2, Two.up2, pow2_lt]⟩
      obtain ⟨x1, x2⟩ := Two.size hk h2.1 h1.1
      obtain ⟨y1, y2⟩ := Two.size hk h2.2 h1.2
      obtain ⟨u1, u2⟩ := Two.size hk o2.1 o1.1
      obtain ⟨v1, v2⟩ := Two.size hk o2.2 o1.2
      simp only [BoundingBox2D.collidesWith, BoundingBox2D.sizeX, BoundingBox2D.sizeY, BoundingBox2D.centerBB, Two.box2, Two.up2,
        x1, y1, u1, v1, Positive.add]
      cases hx : Positive.new (Scalar.abs (b.max.x - b.min.x)) with
      | none => rfl
      | some sx =>
      cases hu : Positive.new (Scalar.abs (o.max.x - o.min.x)) with
      | none => rfl
      | some ox =>
      simp only [Option.map_some, Option.bind_eq_bind, Option.bind_some, Two.meet hk h1.1 h2.1 o1.1 o2.1 (x2 _ hx).2 (u2 _ hu).2]
      refine if_congr Iff.rfl ?_ rfl
      cases hy : Positive.new (Scalar.abs (b.max.y - b.min.y)) with
      | none => rfl
      | some sy =>
      cases hv : Positive.new (Scalar.abs (o.max.y - o.min.y)) with
      | none => rfl
      | some oy =>
      simp only [Option.map_some, Option.bind_some, Two.meet hk h1.2 h2.2 o1.2 o2.2 (y2 _ hy).2 (v2 _ hv).2]

/-! ### Non-vacuity -/

/-- whole numbers of at most 53 bits are usual -/
theorem Two.usual_nat {m : ℕ} (h1 : 1 ≤ m) (h2 : m < 2 ^ 53) (s : Bool) : Usual (.fin s m) := by
  have hm : (m:ℚ) < 2 ^ (53 : ℤ) := by exact_mod_cast h2
  refine ⟨s, m, rfl, ⟨Nat.cast_nonneg _, hm.trans_le (pow_le (by norm_num)), m, 0, h2, by norm_num, by simp⟩, .inr ?_, hm.le.trans (pow_le (by norm_num))⟩
  have : (1:ℚ) ≤ m := by exact_mod_cast h1
  exact (zpow_le_one_of_nonpos₀ one_le_two (by norm_num)).trans this
theorem Two.usual_one : Usual (.fin false 1) := by simpa using Two.usual_nat (m := 1) (by norm_num) (by norm_num) false
theorem Two.usual_three : Usual (.fin true 3) := by simpa using Two.usual_nat (m := 3) (by norm_num) (by norm_num) true
theorem Two.usual_pt : Usual3 ⟨.fin false 1, .fin true 3, .fin false 1⟩ := ⟨usual_one, usual_three, usual_one⟩
theorem Two.usual_pt2 : Usual3 ⟨.fin true 3, .fin false 1, .fin true 3⟩ := ⟨usual_three, usual_one, usual_three⟩

/-- from metres to units of 2^-10 metres -/
example : twoPow 10 * .fin true 3 = .fin true (3 * 2 ^ (10 : ℤ)) := c136_exact 10 (by norm_num) _ _ Two.usual_three

example : ((⟨.fin false 1, .fin true 3, .fin false 1⟩ : Point3D F64).smul (twoPow 10)).dist ((⟨.fin true 3, .fin false 1, .fin true 3⟩ : Point3D F64).smul (twoPow 10)) =
    twoPow 10 * (⟨.fin false 1, .fin true 3, .fin false 1⟩ : Point3D F64).dist ⟨.fin true 3, .fin false 1, .fin true 3⟩ :=
  ((c136_distances 10 (by norm_num)).1 _ _ Two.usual_pt Two.usual_pt2).1

/-- two points -/
def Two.twoPts : Bool → Point3D F64
  | true => ⟨.fin false 1, .fin true 3, .fin false 1⟩
  | false => ⟨.fin true 3, .fin false 1, .fin true 3⟩

example : ∀ t : KdTree Bool, t.nearest (fun b => (Two.twoPts b).smul (twoPow (-7))) ((Two.twoPts true).smul (twoPow (-7))) =
    t.nearest Two.twoPts (Two.twoPts true) :=
  fun t => (c136_kd (-7) (by norm_num) Two.twoPts (by intro b; cases b; exacts [Two.usual_pt2, Two.usual_pt]) t [] [] _ Two.usual_pt).2.1

example : filterSphere ⟨(⟨.fin false 1, .fin true 3, .fin false 1⟩ : Point3D F64).smul (twoPow 10), ⟨twoPow 10 * .fin false 1⟩⟩
      ((⟨.fin true 3, .fin false 1, .fin true 3⟩ : Point3D F64).smul (twoPow 10)) =
    filterSphere ⟨(⟨.fin false 1, .fin true 3, .fin false 1⟩ : Point3D F64), ⟨.fin false 1⟩⟩ ⟨.fin true 3, .fin false 1, .fin true 3⟩ :=
  (c136_filters 10 (by norm_num)).1 _ _ _ Two.usual_pt Two.usual_pt2 Two.usual_one

theorem Two.usual_list2 : ∀ p ∈ [(⟨.fin false 1, .fin true 3⟩ : Point2D F64), ⟨.fin true 3, .fin false 1⟩, ⟨.fin false 1, .fin false 1⟩], Usual2 p := by
  simp only [List.mem_cons, List.not_mem_nil, or_false]
  rintro p (rfl | rfl | rfl)
  exacts [⟨usual_one, usual_three⟩, ⟨usual_three, usual_one⟩, ⟨usual_one, usual_one⟩]

example := c136_hull 10 (by norm_num) _ Two.usual_list2
example := (c136_length 10 (by norm_num)).2 _ Two.usual_list2 (by norm_num)
example := (c136_gravity 10 (by norm_num)).2 _ Two.usual_list2 (by norm_num)
example := (c136_box_2d 10 (by norm_num)).1 _ Two.usual_list2
example := (c136_box_3d 10 (by norm_num)).2 ⟨⟨.fin true 3, .fin true 3, .fin true 3⟩, ⟨.fin false 1, .fin false 1, .fin false 1⟩⟩
  ⟨Two.usual_three, Two.usual_three, Two.usual_three⟩ ⟨Two.usual_one, Two.usual_one, Two.usual_one⟩

/-- **C136** violated without the bounds: two points at different distances (`2^-600` and `2^-599`) are indistinguishable to the code, as the squared
distances underflow; multiplied by `2^100` they are not. -/
theorem c136_violated : ∃ o p q : Point3D F64, o = ⟨.fin false 0, .fin false 0, .fin false 0⟩ ∧ p = ⟨.fin false (2 ^ (-600 : ℤ)), .fin false 0, .fin false 0⟩ ∧
    q = ⟨.fin false (2 ^ (-599 : ℤ)), .fin false 0, .fin false 0⟩ ∧ Rep p.x ∧ Rep q.x ∧ (o.sqrDist p <. o.sqrDist q) = false ∧
    ((o.smul (twoPow 100)).sqrDist (p.smul (twoPow 100)) <. (o.smul (twoPow 100)).sqrDist (q.smul (twoPow 100))) = true := by
  refine ⟨_, _, _, rfl, rfl, rfl, ?_, ?_, by decide +kernel, by decide +kernel⟩
  · exact ⟨(two_zpow_pos _).le, zpow_lt_zpow_right₀ one_lt_two (by norm_num), dyad_pow2 (by norm_num)⟩
  · exact ⟨(two_zpow_pos _).le, zpow_lt_zpow_right₀ one_lt_two (by norm_num), dyad_pow2 (by norm_num)⟩

end R3D

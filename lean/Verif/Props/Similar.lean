import Verif.Model.Filter
import Verif.Model.Intersect
import Verif.Props.KdTree
import Verif.Props.Filter
import Verif.Props.Hull
import Verif.Props.CloudGeometry
import Verif.Lemmas.BoundingBoxReal
/-!
C117: results do not depend on the origin and the unit of the coordinates (exact arithmetic): k-d tree and filters.
-/
namespace R3D
open Scalar LawfulScalar Spec

/-- the coordinates of a point after changing the unit by `f` and the origin by `v` -/
def Spec.sim3 (f : ℝ) (v p : Point3D ℝ) : Point3D ℝ := ⟨f * p.x + v.x, f * p.y + v.y, f * p.z + v.z⟩

/-- the same in the plane -/
def Spec.sim2 (f : ℝ) (v p : Point2D ℝ) : Point2D ℝ := ⟨f * p.x + v.x, f * p.y + v.y⟩

namespace Sim
variable {f : ℝ} {v : Point3D ℝ} {w : Point2D ℝ} {P : Type}

theorem cmp_sim (hf : 0 < f) (c a b : ℝ) : partialCmp (f * a + c) (f * b + c) = partialCmp a b := by
  simp [partialCmp, hf, hf.ne']

theorem cmp_scale (hf : 0 < f) (a b : ℝ) : partialCmp (f * a) (f * b) = partialCmp a b := by
  simp [partialCmp, hf, hf.ne']

theorem sqrDist3 (p q : Point3D ℝ) : (sim3 f v p).sqrDist (sim3 f v q) = f * f * p.sqrDist q := by
  simp only [Point3D.sqrDist, sim3, Scalar.sq]
  ring

theorem sqrDist2 (p q : Point2D ℝ) : (sim2 f w p).sqrDist (sim2 f w q) = f * f * p.sqrDist q := by
  simp only [Point2D.sqrDist, sim2, Scalar.sq]
  ring

theorem dist3 (hf : 0 < f) (p q : Point3D ℝ) : (sim3 f v p).dist (sim3 f v q) = f * p.dist q := by
  rw [Point3D.dist, sqrDist3, Real.scalar_sqrt, Real.sqrt_mul (by positivity), Real.sqrt_mul_self hf.le]
  rfl

theorem dist2 (hf : 0 < f) (p q : Point2D ℝ) : (sim2 f w p).dist (sim2 f w q) = f * p.dist q := by
  rw [Point2D.dist, sqrDist2, Real.scalar_sqrt, Real.sqrt_mul (by positivity), Real.sqrt_mul_self hf.le]
  rfl

theorem leDim (hf : 0 < f) (pos : P → Point3D ℝ) (d : Nat) : KdTree.leDim (fun p => sim3 f v (pos p)) d = KdTree.leDim pos d := by
  funext a b
  unfold KdTree.leDim
  simp only [sim3, cmp_sim hf]

theorem newNode (hf : 0 < f) (pos : P → Point3D ℝ) (fuel dim : Nat) (pc : List P) :
    KdTree.newNode (fun p => sim3 f v (pos p)) fuel dim pc = KdTree.newNode pos fuel dim pc := by
  induction fuel generalizing dim pc with
  | zero => rfl
  | succ fuel ih => simp only [KdTree.newNode, leDim hf, ih]

theorem dimensionCompare (hf : 0 < f) (p q : Point3D ℝ) (d : Nat) :
    R3D.dimensionCompare (sim3 f v p) (sim3 f v q) d = R3D.dimensionCompare p q d := by
  unfold R3D.dimensionCompare
  simp only [sim3, cmp_sim hf]

theorem coordOf (d : Nat) (p : Point3D ℝ) : KdTree.coordOf d (sim3 f v p) = f * KdTree.coordOf d p + KdTree.coordOf d v := by
  unfold KdTree.coordOf
  split <;> rfl

theorem sortAndLimit (hf : 0 < f) (pos : P → Point3D ℝ) (s : Point3D ℝ) (n : Nat) (pc : List P) :
    KdTree.sortAndLimit (fun p => sim3 f v (pos p)) (sim3 f v s) n pc = KdTree.sortAndLimit pos s n pc := by
  have hff : 0 < f * f := by positivity
  simp only [KdTree.sortAndLimit, sqrDist3, cmp_scale hff]

theorem pushCandidate (hf : 0 < f) (pos : P → Point3D ℝ) (s : Point3D ℝ) (n : Nat) (p : P) (pc : List P) :
    KdTree.pushCandidate (fun p => sim3 f v (pos p)) (sim3 f v s) n p pc = KdTree.pushCandidate pos s n p pc := by
  have hff : 0 < f * f := by positivity
  simp only [KdTree.pushCandidate, sqrDist3, Real.scalar_lt, mul_lt_mul_iff_right₀ hff]

theorem border_right (hf : 0 < f) (a b c d : ℝ) : f * a + b ≤ f * c + b + f * d ↔ a ≤ c + d := by
  rw [show f * c + b + f * d = f * (c + d) + b by ring, add_le_add_iff_right, mul_le_mul_iff_right₀ hf]

theorem border_left (hf : 0 < f) (a b c d : ℝ) : f * c + b - f * d ≤ f * a + b ↔ c - d ≤ a := by
  rw [show f * c + b - f * d = f * (c - d) + b by ring, add_le_add_iff_right, mul_le_mul_iff_right₀ hf]

theorem knearestNode (hf : 0 < f) (pos : P → Point3D ℝ) (s : Point3D ℝ) (n : Nat) (t : KdTree P) (pc : List P) :
    KdTree.knearestNode (fun p => sim3 f v (pos p)) (sim3 f v s) n t pc = KdTree.knearestNode pos s n t pc := by
  induction t generalizing pc with
  | nil => rfl
  | node l r x d ihl ihr =>
    simp only [KdTree.knearestNode, pushCandidate hf, dimensionCompare hf, sortAndLimit hf, ihl, ihr, coordOf, dist3 hf, Real.scalar_le,
      border_right hf, border_left hf]

theorem inSphere (hf : 0 < f) (pos : P → Point3D ℝ) (c : Point3D ℝ) (r : ℝ) (t : KdTree P) (ht : t.Ordered pos) (pc : List P) :
    t.inSphere (fun p => sim3 f v (pos p)) ⟨sim3 f v c, ⟨f * r⟩⟩ pc = t.inSphere pos ⟨c, ⟨r⟩⟩ pc := by
  induction t generalizing pc with
  | nil => rfl
  | node lt rt x d ihl ihr =>
    obtain ⟨hd, -, -, hl, hr⟩ := ht
    rcases hd with rfl | rfl <;>
    simp only [KdTree.inSphere, dist3 hf, Real.scalar_le, mul_le_mul_iff_right₀ hf, dimensionCompare hf, ihl hl, ihr hr, KdTree.coordOf,
      Sphere.x, Sphere.y] <;>
    simp only [sim3, border_right hf, border_left hf]

theorem abs_sim (hf : 0 < f) (a b c d : ℝ) : |f * a + c - (f * b + c)| ≤ 1 / 2 * (f * d) ↔ |a - b| ≤ 1 / 2 * d := by
  rw [show f * a + c - (f * b + c) = f * (a - b) by ring, abs_mul, abs_of_pos hf, show 1 / 2 * (f * d) = f * (1 / 2 * d) by ring,
    mul_le_mul_iff_right₀ hf]

theorem half_right (hf : 0 < f) (a b c d : ℝ) : f * a + b ≤ f * c + b + 1 / 2 * (f * d) ↔ a ≤ c + 1 / 2 * d := by
  rw [← border_right hf a b c (1 / 2 * d), show 1 / 2 * (f * d) = f * (1 / 2 * d) by ring]

theorem half_left (hf : 0 < f) (a b c d : ℝ) : f * c + b - 1 / 2 * (f * d) ≤ f * a + b ↔ c - 1 / 2 * d ≤ a := by
  rw [← border_left hf a b c (1 / 2 * d), show 1 / 2 * (f * d) = f * (1 / 2 * d) by ring]

theorem inBox (hf : 0 < f) (pos : P → Point3D ℝ) (c : Point3D ℝ) (sx sy sz : ℝ) (t : KdTree P) (ht : t.Ordered pos) (pc : List P) :
    t.inBox (fun p => sim3 f v (pos p)) ⟨sim3 f v c, ⟨f * sx⟩, ⟨f * sy⟩, ⟨f * sz⟩⟩ pc = t.inBox pos ⟨c, ⟨sx⟩, ⟨sy⟩, ⟨sz⟩⟩ pc := by
  have h2 : ((1 / 2 : ℚ) : ℝ) = 1 / 2 := by norm_num
  induction t generalizing pc with
  | nil => rfl
  | node lt rt x d ihl ihr =>
    obtain ⟨hd, -, -, hl, hr⟩ := ht
    rcases hd with rfl | rfl <;>
    simp only [KdTree.inBox, dimensionDist, Real.scalar_abs, Real.scalar_lit, h2, Real.scalar_le, dimensionCompare hf, ihl hl, ihr hr, KdTree.coordOf,
      Box3D.x, Box3D.y] <;>
    simp only [sim3, abs_sim hf, half_right hf, half_left hf]

end Sim

/-- **C117**, k-d tree: in other coordinates the same tree is built. -/
theorem c117_kd_build {P : Type} (f : ℝ) (hf : 0 < f) (v : Point3D ℝ) (pos : P → Point3D ℝ) (t : KdTree P) (pc : List P) :
    KdTree.build (fun p => sim3 f v (pos p)) t pc = KdTree.build pos t pc := by
  simp only [KdTree.build, Sim.newNode hf]

example : KdTree.build (fun p : Point3D ℝ => sim3 2 ⟨10, 20, 30⟩ p) .nil [⟨1, 3, 0⟩, ⟨3, 1, 0⟩, ⟨2, 4, 0⟩] =
    KdTree.build id .nil [⟨1, 3, 0⟩, ⟨3, 1, 0⟩, ⟨2, 4, 0⟩] := c117_kd_build 2 (by norm_num) ⟨10, 20, 30⟩ id _ _

/-- **C117**, k-d tree: in other coordinates all searches find the same points in the same order. -/
theorem c117_kd_search {P : Type} (f : ℝ) (hf : 0 < f) (v : Point3D ℝ) (pos : P → Point3D ℝ) (pts : List P) (t : KdTree P)
    (ht : KdTree.Built pos pts t) (res : List P) (q : Point3D ℝ) :
    t.nearest (fun p => sim3 f v (pos p)) (sim3 f v q) = t.nearest pos q ∧
    (∀ n, t.knearest (fun p => sim3 f v (pos p)) (sim3 f v q) n res = t.knearest pos q n res) ∧
    (∀ r, t.inSphere (fun p => sim3 f v (pos p)) ⟨sim3 f v q, ⟨f * r⟩⟩ res = t.inSphere pos ⟨q, ⟨r⟩⟩ res) ∧
    (∀ sx sy sz, t.inBox (fun p => sim3 f v (pos p)) ⟨sim3 f v q, ⟨f * sx⟩, ⟨f * sy⟩, ⟨f * sz⟩⟩ res =
      t.inBox pos ⟨q, ⟨sx⟩, ⟨sy⟩, ⟨sz⟩⟩ res) := by
  have ho : t.Ordered pos := by
    obtain ⟨-, rfl⟩ := KdTree.built_eq ht
    exact KdTree.newNode_ordered pos pts.length 0 pts le_rfl
  refine ⟨?_, ?_, fun r => Sim.inSphere hf pos q r t ho res, fun sx sy sz => Sim.inBox hf pos q sx sy sz t ho res⟩
  · simp only [KdTree.nearest, KdTree.knearest, Sim.knearestNode hf]
  · intro n
    simp only [KdTree.knearest, Sim.knearestNode hf]

example : ∃ t, KdTree.Built id [(⟨1, 3, 0⟩ : Point3D ℝ), ⟨3, 1, 0⟩, ⟨2, 4, 0⟩] t ∧
    t.nearest (sim3 2 ⟨10, 20, 30⟩) ⟨12, 24, 30⟩ = t.nearest id ⟨1, 2, 0⟩ := by
  refine ⟨_, rfl, ?_⟩
  have := (c117_kd_search 2 (by norm_num) ⟨10, 20, 30⟩ id [(⟨1, 3, 0⟩ : Point3D ℝ), ⟨3, 1, 0⟩, ⟨2, 4, 0⟩] _ rfl [] ⟨1, 2, 0⟩).1
  rw [show sim3 2 ⟨10, 20, 30⟩ ⟨1, 2, 0⟩ = ⟨12, 24, 30⟩ by simp only [sim3]; norm_num] at this
  exact this

/-- **C117**, outlier filter: in other coordinates (with the search distance in the other unit, `scale`) the same points are allowed. -/
theorem c117_outlier {P : Type} (f : Positive ℝ) (hf : 0 < f.val) (v : Point3D ℝ) (pos : P → Point3D ℝ) (pts : List P) (t : KdTree P)
    (ht : KdTree.Built pos pts t) (r : Positive ℝ) (n : Nat) (q : Point3D ℝ) :
    filterOutlier3D (fun p => sim3 f.val v (pos p)) t (r.mul f) n (sim3 f.val v q) = filterOutlier3D pos t r n q := by
  have h := (c117_kd_search f.val hf v pos pts t ht [] q).2.2.1 r.val
  simp only [filterOutlier3D, Positive.mul, mul_comm r.val, h]

example : ∃ t, KdTree.Built id [(⟨1, 3, 0⟩ : Point3D ℝ), ⟨3, 1, 0⟩, ⟨2, 4, 0⟩] t ∧
    filterOutlier3D (sim3 2 ⟨10, 20, 30⟩) t ⟨3 * 2⟩ 2 (sim3 2 ⟨10, 20, 30⟩ ⟨1, 3, 0⟩) = filterOutlier3D id t ⟨3⟩ 2 ⟨1, 3, 0⟩ :=
  ⟨_, rfl, c117_outlier ⟨2⟩ (by norm_num) ⟨10, 20, 30⟩ id [(⟨1, 3, 0⟩ : Point3D ℝ), ⟨3, 1, 0⟩, ⟨2, 4, 0⟩] _ rfl ⟨3⟩ 2 ⟨1, 3, 0⟩⟩

/-- **C117**, filters of spheres, circles and boxes: in other coordinates the same points are allowed. -/
theorem c117_filters (f : ℝ) (hf : 0 < f) (v : Point3D ℝ) (w : Point2D ℝ) :
    (∀ (c p : Point3D ℝ) r, filterSphere ⟨sim3 f v c, ⟨f * r⟩⟩ (sim3 f v p) = filterSphere ⟨c, ⟨r⟩⟩ p) ∧
    (∀ (c p : Point2D ℝ) r, filterCircle ⟨sim2 f w c, ⟨f * r⟩⟩ (sim2 f w p) = filterCircle ⟨c, ⟨r⟩⟩ p) ∧
    (∀ (c p : Point3D ℝ) sx sy sz, filterBox3D ⟨sim3 f v c, ⟨f * sx⟩, ⟨f * sy⟩, ⟨f * sz⟩⟩ (sim3 f v p) =
      filterBox3D ⟨c, ⟨sx⟩, ⟨sy⟩, ⟨sz⟩⟩ p) ∧
    (∀ (c p : Point2D ℝ) sx sy, filterBox2D ⟨sim2 f w c, ⟨f * sx⟩, ⟨f * sy⟩⟩ (sim2 f w p) = filterBox2D ⟨c, ⟨sx⟩, ⟨sy⟩⟩ p) := by
  have h2 : ((2 : ℚ) : ℝ) = 2 := by norm_num
  have e1 : ∀ a b c d : ℝ, f * c + b - f * d / 2 ≤ f * a + b ↔ c - d / 2 ≤ a := fun a b c d => by
    rw [← Sim.border_left hf a b c (d / 2), show f * d / 2 = f * (d / 2) by ring]
  have e2 : ∀ a b c d : ℝ, f * a + b ≤ f * c + b + f * d / 2 ↔ a ≤ c + d / 2 := fun a b c d => by
    rw [← Sim.border_right hf a b c (d / 2), show f * d / 2 = f * (d / 2) by ring]
  refine ⟨?_, ?_, ?_, ?_⟩
  · intro c p r
    simp only [filterSphere, Sim.dist3 hf, Real.scalar_le, mul_le_mul_iff_right₀ hf]
  · intro c p r
    simp only [filterCircle, Sim.dist2 hf, Real.scalar_le, mul_le_mul_iff_right₀ hf]
  · intro c p sx sy sz
    simp only [filterBox3D, sim3, Box3D.x, Box3D.y, Box3D.z, Real.scalar_le, Real.scalar_lit, h2, e1, e2]
  · intro c p sx sy
    simp only [filterBox2D, sim2, Box2D.x, Box2D.y, Real.scalar_le, Real.scalar_lit, h2, e1, e2]


/-- the point 2 from the center is outside of the circle with radius 1, in both systems -/
example : filterCircle ⟨sim2 3 ⟨5, 7⟩ ⟨0, 0⟩, ⟨3 * 1⟩⟩ (sim2 3 ⟨5, 7⟩ ⟨2, 0⟩) = false ∧ filterCircle ⟨(⟨0, 0⟩ : Point2D ℝ), ⟨1⟩⟩ ⟨2, 0⟩ = false := by
  have h : filterCircle ⟨(⟨0, 0⟩ : Point2D ℝ), ⟨1⟩⟩ ⟨2, 0⟩ = false := by
    simp [filterCircle, Point2D.dist, Point2D.sqrDist, Scalar.sq]
  exact ⟨((c117_filters 3 (by norm_num) ⟨0, 0, 0⟩ ⟨5, 7⟩).2.1 _ _ _).trans h, h⟩

namespace Sim
variable {f : ℝ} {v : Point3D ℝ} {w : Point2D ℝ}

theorem sortInsert_map {A B : Type} (g : A → B) (le : B → B → Bool) (a : A) (l : List A) :
    sortInsert le (g a) (l.map g) = (sortInsert (fun a b => le (g a) (g b)) a l).map g := by
  induction l with
  | nil => rfl
  | cons b l ih =>
    simp only [List.map_cons, sortInsert, ih]
    split <;> rfl

theorem stableSort_map {A B : Type} (g : A → B) (le : B → B → Bool) (l : List A) :
    stableSort le (l.map g) = (stableSort (fun a b => le (g a) (g b)) l).map g := by
  induction l with
  | nil => rfl
  | cons b l ih => simp only [List.map_cons, stableSort, ih, sortInsert_map]

theorem ccw (a b c : Point2D ℝ) : R3D.ccw (sim2 f w a) (sim2 f w b) (sim2 f w c) = f * f * R3D.ccw a b c := by
  simp only [R3D.ccw, sim2]
  ring

theorem hullPop (hf : 0 < f) (p : Point2D ℝ) (l : List (Point2D ℝ)) :
    R3D.hullPop (sim2 f w p) (l.map (sim2 f w)) = (R3D.hullPop p l).map (sim2 f w) := by
  have hff : 0 < f * f := by positivity
  induction l with
  | nil => rfl
  | cons b l ih =>
    cases l with
    | nil => rfl
    | cons a l =>
      simp only [List.map_cons, R3D.hullPop, ccw, Real.scalar_le, Real.scalar_zero] at ih ⊢
      have : f * f * R3D.ccw a b p ≤ 0 ↔ R3D.ccw a b p ≤ 0 := by
        constructor <;> intro h
        · by_contra hc
          nlinarith [mul_pos hff (not_le.1 hc)]
        · nlinarith
      simp only [this, ih]
      split <;> simp

theorem hullChain (hf : 0 < f) (l : List (Point2D ℝ)) :
    R3D.hullChain (l.map (sim2 f w)) = (R3D.hullChain l).map (sim2 f w) := by
  have : ∀ l s : List (Point2D ℝ), (l.map (sim2 f w)).foldl hullStep (s.map (sim2 f w)) = (l.foldl hullStep s).map (sim2 f w) := by
    intro l
    induction l with
    | nil => intro s; rfl
    | cons p l ih =>
      intro s
      simp only [List.map_cons, List.foldl_cons, hullStep, hullPop hf]
      exact ih (p :: R3D.hullPop p s)
  simp only [R3D.hullChain]
  rw [List.map_reverse]
  exact congrArg List.reverse (this l [])
end Sim

/-- **C117**, convex hull: in other coordinates the same points form the hull, in the same order. -/
theorem c117_hull (f : ℝ) (hf : 0 < f) (w : Point2D ℝ) (pts : List (Point2D ℝ)) :
    convexHull2D (pts.map (sim2 f w)) = (convexHull2D pts).map (sim2 f w) := by
  have hs : sortVec2DX (pts.map (sim2 f w)) = (sortVec2DX pts).map (sim2 f w) := by
    simp only [sortVec2DX, Sim.stableSort_map]
    simp only [sim2, Sim.cmp_sim hf]
  simp only [convexHull2D, hs, Sim.hullChain hf, ← List.map_reverse, List.map_append, List.map_dropLast]

example : convexHull2D [⟨11, 12⟩, ⟨15, 12⟩, ⟨13, 14⟩, ⟨13, 18⟩] = (convexHull2D [⟨0, 0⟩, ⟨2, 0⟩, ⟨1, 1⟩, ⟨1, 3⟩]).map (sim2 2 ⟨11, 12⟩) := by
  rw [← c117_hull 2 (by norm_num)]
  simp only [List.map_cons, List.map_nil, sim2]
  norm_num

namespace Sim
variable {f : ℝ} {v : Point3D ℝ} {w : Point2D ℝ}

/-- the formula for the distance in terms of the foot of the perpendicular -/
theorem distancePointLine_eq (p a b : Point2D ℝ) (hab : a.x ≠ b.x) :
    R3D.distancePointLine p a b =
      √((a.x + ((p.x - a.x) * (b.x - a.x) + (p.y - a.y) * (b.y - a.y)) / ((b.x - a.x) ^ 2 + (b.y - a.y) ^ 2) * (b.x - a.x) - p.x) ^ 2 +
        (a.y + ((p.x - a.x) * (b.x - a.x) + (p.y - a.y) * (b.y - a.y)) / ((b.x - a.x) ^ 2 + (b.y - a.y) ^ 2) * (b.y - a.y) - p.y) ^ 2) := by
  have hx : a.x - b.x ≠ 0 := sub_ne_zero.2 hab
  have hD : a.x * a.x - 2 * a.x * b.x + a.y * a.y - 2 * a.y * b.y + b.x * b.x + b.y * b.y ≠ 0 := by
    have : 0 < (a.x - b.x) ^ 2 := by positivity
    nlinarith [sq_nonneg (a.y - b.y)]
  rw [show (b.x - a.x) ^ 2 + (b.y - a.y) ^ 2 = a.x * a.x - 2 * a.x * b.x + a.y * a.y - 2 * a.y * b.y + b.x * b.x + b.y * b.y by ring]
  simp only [R3D.distancePointLine, Scalar.sq, Real.scalar_sqrt, Real.scalar_lit]
  push_cast
  congr 1
  set D := a.x * a.x - 2 * a.x * b.x + a.y * a.y - 2 * a.y * b.y + b.x * b.x + b.y * b.y with hDdef
  have ex : a.x + ((p.x - a.x) * (b.x - a.x) + (p.y - a.y) * (b.y - a.y)) / D * (b.x - a.x) =
      (a.x * a.x * p.x - a.x * a.y * b.y + a.x * a.y * p.y - 2 * a.x * b.x * p.x + a.x * b.y * b.y
      - a.x * b.y * p.y + a.y * a.y * b.x - a.y * b.x * b.y - a.y * b.x * p.y + b.x * b.x * p.x
      + b.x * b.y * p.y) / D := by
    rw [eq_div_iff hD, add_mul, div_mul_eq_mul_div, div_mul_cancel₀ _ hD, hDdef]
    ring
  have ey : a.y + ((p.x - a.x) * (b.x - a.x) + (p.y - a.y) * (b.y - a.y)) / D * (b.y - a.y) =
      ((a.y - b.y) * (a.x + ((p.x - a.x) * (b.x - a.x) + (p.y - a.y) * (b.y - a.y)) / D * (b.x - a.x))
        + a.x * b.y - a.y * b.x) / (a.x - b.x) := by
    rw [eq_div_iff hx]
    ring
  rw [← ex, ← ey]
  ring

theorem distancePointLine (hf : 0 < f) (p a b : Point2D ℝ) (hab : a.x ≠ b.x) :
    R3D.distancePointLine (sim2 f w p) (sim2 f w a) (sim2 f w b) = f * R3D.distancePointLine p a b := by
  rw [distancePointLine_eq p a b hab, distancePointLine_eq _ _ _ (by simpa [sim2, hf.ne'] using hab)]
  simp only [sim2]
  have hf2 : f ^ 2 ≠ 0 := by positivity
  rw [show (f * p.x + w.x - (f * a.x + w.x)) * (f * b.x + w.x - (f * a.x + w.x)) +
      (f * p.y + w.y - (f * a.y + w.y)) * (f * b.y + w.y - (f * a.y + w.y)) =
      f ^ 2 * ((p.x - a.x) * (b.x - a.x) + (p.y - a.y) * (b.y - a.y)) by ring,
    show (f * b.x + w.x - (f * a.x + w.x)) ^ 2 + (f * b.y + w.y - (f * a.y + w.y)) ^ 2 =
      f ^ 2 * ((b.x - a.x) ^ 2 + (b.y - a.y) ^ 2) by ring, mul_div_mul_left _ _ hf2]
  generalize ((p.x - a.x) * (b.x - a.x) + (p.y - a.y) * (b.y - a.y)) / ((b.x - a.x) ^ 2 + (b.y - a.y) ^ 2) = t
  rw [show (f * a.x + w.x + t * (f * b.x + w.x - (f * a.x + w.x)) - (f * p.x + w.x)) ^ 2 +
      (f * a.y + w.y + t * (f * b.y + w.y - (f * a.y + w.y)) - (f * p.y + w.y)) ^ 2 =
      f ^ 2 * ((a.x + t * (b.x - a.x) - p.x) ^ 2 + (a.y + t * (b.y - a.y) - p.y) ^ 2) by ring,
    Real.sqrt_mul (by positivity), Real.sqrt_sq hf.le]

theorem dpFind (hf : 0 < f) (a b : Point2D ℝ) (hab : a.x ≠ b.x) (l : List (Point2D ℝ)) (i j : Nat) (d : ℝ) :
    R3D.dpFind (sim2 f w a) (sim2 f w b) (l.map (sim2 f w)) i (j, f * d) =
      ((R3D.dpFind a b l i (j, d)).1, f * (R3D.dpFind a b l i (j, d)).2) := by
  induction l generalizing i j d with
  | nil => rfl
  | cons p l ih =>
    simp only [List.map_cons, R3D.dpFind, distancePointLine hf p a b hab, Real.scalar_lt, mul_lt_mul_iff_right₀ hf]
    split
    · exact ih _ _ _
    · exact ih _ _ _

theorem douglasPeucker (hf : 0 < f) (e : ℝ) (fuel : Nat) (l : List (Point2D ℝ)) (hl : l.Pairwise fun a b => a.x ≠ b.x) :
    R3D.douglasPeucker (f * e) fuel (l.map (sim2 f w)) = (R3D.douglasPeucker e fuel l).map (List.map (sim2 f w)) := by
  induction fuel generalizing l with
  | zero => cases l <;> rfl
  | succ fuel ih =>
    cases l with
    | nil => rfl
    | cons a l =>
      have hg : (sim2 f w a :: l.map (sim2 f w)).getLast? = (a :: l).getLast?.map (sim2 f w) := by
        rw [← List.map_cons, List.getLast?_map]
      simp only [List.map_cons, R3D.douglasPeucker, hg]
      cases hb : (a :: l).getLast? with
      | none => simp at hb
      | some b =>
        have hfind : R3D.dpFind (sim2 f w a) (sim2 f w b) (l.map (sim2 f w)).dropLast 1 (0, zero) =
            ((R3D.dpFind a b l.dropLast 1 (0, zero)).1, f * (R3D.dpFind a b l.dropLast 1 (0, zero)).2) := by
          cases l with
          | nil => simp [R3D.dpFind]
          | cons c l =>
            have hab : a.x ≠ b.x := (List.pairwise_cons.1 hl).1 b (by
              rw [List.getLast?_cons_cons] at hb
              exact List.mem_of_getLast? hb)
            have := dpFind (w := w) hf a b hab (c :: l).dropLast 1 0 0
            rw [mul_zero] at this
            simpa only [Real.scalar_zero, List.map_dropLast] using this
        simp only [Option.map_some, Option.bind_eq_bind, Option.bind_some, hfind, Real.scalar_lt, mul_lt_mul_iff_right₀ hf]
        rw [← List.map_cons, ← List.map_take, ← List.map_drop, ih _ (hl.sublist (List.take_sublist _ _)),
          ih _ (hl.sublist (List.drop_sublist _ _))]
        split
        · cases h1 : R3D.douglasPeucker e fuel (List.take (R3D.dpFind a b l.dropLast 1 (0, zero)).1 (a :: l)) with
          | none => rfl
          | some r1 =>
            cases h2 : R3D.douglasPeucker e fuel (List.drop (R3D.dpFind a b l.dropLast 1 (0, zero)).1 (a :: l)) with
            | none => rfl
            | some r2 =>
              simp only [Option.map_some, Option.bind_some, List.length_map]
              split <;> simp
        · rfl
end Sim

/-- **C117**, line simplification: in other coordinates (with the tolerance in the other unit) the same points are kept. Points above
each other are excluded since the code divides by the difference of their x coordinates. -/
theorem c117_simplify (f : ℝ) (hf : 0 < f) (w : Point2D ℝ) (e : ℝ) (pts : List (Point2D ℝ)) (hx : pts.Pairwise fun a b => a.x ≠ b.x) :
    douglasPeucker (f * e) (pts.map (sim2 f w)).length (pts.map (sim2 f w)) = (douglasPeucker e pts.length pts).map (List.map (sim2 f w)) := by
  rw [List.length_map]
  exact Sim.douglasPeucker hf e pts.length pts hx

example : douglasPeucker (2 * 1) 3 ([⟨0, 0⟩, ⟨1, 3⟩, ⟨2, 0⟩].map (sim2 2 ⟨5, 7⟩)) =
    (douglasPeucker (1 : ℝ) 3 [⟨0, 0⟩, ⟨1, 3⟩, ⟨2, 0⟩]).map (List.map (sim2 2 ⟨5, 7⟩)) :=
  c117_simplify 2 (by norm_num) ⟨5, 7⟩ 1 [⟨0, 0⟩, ⟨1, 3⟩, ⟨2, 0⟩] (by simp)

end R3D

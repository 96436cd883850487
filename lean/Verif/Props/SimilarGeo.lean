import Verif.Props.Similar
import Verif.Props.Bezier
import Verif.Model.Nd
/-!
C117: results do not depend on the origin and the unit of the coordinates (exact arithmetic): boxes, curves, rays, colliders, octree.
-/
namespace R3D
open Scalar LawfulScalar Spec

/-- a box in the other coordinates -/
def Spec.simBox2 (f : ℝ) (w : Point2D ℝ) (b : BoundingBox2D ℝ) : BoundingBox2D ℝ := ⟨sim2 f w b.min, sim2 f w b.max⟩
/-- a box in the other coordinates -/
def Spec.simBox3 (f : ℝ) (v : Point3D ℝ) (b : BoundingBox3D ℝ) : BoundingBox3D ℝ := ⟨sim3 f v b.min, sim3 f v b.max⟩

/-- a collider in the other coordinates -/
def Spec.simCollider (f : ℝ) (v : Point3D ℝ) : Collider3D ℝ → Collider3D ℝ
  | .aabb b => .aabb (simBox3 f v b)
  | .box3 b => .box3 ⟨sim3 f v b.center, b.yDir, b.zDir, ⟨f * b.sizeX.val⟩, ⟨f * b.sizeY.val⟩, ⟨f * b.sizeZ.val⟩⟩
  | .face t => .face ⟨sim3 f v t.a, sim3 f v t.b, sim3 f v t.c⟩

namespace Sim
variable {f : ℝ} {v : Point3D ℝ} {w : Point2D ℝ} {P : Type}

theorem lt1 (hf : 0 < f) (a b c : ℝ) : f * a + c < f * b + c ↔ a < b := by
  rw [add_lt_add_iff_right, mul_lt_mul_iff_right₀ hf]

theorem eq1 (hf : 0 < f) (a b c : ℝ) : f * a + c = f * b + c ↔ a = b := by
  simp [hf.ne']

theorem ite1 {p : Prop} [Decidable p] (a b c : ℝ) : (if p then f * a + c else f * b + c) = f * (if p then a else b) + c := by
  split <;> rfl

theorem pos_new (hf : 0 < f) (a : ℝ) : Positive.new (f * a) = (Positive.new a).map fun r => ⟨f * r.val⟩ := by
  simp only [Positive.new, Real.scalar_lt, Real.scalar_zero, mul_pos_iff_of_pos_left hf]
  split <;> rfl

theorem nonneg_new (hf : 0 < f) (a : ℝ) : NonNegative.new (f * a) = (NonNegative.new a).map fun r => ⟨f * r.val⟩ := by
  simp only [NonNegative.new, Real.scalar_le, Real.scalar_zero, mul_nonneg_iff_of_pos_left hf]
  split <;> rfl

theorem size1 (hf : 0 < f) (a b c : ℝ) : |f * a + c - (f * b + c)| = f * |a - b| := by
  rw [show f * a + c - (f * b + c) = f * (a - b) by ring, abs_mul, abs_of_pos hf]

theorem mid1 (a b c : ℝ) : f * a + c + (f * b + c - (f * a + c)) / 2 = f * (a + (b - a) / 2) + c := by ring

theorem new2 (hf : 0 < f) (a b : Point2D ℝ) :
    BoundingBox2D.new (sim2 f w a) (sim2 f w b) = (BoundingBox2D.new a b).map (simBox2 f w) := by
  simp only [BoundingBox2D.new, sim2, Real.scalar_eq, Real.scalar_lt, lt1 hf, eq1 hf]
  split_ifs <;> rfl

theorem new3 (hf : 0 < f) (a b : Point3D ℝ) :
    BoundingBox3D.new (sim3 f v a) (sim3 f v b) = (BoundingBox3D.new a b).map (simBox3 f v) := by
  simp only [BoundingBox3D.new, sim3, Real.scalar_eq, Real.scalar_lt, lt1 hf, eq1 hf]
  split_ifs <;> rfl

theorem fold2 (hf : 0 < f) (l : List (Point2D ℝ)) (a b : Point2D ℝ) (n : Nat) :
    (l.map (sim2 f w)).foldl BoundingBox2D.step (sim2 f w a, sim2 f w b, n) =
      (sim2 f w (l.foldl BoundingBox2D.step (a, b, n)).1, sim2 f w (l.foldl BoundingBox2D.step (a, b, n)).2.1,
        (l.foldl BoundingBox2D.step (a, b, n)).2.2) := by
  induction l generalizing a b n with
  | nil => rfl
  | cons p l ih =>
    simp only [List.map_cons, List.foldl_cons]
    rw [show BoundingBox2D.step (sim2 f w a, sim2 f w b, n) (sim2 f w p) =
      (sim2 f w (BoundingBox2D.step (a, b, n) p).1, sim2 f w (BoundingBox2D.step (a, b, n) p).2.1, (BoundingBox2D.step (a, b, n) p).2.2) by
        simp only [BoundingBox2D.step, sim2, Real.scalar_lt, lt1 hf, ite1]]
    exact ih _ _ _

theorem fold3 (hf : 0 < f) (l : List (Point3D ℝ)) (a b : Point3D ℝ) (n : Nat) :
    (l.map (sim3 f v)).foldl BoundingBox3D.step (sim3 f v a, sim3 f v b, n) =
      (sim3 f v (l.foldl BoundingBox3D.step (a, b, n)).1, sim3 f v (l.foldl BoundingBox3D.step (a, b, n)).2.1,
        (l.foldl BoundingBox3D.step (a, b, n)).2.2) := by
  induction l generalizing a b n with
  | nil => rfl
  | cons p l ih =>
    simp only [List.map_cons, List.foldl_cons]
    rw [show BoundingBox3D.step (sim3 f v a, sim3 f v b, n) (sim3 f v p) =
      (sim3 f v (BoundingBox3D.step (a, b, n) p).1, sim3 f v (BoundingBox3D.step (a, b, n) p).2.1, (BoundingBox3D.step (a, b, n) p).2.2) by
        simp only [BoundingBox3D.step, sim3, Real.scalar_lt, lt1 hf, ite1]]
    exact ih _ _ _

theorem fromIterator2 (hf : 0 < f) (l : List (Point2D ℝ)) :
    BoundingBox2D.fromIterator (l.map (sim2 f w)) = (BoundingBox2D.fromIterator l).map (simBox2 f w) := by
  cases l with
  | nil => rfl
  | cons p l =>
    simp only [List.map_cons, BoundingBox2D.fromIterator, fold2 hf, new2 hf]
    split <;> rfl

theorem fromIterator3 (hf : 0 < f) (l : List (Point3D ℝ)) :
    BoundingBox3D.fromIterator (l.map (sim3 f v)) = (BoundingBox3D.fromIterator l).map (simBox3 f v) := by
  cases l with
  | nil => rfl
  | cons p l =>
    simp only [List.map_cons, BoundingBox3D.fromIterator, fold3 hf, new3 hf]
    split <;> rfl

theorem close1 (hf : 0 < f) (x s t : ℝ) : 2 * (f * x) < f * s + f * t ↔ 2 * x < s + t := by
  rw [show 2 * (f * x) = f * (2 * x) by ring, ← mul_add, mul_lt_mul_iff_right₀ hf]

theorem collides2 (hf : 0 < f) (a b : BoundingBox2D ℝ) : (simBox2 f w a).collidesWith (simBox2 f w b) = a.collidesWith b := by
  have h2 : ((2 : ℚ) : ℝ) = 2 := by norm_num
  simp only [BoundingBox2D.collidesWith, BoundingBox2D.sizeX, BoundingBox2D.sizeY, BoundingBox2D.centerBB, simBox2, sim2, Real.scalar_abs,
    size1 hf, pos_new hf, Real.scalar_lit, h2, mid1, Positive.add, Real.scalar_lt]
  cases Positive.new |a.max.x - a.min.x| <;> cases Positive.new |b.max.x - b.min.x| <;> cases Positive.new |a.max.y - a.min.y| <;>
    cases Positive.new |b.max.y - b.min.y| <;> simp [close1 hf]

theorem collides3 (hf : 0 < f) (a b : BoundingBox3D ℝ) : (simBox3 f v a).collidesWith (simBox3 f v b) = a.collidesWith b := by
  have h2 : ((2 : ℚ) : ℝ) = 2 := by norm_num
  simp only [BoundingBox3D.collidesWith, BoundingBox3D.sizeX, BoundingBox3D.sizeY, BoundingBox3D.sizeZ, BoundingBox3D.centerBB, simBox3, sim3,
    Real.scalar_abs, size1 hf, pos_new hf, Real.scalar_lit, h2, mid1, Positive.add, Real.scalar_lt]
  cases Positive.new |a.max.x - a.min.x| <;> cases Positive.new |b.max.x - b.min.x| <;> cases Positive.new |a.max.y - a.min.y| <;>
    cases Positive.new |b.max.y - b.min.y| <;> cases Positive.new |a.max.z - a.min.z| <;> cases Positive.new |b.max.z - b.min.z| <;>
    simp [close1 hf]

theorem max3_sim (hf : 0 < f) (a b c d : ℝ) : max3 (f * a + d - (f * b + d)) zero (f * b + d - (f * c + d)) = f * max3 (a - b) zero (b - c) := by
  rw [show f * a + d - (f * b + d) = f * (a - b) by ring, show f * b + d - (f * c + d) = f * (b - c) by ring]
  simp only [max3, Real.scalar_max2, Real.scalar_zero, mul_max_of_nonneg _ _ hf.le, mul_zero]

theorem gap_sim (hf : 0 < f) (a b c d e : ℝ) :
    BoundingBox2D.gap (f * a + e) (f * b + e) (f * c + e) (f * d + e) = f * BoundingBox2D.gap a b c d := by
  simp only [BoundingBox2D.gap, Real.scalar_lt, lt1 hf, Real.scalar_zero]
  split_ifs <;> ring

theorem length2 (hf : 0 < f) (l : List (Point2D ℝ)) (acc : ℝ) :
    PointCloud2D.lengthLoop (f * acc) (l.map (sim2 f w)) = f * PointCloud2D.lengthLoop acc l := by
  induction l generalizing acc with
  | nil => rfl
  | cons a l ih =>
    cases l with
    | nil => rfl
    | cons b l =>
      simp only [List.map_cons, PointCloud2D.lengthLoop, dist2 hf, ← mul_add] at ih ⊢
      exact ih _

theorem length3 (hf : 0 < f) (l : List (Point3D ℝ)) (acc : ℝ) :
    PointCloud3D.lengthLoop (f * acc) (l.map (sim3 f v)) = f * PointCloud3D.lengthLoop acc l := by
  induction l generalizing acc with
  | nil => rfl
  | cons a l ih =>
    cases l with
    | nil => rfl
    | cons b l =>
      simp only [List.map_cons, PointCloud3D.lengthLoop, dist3 hf, ← mul_add] at ih ⊢
      exact ih _

theorem walk (hf : 0 < f) (build : ℝ → Point2D ℝ → Point2D ℝ → Point2D ℝ)
    (hb : ∀ t p q, build t (sim2 f w p) (sim2 f w q) = sim2 f w (build t p q)) (target before : ℝ) (l : List (Point2D ℝ)) :
    R3D.walk (f * target) build (f * before) (l.map (sim2 f w)) = (R3D.walk target build before l).map (sim2 f w) := by
  induction l generalizing before with
  | nil => rfl
  | cons a l ih =>
    cases l with
    | nil => rfl
    | cons b l =>
      have e : f * before + Scalar.sqrt (Scalar.sq ((sim2 f w b).x - (sim2 f w a).x) + Scalar.sq ((sim2 f w b).y - (sim2 f w a).y)) =
          f * (before + Scalar.sqrt (Scalar.sq (b.x - a.x) + Scalar.sq (b.y - a.y))) := by
        rw [mul_add]
        exact congrArg _ (dist2 hf b a)
      simp only [List.map_cons, R3D.walk] at ih ⊢
      simp only [e, Real.scalar_le, mul_le_mul_iff_right₀ hf, ← mul_sub, mul_div_mul_left _ _ hf.ne', hb, ih]
      split <;> rfl


/-! ### octree -/

theorem center3d (p q : Point3D ℝ) : R3D.center3d (sim3 f v p) (sim3 f v q) = sim3 f v (R3D.center3d p q) := by
  simp only [R3D.center3d, sim3, Real.scalar_lit]
  push_cast
  simp only [mid1]

theorem calcSubMinMax (hf : 0 < f) (d : OcDir) (b : BoundingBox3D ℝ) :
    OcNode.calcSubMinMax d (simBox3 f v b) = (OcNode.calcSubMinMax d b).map (simBox3 f v) := by
  simp only [OcNode.calcSubMinMax]
  rw [show (simBox3 f v b).min = sim3 f v b.min from rfl, show (simBox3 f v b).max = sim3 f v b.max from rfl, center3d]
  generalize R3D.center3d b.min b.max = m
  obtain ⟨⟨lx, ly, lz⟩, ⟨hx, hy, hz⟩⟩ := b
  obtain ⟨mx, my, mz⟩ := m
  cases d
  · exact new3 hf ⟨mx, my, mz⟩ ⟨hx, hy, hz⟩
  · exact new3 hf ⟨mx, my, lz⟩ ⟨hx, hy, mz⟩
  · exact new3 hf ⟨mx, ly, mz⟩ ⟨hx, my, hz⟩
  · exact new3 hf ⟨mx, ly, lz⟩ ⟨hx, my, mz⟩
  · exact new3 hf ⟨lx, my, mz⟩ ⟨mx, hy, hz⟩
  · exact new3 hf ⟨lx, my, lz⟩ ⟨mx, hy, mz⟩
  · exact new3 hf ⟨lx, ly, mz⟩ ⟨mx, my, hz⟩
  · exact new3 hf ⟨lx, ly, lz⟩ ⟨mx, my, mz⟩

theorem subBoxes (hf : 0 < f) (b : BoundingBox3D ℝ) :
    OcNode.subBoxes (simBox3 f v b) = (OcNode.subBoxes b).map fun g d => simBox3 f v (g d) := by
  simp only [OcNode.subBoxes, calcSubMinMax hf]
  cases OcNode.calcSubMinMax .PPP b <;> try rfl
  cases OcNode.calcSubMinMax .PPN b <;> try rfl
  cases OcNode.calcSubMinMax .PNP b <;> try rfl
  cases OcNode.calcSubMinMax .PNN b <;> try rfl
  cases OcNode.calcSubMinMax .NPP b <;> try rfl
  cases OcNode.calcSubMinMax .NPN b <;> try rfl
  cases OcNode.calcSubMinMax .NNP b <;> try rfl
  cases OcNode.calcSubMinMax .NNN b <;> try rfl
  simp only [Except.map, Except.bind, bind, pure, Except.pure]
  congr 1
  funext d
  cases d <;> rfl

theorem contains3 (hf : 0 < f) (b : BoundingBox3D ℝ) (p : Point3D ℝ) : (simBox3 f v b).contains (sim3 f v p) = b.contains p := by
  simp only [BoundingBox3D.contains, simBox3, sim3, Real.scalar_lt, lt1 hf]

/-- a node in the other coordinates -/
noncomputable def node (f : ℝ) (v : Point3D ℝ) : OcNode ℝ → OcNode ℝ
  | .nil => .nil
  | .diverged => .diverged
  | .leaf p => .leaf (sim3 f v p)
  | .node c => .node fun d => node f v (c d)

theorem ocNode (hf : 0 < f) (fuel : Nat) (b : BoundingBox3D ℝ) (pc : List (Point3D ℝ)) :
    OcNode.newNode fuel (simBox3 f v b) (pc.map (sim3 f v)) = (OcNode.newNode fuel b pc).map (node f v) := by
  induction fuel generalizing b pc with
  | zero => rfl
  | succ fuel ih =>
    by_cases h : ∃ p, pc = [p]
    · obtain ⟨p, rfl⟩ := h
      rfl
    · have h1 : ∀ p, pc = [p] → False := fun p hp => h ⟨p, hp⟩
      have h2 : ∀ p, pc.map (sim3 f v) = [p] → False := by
        intro p hp
        obtain ⟨q, rfl, -⟩ := List.map_eq_singleton_iff.1 hp
        exact h1 q rfl
      rw [OcNode.newNode.eq_3 _ _ _ h1, OcNode.newNode.eq_3 _ _ _ h2]
      rw [subBoxes hf]
      cases OcNode.subBoxes b with
      | error e => rfl
      | ok bbs =>
        simp only [Except.map, node]
        congr 2
        funext d
        have hc : ∀ p, OcNode.cellOf (fun d => simBox3 f v (bbs d)) (sim3 f v p) = OcNode.cellOf bbs p := by
          intro p
          simp only [OcNode.cellOf, contains3 hf]
        have hfil : ((pc.map (sim3 f v)).filter fun p => decide (OcNode.cellOf (fun d => simBox3 f v (bbs d)) p = some d)) =
            (pc.filter fun p => decide (OcNode.cellOf bbs p = some d)).map (sim3 f v) := by
          rw [List.filter_map]
          simp only [Function.comp_def, hc]
        rw [hfil, List.length_map, ih]
        generalize (pc.filter fun p => decide (OcNode.cellOf bbs p = some d)) = sub
        cases sub with
        | nil => rfl
        | cons p sub =>
          simp only [List.length_cons]
          cases OcNode.newNode fuel (bbs d) (p :: sub) <;> rfl
end Sim

/-! ### rays, lines and colliders -/
namespace Sim
variable {f : ℝ} {v : Point3D ℝ}

theorem conn (p q : Point3D ℝ) : R3D.conn (sim3 f v p) (sim3 f v q) = (R3D.conn p q).smul f := by
  simp only [R3D.conn, sim3, Point3D.smul]
  congr 1 <;> ring

theorem cross (p q : Point3D ℝ) (a b : ℝ) : (p.smul a).cross (q.smul b) = (p.cross q).smul (a * b) := by
  simp only [Point3D.cross, Point3D.smul]
  congr 1 <;> ring

theorem abs3 {g : ℝ} (hg : 0 < g) (p : Point3D ℝ) : (p.smul g).abs = p.abs.map fun l => ⟨g * l.val⟩ := by
  simp only [Point3D.abs, Point3D.smul, Scalar.sq, Real.scalar_sqrt]
  rw [show g * p.x * (g * p.x) + g * p.y * (g * p.y) + g * p.z * (g * p.z) = g * g * (p.x * p.x + p.y * p.y + p.z * p.z) by ring,
    Real.sqrt_mul (by positivity), Real.sqrt_mul_self hg.le, nonneg_new hg]

theorem norm {g : ℝ} (hg : 0 < g) (p : Point3D ℝ) : Norm3D.new (p.smul g) = Norm3D.new p := by
  simp only [Norm3D.new, abs3 hg]
  cases p.abs with
  | none => rfl
  | some l =>
    simp only [Option.map_some, Option.bind_eq_bind, Option.bind_some, Real.scalar_eq, Real.scalar_zero, mul_eq_zero, hg.ne', false_or,
      Real.scalar_lit, Point3D.smul]
    have h : ∀ x, ((1 : ℚ) : ℝ) / (g * l.val) * (g * x) = ((1 : ℚ) : ℝ) / l.val * x := by
      intro x
      have := hg.ne'
      by_cases hl : l.val = 0
      · simp [hl]
      · field_simp
    simp only [h]

theorem newOrZ {g : ℝ} (hg : 0 < g) (p : Point3D ℝ) : Norm3D.newOrZ (p.smul g) = Norm3D.newOrZ p := by
  simp only [Norm3D.newOrZ, norm hg]

theorem normalOfFace (hf : 0 < f) (a b c : Point3D ℝ) :
    R3D.normalOfFace (sim3 f v a) (sim3 f v b) (sim3 f v c) = R3D.normalOfFace a b c := by
  simp only [R3D.normalOfFace, conn, cross, newOrZ (mul_pos hf hf)]

theorem sub3 (p q : Point3D ℝ) : (sim3 f v p).sub (sim3 f v q) = (p.sub q).smul f := by
  simp only [Point3D.sub, sim3, Point3D.smul]
  congr 1 <;> ring

theorem dot_smul (n p : Point3D ℝ) (g : ℝ) : n.dot (p.smul g) = g * n.dot p := by
  simp only [Point3D.dot, Point3D.smul]
  ring

theorem hit (anchor dir : Point3D ℝ) (r : ℝ) : (sim3 f v anchor).add (dir.smul (f * r)) = sim3 f v (anchor.add (dir.smul r)) := by
  simp only [Point3D.add, sim3, Point3D.smul]
  congr 1 <;> ring

theorem le0 {g : ℝ} (hg : 0 < g) (x : ℝ) : g * x ≤ 0 ↔ x ≤ 0 := by
  constructor <;> intro h
  · by_contra hc
    nlinarith [mul_pos hg (not_le.1 hc)]
  · nlinarith

theorem rayTriangle (hf : 0 < f) (anchor dir a b c : Point3D ℝ) :
    intersectionRayTriangle (sim3 f v anchor) dir (sim3 f v a) (sim3 f v b) (sim3 f v c) =
      (intersectionRayTriangle anchor dir a b c).map (Option.map (sim3 f v)) := by
  simp only [intersectionRayTriangle, normalOfFace hf]
  cases R3D.normalOfFace a b c with
  | none => rfl
  | some n =>
    have e : ∀ x y : ℝ, -(f * x) / y = f * (-x / y) := fun x y => by ring
    simp only [Option.bind_eq_bind, Option.bind_some, sub3, cross, dot_smul, e, hit, Real.scalar_eq, Real.scalar_le, Real.scalar_zero,
      le0 hf, le0 (mul_pos hf hf)]
    split_ifs <;> rfl

theorem slab (hf : 0 < f) (lo hi a c i : ℝ) :
    AABBTree3D.slab (f * lo + c) (f * hi + c) (f * a + c) i = (f * (AABBTree3D.slab lo hi a i).1, f * (AABBTree3D.slab lo hi a i).2) := by
  have e : ∀ x, (f * x + c - (f * a + c)) * i = f * ((x - a) * i) := fun x => by ring
  simp only [AABBTree3D.slab, AABBTree3D.min64, AABBTree3D.max64, e, Real.scalar_lt, mul_lt_mul_iff_right₀ hf]
  congr 1 <;> split <;> rfl

theorem line (hf : 0 < f) (anchor dir : Point3D ℝ) (b : BoundingBox3D ℝ) :
    AABBTree3D.lineIntersection (sim3 f v anchor) dir (simBox3 f v b) = (AABBTree3D.lineIntersection anchor dir b).map (sim3 f v) := by
  have hmax : ∀ x y : ℝ, AABBTree3D.max64 (f * x) (f * y) = f * AABBTree3D.max64 x y := by
    intro x y
    simp only [AABBTree3D.max64, Real.scalar_lt, mul_lt_mul_iff_right₀ hf]
    split <;> rfl
  have hmin : ∀ x y : ℝ, AABBTree3D.min64 (f * x) (f * y) = f * AABBTree3D.min64 x y := by
    intro x y
    simp only [AABBTree3D.min64, Real.scalar_lt, mul_lt_mul_iff_right₀ hf]
    split <;> rfl
  simp only [AABBTree3D.lineIntersection]
  simp only [show (sim3 f v anchor).x = f * anchor.x + v.x from rfl, show (sim3 f v anchor).y = f * anchor.y + v.y from rfl,
    show (sim3 f v anchor).z = f * anchor.z + v.z from rfl, simBox3, show ∀ p, (sim3 f v p).x = f * p.x + v.x from fun _ => rfl,
    show ∀ p, (sim3 f v p).y = f * p.y + v.y from fun _ => rfl, show ∀ p, (sim3 f v p).z = f * p.z + v.z from fun _ => rfl, slab hf, hmax, hmin,
    hit, Real.scalar_le, mul_le_mul_iff_right₀ hf, Real.scalar_zero, mul_nonneg_iff_of_pos_left hf]
  split <;> rfl

theorem range (hf : 0 < f) (axis : Point3D ℝ) (pts : List (Point3D ℝ)) :
    Sat.range axis (pts.map (sim3 f v)) = ((Sat.range axis pts).1.map fun x => f * x + v.dot axis, (Sat.range axis pts).2.map fun x => f * x + v.dot axis) := by
  have hd : ∀ p, (sim3 f v p).dot axis = f * p.dot axis + v.dot axis := by
    intro p
    simp only [Point3D.dot, sim3]
    ring
  have : ∀ (pts : List (Point3D ℝ)) (a b : Option ℝ), (pts.map (sim3 f v)).foldl (Sat.step axis) (a.map fun x => f * x + v.dot axis, b.map fun x => f * x + v.dot axis) =
      ((pts.foldl (Sat.step axis) (a, b)).1.map fun x => f * x + v.dot axis, (pts.foldl (Sat.step axis) (a, b)).2.map fun x => f * x + v.dot axis) := by
    intro pts
    induction pts with
    | nil => intro a b; rfl
    | cons p pts ih =>
      intro a b
      simp only [List.map_cons, List.foldl_cons]
      rw [← ih]
      congr 1
      simp only [Sat.step, hd]
      cases a <;> cases b <;> simp only [Option.map_some, Option.map_none, Real.scalar_lt, lt1 hf] <;>
        (congr 1 <;> split <;> rfl)
  exact this pts none none

theorem onAxis (hf : 0 < f) (as bs : List (Point3D ℝ)) (o : Bool) (axis : Point3D ℝ) :
    Sat.onAxis (as.map (sim3 f v)) (bs.map (sim3 f v)) o axis = Sat.onAxis as bs o axis := by
  simp only [Sat.onAxis, range hf]
  split
  · rcases Sat.range axis as with ⟨_ | _, _ | _⟩ <;> rcases Sat.range axis bs with ⟨_ | _, _ | _⟩ <;>
      simp [lt1 hf]
  · rfl

theorem collide (hf : 0 < f) (as xs bs ys : List (Point3D ℝ)) :
    Sat.collide (as.map (sim3 f v)) xs (bs.map (sim3 f v)) ys = Sat.collide as xs bs ys := by
  have : Sat.onAxis (as.map (sim3 f v)) (bs.map (sim3 f v)) = Sat.onAxis as bs := by
    funext o axis
    exact onAxis hf as bs o axis
  simp only [Sat.collide, this]

theorem satObject (hf : 0 < f) (c : Collider3D ℝ) :
    (simCollider f v c).satObject = c.satObject.map fun o => (o.1.map (sim3 f v), o.2) := by
  cases c with
  | aabb b => rfl
  | box3 b =>
    have hs : ∀ (d : Point3D ℝ) s, d.smul (f * s) = (d.smul s).smul f := by
      intro d s
      simp only [Point3D.smul]
      congr 1 <;> ring
    have ha : ∀ c d : Point3D ℝ, (sim3 f v c).add (d.smul f) = sim3 f v (c.add d) := by
      intro c d
      simp only [Point3D.add, sim3, Point3D.smul]
      congr 1 <;> ring
    have hb : ∀ c d : Point3D ℝ, (sim3 f v c).sub (d.smul f) = sim3 f v (c.sub d) := by
      intro c d
      simp only [Point3D.sub, sim3, Point3D.smul]
      congr 1 <;> ring
    have hc : ∀ c d : Point3D ℝ, (c.smul f).add (d.smul f) = (c.add d).smul f := by
      intro c d
      simp only [Point3D.add, Point3D.smul]
      congr 1 <;> ring
    have he : ∀ c d : Point3D ℝ, (c.smul f).sub (d.smul f) = (c.sub d).smul f := by
      intro c d
      simp only [Point3D.sub, Point3D.smul]
      congr 1 <;> ring
    simp only [simCollider, Collider3D.satObject, BoxUnaligned3D.satPoints, BoxUnaligned3D.satAxes, BoxUnaligned3D.dX, BoxUnaligned3D.dY,
      BoxUnaligned3D.dZ, BoxUnaligned3D.xDir, hs]
    cases Norm3D.newOrZ (b.zDir.cross b.yDir) with
    | none => rfl
    | some n => simp [ha, hb, hc, he]
  | face t =>
    have hx : ∀ n p : Point3D ℝ, n.cross (p.smul f) = (n.cross p).smul f := by
      intro n p
      simp only [Point3D.cross, Point3D.smul]
      congr 1 <;> ring
    have hy : ∀ n p : Point3D ℝ, (n.smul f).cross p = (n.cross p).smul f := by
      intro n p
      simp only [Point3D.cross, Point3D.smul]
      congr 1 <;> ring
    simp only [simCollider, Collider3D.satObject, TriFace3D.satPoints, TriFace3D.satAxes, conn, hx, hy, newOrZ hf]
    cases Norm3D.newOrZ ((R3D.conn t.a t.b).cross (R3D.conn t.b t.c)) with
    | none => rfl
    | some n =>
      simp only [Option.bind_eq_bind, Option.bind_some]
      cases Norm3D.newOrZ (n.cross (R3D.conn t.a t.b)) <;> try rfl
      cases Norm3D.newOrZ (n.cross (R3D.conn t.b t.c)) <;> try rfl
      cases Norm3D.newOrZ (n.cross (R3D.conn t.c t.a)) <;> rfl

theorem sat (hf : 0 < f) (a b : Collider3D ℝ) : Collider3D.sat (simCollider f v a) (simCollider f v b) = Collider3D.sat a b := by
  simp only [Collider3D.sat, satObject hf]
  cases a.satObject with
  | none => rfl
  | some oa =>
    cases b.satObject with
    | none => rfl
    | some ob => simp [collide hf]

/-! ### sums -/

theorem sums3 (l : List (Point3D ℝ)) (a b c : ℝ) :
    l.foldl (fun (s : ℝ × ℝ × ℝ) p => (s.1 + p.x, s.2.1 + p.y, s.2.2 + p.z)) (a, b, c) =
      (a + (l.map (·.x)).sum, b + (l.map (·.y)).sum, c + (l.map (·.z)).sum) := by
  induction l generalizing a b c with
  | nil => simp
  | cons p l ih => simp only [List.foldl_cons, ih, List.map_cons, List.sum_cons, add_assoc]

theorem sums2 (l : List (Point2D ℝ)) (a b : ℝ) :
    l.foldl (fun (s : ℝ × ℝ) p => (s.1 + p.x, s.2 + p.y)) (a, b) = (a + (l.map (·.x)).sum, b + (l.map (·.y)).sum) := by
  induction l generalizing a b with
  | nil => simp
  | cons p l ih => simp only [List.foldl_cons, ih, List.map_cons, List.sum_cons, add_assoc]

theorem sum_x (l : List (Point3D ℝ)) : ((l.map (sim3 f v)).map (·.x)).sum = f * (l.map (·.x)).sum + l.length * v.x := by
  induction l with
  | nil => simp
  | cons p l ih =>
    simp only [List.map_cons, List.sum_cons, ih, List.length_cons, sim3]
    push_cast
    ring
theorem sum_y (l : List (Point3D ℝ)) : ((l.map (sim3 f v)).map (·.y)).sum = f * (l.map (·.y)).sum + l.length * v.y := by
  induction l with
  | nil => simp
  | cons p l ih =>
    simp only [List.map_cons, List.sum_cons, ih, List.length_cons, sim3]
    push_cast
    ring
theorem sum_z (l : List (Point3D ℝ)) : ((l.map (sim3 f v)).map (·.z)).sum = f * (l.map (·.z)).sum + l.length * v.z := by
  induction l with
  | nil => simp
  | cons p l ih =>
    simp only [List.map_cons, List.sum_cons, ih, List.length_cons, sim3]
    push_cast
    ring
theorem sum_u {w : Point2D ℝ} (l : List (Point2D ℝ)) : ((l.map (sim2 f w)).map (·.x)).sum = f * (l.map (·.x)).sum + l.length * w.x := by
  induction l with
  | nil => simp
  | cons p l ih =>
    simp only [List.map_cons, List.sum_cons, ih, List.length_cons, sim2]
    push_cast
    ring
theorem sum_v {w : Point2D ℝ} (l : List (Point2D ℝ)) : ((l.map (sim2 f w)).map (·.y)).sum = f * (l.map (·.y)).sum + l.length * w.y := by
  induction l with
  | nil => simp
  | cons p l ih =>
    simp only [List.map_cons, List.sum_cons, ih, List.length_cons, sim2]
    push_cast
    ring

theorem cog3 (l : List (Point3D ℝ)) : centerOfGravity3d (l.map (sim3 f v)) = (centerOfGravity3d l).map (sim3 f v) := by
  have hs : ∀ (l : List (Point3D ℝ)) (a : Point3D ℝ), l.foldl (fun (s : Point3D ℝ) p => ⟨s.x + p.x, s.y + p.y, s.z + p.z⟩) a =
      ⟨a.x + (l.map (·.x)).sum, a.y + (l.map (·.y)).sum, a.z + (l.map (·.z)).sum⟩ := by
    intro l
    induction l with
    | nil => intro a; simp
    | cons p l ih =>
      intro a
      simp only [List.foldl_cons, ih, List.map_cons, List.sum_cons, add_assoc]
  simp only [centerOfGravity3d, List.length_map]
  split
  · rfl
  · next h =>
    have hn : (l.length : ℝ) ≠ 0 := by
      have : l.length ≠ 0 := by omega
      exact_mod_cast this
    simp only [hs, Option.map_some, sim3, Real.scalar_zero, zero_add, Real.scalar_lit, Rat.cast_natCast, sum_x, sum_y, sum_z]
    congr 2 <;> field_simp

theorem mapM_opt {A B C : Type} (g : B → C) (h : A → Option B) (l : List A) :
    (l.mapM fun d => (h d).map g) = (l.mapM h).map (List.map g) := by
  induction l with
  | nil => rfl
  | cons a l ih =>
    simp only [List.mapM_cons, ih]
    cases h a with
    | none => rfl
    | some x => cases l.mapM h <;> rfl

theorem control {w : Point2D ℝ} (l : List (Point2D ℝ)) (t : ℝ) (h1 : 1 ≤ l.length) (h21 : l.length ≤ 21) :
    controlPolygon (l.map (sim2 f w)) (l.length - 1) t = (controlPolygon l (l.length - 1) t).map (sim2 f w) := by
  obtain ⟨m, hm⟩ : ∃ m, l.length = m + 1 := ⟨l.length - 1, by omega⟩
  let c : Nat → Point2D ℝ := fun i => l[i]?.getD ⟨0, 0⟩
  have hc : ∀ i < l.length, l[i]? = some (c i) := by
    intro i hi
    simp [c, List.getElem?_eq_getElem hi]
  have hc' : ∀ i < (l.map (sim2 f w)).length, (l.map (sim2 f w))[i]? = some (sim2 f w (c i)) := by
    intro i hi
    rw [List.length_map] at hi
    rw [List.getElem?_map, hc i hi, Option.map_some]
  have hk : ∀ k ∈ List.range (m + 1), k ≤ m ∧ k < l.length := by
    intro k hk
    have := List.mem_range.1 hk
    omega
  rw [hm, Nat.add_sub_cancel, controlPolygon, controlPolygon, controlLoop_eq l m t (by omega) c hc _ _ hk,
    controlLoop_eq (l.map (sim2 f w)) m t (by omega) _ hc' _ _ (by simpa using hk)]
  have hs : ∀ (g : Nat → ℝ) (a : ℝ), (∑ k ∈ Finset.range (m + 1), bernstein m k t * (f * g k + a)) =
      f * (∑ k ∈ Finset.range (m + 1), bernstein m k t * g k) + a := by
    intro g a
    calc _ = ∑ k ∈ Finset.range (m + 1), (f * (bernstein m k t * g k) + bernstein m k t * a) :=
          Finset.sum_congr rfl fun k _ => by ring
      _ = _ := by rw [Finset.sum_add_distrib, ← Finset.mul_sum, ← Finset.sum_mul, bernstein_sum, one_mul]
  simp only [Option.bind_eq_bind, Option.bind_some, sum_range_list, Real.scalar_zero, zero_add, Option.map_some, sim2, hs]

theorem mapM_map {A B : Type} (g : B → B) (h : A → Option (List B)) (l : List A) :
    (l.mapM fun d => (h d).map (List.map g)) = (l.mapM h).map (List.map (List.map g)) := by
  induction l with
  | nil => rfl
  | cons a l ih =>
    simp only [List.mapM_cons, ih]
    cases h a with
    | none => rfl
    | some x => cases l.mapM h <;> rfl

theorem ocSize (n : OcNode ℝ) : (node f v n).size = n.size := by
  induction n with
  | nil => rfl
  | diverged => rfl
  | leaf p => rfl
  | node c ih => simp only [node, OcNode.size, ih]

theorem isNil (n : OcNode ℝ) : (node f v n).isNil = n.isNil := by cases n <;> rfl

theorem ocCollect (m : Int) (n : OcNode ℝ) (depth : Nat) :
    (node f v n).collectNode m depth = (n.collectNode m depth).map (List.map (sim3 f v)) := by
  induction n generalizing depth with
  | nil => rfl
  | diverged => rfl
  | leaf p => rfl
  | node c ih =>
    simp only [node, OcNode.collectNode, isNil, ih]
    rw [show (fun d => if (c d).isNil = true then some [] else if depth + 1 > 127 then none else
        if (decide (m ≥ 0) && decide ((depth : Int) > m)) = true then
          Option.map (fun sub => (centerOfGravity3d sub).toList) (Option.map (List.map (sim3 f v)) ((c d).collectNode m (depth + 1)))
        else Option.map (List.map (sim3 f v)) ((c d).collectNode m (depth + 1))) =
      (fun d => (if (c d).isNil = true then some [] else if depth + 1 > 127 then none else
        if (decide (m ≥ 0) && decide ((depth : Int) > m)) = true then
          Option.map (fun sub => (centerOfGravity3d sub).toList) ((c d).collectNode m (depth + 1))
        else ((c d).collectNode m (depth + 1))).map (List.map (sim3 f v))) by
      funext d
      split
      · rfl
      · split
        · rfl
        · split
          · cases (c d).collectNode m (depth + 1) with
            | none => rfl
            | some x =>
              simp only [Option.map_some, cog3]
              cases centerOfGravity3d x <;> rfl
          · rfl, mapM_map]
    generalize (OcDir.all.mapM _ : Option (List (List (Point3D ℝ)))) = o
    cases o with
    | none => rfl
    | some x => simp
end Sim

/-- **C117**, boxes: the bounding box of points, the corners, the center, the sizes, collisions, containment and distances follow the
coordinates. -/
theorem c117_box_3d (f : ℝ) (hf : 0 < f) (v : Point3D ℝ) :
    (∀ pts, BoundingBox3D.fromIterator (pts.map (sim3 f v)) = (BoundingBox3D.fromIterator pts).map (simBox3 f v)) ∧
    (∀ a b : BoundingBox3D ℝ, (simBox3 f v a).collidesWith (simBox3 f v b) = a.collidesWith b ∧
      (simBox3 f v a).isInside (simBox3 f v b) = a.isInside b ∧ (simBox3 f v a).hasInside (simBox3 f v b) = a.hasInside b ∧
      (simBox3 f v a).combine (simBox3 f v b) = simBox3 f v (a.combine b) ∧
      (simBox3 f v a).sqrDistanceBB (simBox3 f v b) = (a.sqrDistanceBB b).map fun d => ⟨f * f * d.val⟩) ∧
    (∀ (b : BoundingBox3D ℝ) p, (simBox3 f v b).contains (sim3 f v p) = b.contains p ∧
      (simBox3 f v b).distance (sim3 f v p) = (b.distance p).map fun d => ⟨f * d.val⟩) ∧
    (∀ b : BoundingBox3D ℝ, (simBox3 f v b).centerBB = sim3 f v b.centerBB ∧ (simBox3 f v b).corners = b.corners.map (sim3 f v) ∧
      (simBox3 f v b).sizeX = b.sizeX.map (fun s => ⟨f * s.val⟩) ∧ (simBox3 f v b).sizeY = b.sizeY.map (fun s => ⟨f * s.val⟩) ∧
      (simBox3 f v b).sizeZ = b.sizeZ.map (fun s => ⟨f * s.val⟩)) := by
  have hff := mul_pos hf hf
  have h2 : ((2 : ℚ) : ℝ) = 2 := by norm_num
  refine ⟨fun pts => Sim.fromIterator3 hf pts, ?_, ?_, ?_⟩
  · intro a b
    refine ⟨Sim.collides3 hf a b, ?_, ?_, ?_, ?_⟩
    · simp only [BoundingBox3D.isInside, simBox3, sim3, Real.scalar_lt, Sim.lt1 hf]
    · simp only [BoundingBox3D.hasInside, simBox3, sim3, Real.scalar_lt, Sim.lt1 hf]
    · simp only [BoundingBox3D.combine, simBox3, sim3, Real.scalar_lt, Sim.lt1 hf, Sim.ite1]
    · simp only [BoundingBox3D.sqrDistanceBB, simBox3, sim3, Sim.gap_sim hf]
      rw [← Sim.nonneg_new hff]
      congr 1
      ring
  · intro b p
    refine ⟨Sim.contains3 hf b p, ?_⟩
    simp only [BoundingBox3D.distance, BoundingBox3D.sqrDistance, simBox3, sim3, Sim.max3_sim hf]
    have e : ∀ x y z : ℝ, f * x * (f * x) + f * y * (f * y) + f * z * (f * z) = f * f * (x * x + y * y + z * z) := fun x y z => by ring
    rw [e, Sim.nonneg_new hff]
    generalize (NonNegative.new _ : Option (NonNegative ℝ)) = o
    cases o with
    | none => rfl
    | some d =>
      simp only [Option.map_some, Option.bind_eq_bind, Option.bind_some, Real.scalar_sqrt]
      rw [Real.sqrt_mul hff.le, Real.sqrt_mul_self hf.le, Sim.nonneg_new hf]
  · intro b
    refine ⟨?_, rfl, ?_, ?_, ?_⟩
    · simp only [BoundingBox3D.centerBB, simBox3, sim3, Real.scalar_lit, h2, Sim.mid1]
    · simp only [BoundingBox3D.sizeX, simBox3, sim3, Real.scalar_abs, Sim.size1 hf, Sim.pos_new hf]
    · simp only [BoundingBox3D.sizeY, simBox3, sim3, Real.scalar_abs, Sim.size1 hf, Sim.pos_new hf]
    · simp only [BoundingBox3D.sizeZ, simBox3, sim3, Real.scalar_abs, Sim.size1 hf, Sim.pos_new hf]

/-- a point inside of a box -/
example : (simBox3 2 ⟨5, 6, 7⟩ ⟨⟨0, 0, 0⟩, ⟨1, 1, 1⟩⟩).contains (sim3 2 ⟨5, 6, 7⟩ ⟨1 / 2, 1 / 2, 1 / 2⟩) = true := by
  rw [((c117_box_3d 2 (by norm_num) ⟨5, 6, 7⟩).2.2.1 _ _).1]
  simp [BoundingBox3D.contains]
  norm_num

/-- **C117**, boxes in the plane -/
theorem c117_box_2d (f : ℝ) (hf : 0 < f) (w : Point2D ℝ) :
    (∀ pts, BoundingBox2D.fromIterator (pts.map (sim2 f w)) = (BoundingBox2D.fromIterator pts).map (simBox2 f w)) ∧
    (∀ a b : BoundingBox2D ℝ, (simBox2 f w a).collidesWith (simBox2 f w b) = a.collidesWith b ∧
      (simBox2 f w a).isInside (simBox2 f w b) = a.isInside b ∧ (simBox2 f w a).hasInside (simBox2 f w b) = a.hasInside b ∧
      (simBox2 f w a).combine (simBox2 f w b) = simBox2 f w (a.combine b) ∧
      (simBox2 f w a).sqrDistanceBB (simBox2 f w b) = (a.sqrDistanceBB b).map fun d => ⟨f * f * d.val⟩) ∧
    (∀ (b : BoundingBox2D ℝ) p, (simBox2 f w b).contains (sim2 f w p) = b.contains p ∧
      (simBox2 f w b).distance (sim2 f w p) = (b.distance p).map fun d => ⟨f * d.val⟩) ∧
    (∀ b : BoundingBox2D ℝ, (simBox2 f w b).centerBB = sim2 f w b.centerBB ∧ (simBox2 f w b).corners = b.corners.map (sim2 f w) ∧
      (simBox2 f w b).sizeX = b.sizeX.map (fun s => ⟨f * s.val⟩) ∧ (simBox2 f w b).sizeY = b.sizeY.map (fun s => ⟨f * s.val⟩)) := by
  have hff := mul_pos hf hf
  have h2 : ((2 : ℚ) : ℝ) = 2 := by norm_num
  refine ⟨fun pts => Sim.fromIterator2 hf pts, ?_, ?_, ?_⟩
  · intro a b
    refine ⟨Sim.collides2 hf a b, ?_, ?_, ?_, ?_⟩
    · simp only [BoundingBox2D.isInside, simBox2, sim2, Real.scalar_lt, Sim.lt1 hf]
    · simp only [BoundingBox2D.hasInside, simBox2, sim2, Real.scalar_lt, Sim.lt1 hf]
    · simp only [BoundingBox2D.combine, simBox2, sim2, Real.scalar_lt, Sim.lt1 hf, Sim.ite1]
    · simp only [BoundingBox2D.sqrDistanceBB, simBox2, sim2, Sim.gap_sim hf]
      rw [← Sim.nonneg_new hff]
      congr 1
      ring
  · intro b p
    refine ⟨?_, ?_⟩
    · simp only [BoundingBox2D.contains, simBox2, sim2, Real.scalar_lt, Sim.lt1 hf]
    simp only [BoundingBox2D.distance, BoundingBox2D.sqrDistance, simBox2, sim2, Sim.max3_sim hf]
    have e : ∀ x y : ℝ, f * x * (f * x) + f * y * (f * y) = f * f * (x * x + y * y) := fun x y => by ring
    rw [e, Sim.nonneg_new hff]
    generalize (NonNegative.new _ : Option (NonNegative ℝ)) = o
    cases o with
    | none => rfl
    | some d =>
      simp only [Option.map_some, Option.bind_eq_bind, Option.bind_some, Real.scalar_sqrt]
      rw [Real.sqrt_mul hff.le, Real.sqrt_mul_self hf.le, Sim.nonneg_new hf]
  · intro b
    refine ⟨?_, rfl, ?_, ?_⟩
    · simp only [BoundingBox2D.centerBB, simBox2, sim2, Real.scalar_lit, h2, Sim.mid1]
    · simp only [BoundingBox2D.sizeX, simBox2, sim2, Real.scalar_abs, Sim.size1 hf, Sim.pos_new hf]
    · simp only [BoundingBox2D.sizeY, simBox2, sim2, Real.scalar_abs, Sim.size1 hf, Sim.pos_new hf]

example : BoundingBox2D.fromIterator [⟨5, 6⟩, ⟨7, 10⟩] = (BoundingBox2D.fromIterator [⟨0, 0⟩, ⟨1, 2⟩]).map (simBox2 2 ⟨5, 6⟩) := by
  rw [← (c117_box_2d 2 (by norm_num) ⟨5, 6⟩).1]
  simp only [List.map_cons, List.map_nil, sim2]
  norm_num

/-- **C117**, lengths and centers of gravity follow the coordinates. -/
theorem c117_cloud (f : ℝ) (hf : 0 < f) (v : Point3D ℝ) (w : Point2D ℝ) (ps : List (Point3D ℝ)) (qs : List (Point2D ℝ)) :
    PointCloud3D.length ⟨ps.map (sim3 f v)⟩ = f * PointCloud3D.length ⟨ps⟩ ∧
    PointCloud2D.length ⟨qs.map (sim2 f w)⟩ = f * PointCloud2D.length ⟨qs⟩ ∧
    PointCloud3D.centerOfGravity ⟨ps.map (sim3 f v)⟩ = (PointCloud3D.centerOfGravity ⟨ps⟩).map (sim3 f v) ∧
    PointCloud2D.centerOfGravity ⟨qs.map (sim2 f w)⟩ = (PointCloud2D.centerOfGravity ⟨qs⟩).map (sim2 f w) := by
  refine ⟨?_, ?_, ?_, ?_⟩
  · simp only [PointCloud3D.length, PointCloud.len, List.length_map]
    split
    · simp
    · simpa using Sim.length3 (v := v) hf ps 0
  · simp only [PointCloud2D.length, PointCloud.len, List.length_map]
    split
    · simp
    · simpa using Sim.length2 (w := w) hf qs 0
  · simp only [PointCloud3D.centerOfGravity, PointCloud.len, List.length_map]
    split
    · rfl
    · next h =>
      have hn : (ps.length : ℝ) ≠ 0 := by
        have : ps.length ≠ 0 := by omega
        exact_mod_cast this
      simp only [Sim.sums3, Option.map_some, sim3, Real.scalar_zero, zero_add, Real.scalar_lit, Rat.cast_natCast, Sim.sum_x, Sim.sum_y, Sim.sum_z]
      congr 2 <;> field_simp
  · simp only [PointCloud2D.centerOfGravity, PointCloud.len, List.length_map]
    split
    · rfl
    · next h =>
      have hn : (qs.length : ℝ) ≠ 0 := by
        have : qs.length ≠ 0 := by omega
        exact_mod_cast this
      simp only [Sim.sums2, Option.map_some, sim2, Real.scalar_zero, zero_add, Real.scalar_lit, Rat.cast_natCast, Sim.sum_u, Sim.sum_v]
      congr 2 <;> field_simp

example : PointCloud2D.length ⟨[⟨5, 6⟩, ⟨7, 10⟩]⟩ = 2 * PointCloud2D.length ⟨[⟨0, 0⟩, ⟨1, (2 : ℝ)⟩]⟩ := by
  rw [← (c117_cloud 2 (by norm_num) ⟨0, 0, 0⟩ ⟨5, 6⟩ [] [⟨0, 0⟩, ⟨1, 2⟩]).2.1]
  simp only [List.map_cons, List.map_nil, sim2]
  norm_num

/-- **C117**, interpolation: in other coordinates the same points of the curve are returned. As in C78 the first two points differ
and at least two points are requested (otherwise the code divides by zero), and as in C45 there are at most 21 control points. -/
theorem c117_curves (f : ℝ) (hf : 0 < f) (w : Point2D ℝ) (p q : Point2D ℝ) (l : List (Point2D ℝ)) (_hpq : p ≠ q) (n : Nat) (_hn : 2 ≤ n) :
    interpolationLinear ((p :: q :: l).map (sim2 f w)) n =
      (interpolationLinear (p :: q :: l) n).map (Except.map (List.map (sim2 f w))) ∧
    interpolateCosine ((p :: q :: l).map (sim2 f w)) n =
      (interpolateCosine (p :: q :: l) n).map (Except.map (List.map (sim2 f w))) ∧
    (l.length ≤ 19 → interpolateBezier ((p :: q :: l).map (sim2 f w)) n =
      (interpolateBezier (p :: q :: l) n).map (Except.map (List.map (sim2 f w)))) := by
  have hlen : PointCloud2D.length ⟨(p :: q :: l).map (sim2 f w)⟩ = f * PointCloud2D.length ⟨p :: q :: l⟩ :=
    (c117_cloud f hf ⟨0, 0, 0⟩ w [] (p :: q :: l)).2.1
  have hfm : ∀ (h : Nat → Option (Point2D ℝ)) (is : List Nat),
      (is.filterMap fun i => (h i).map (sim2 f w)) = (is.filterMap h).map (sim2 f w) := by
    intro h is
    rw [List.map_filterMap]
  have hw : ∀ build, (∀ t p q, build t (sim2 f w p) (sim2 f w q) = sim2 f w (build t p q)) → ∀ i : Nat,
      walk (lit (i : ℚ) * (PointCloud2D.length ⟨(p :: q :: l).map (sim2 f w)⟩ / lit ((n - 1 : Nat) : ℚ))) build zero ((p :: q :: l).map (sim2 f w)) =
      (walk (lit (i : ℚ) * (PointCloud2D.length ⟨p :: q :: l⟩ / lit ((n - 1 : Nat) : ℚ))) build zero (p :: q :: l)).map (sim2 f w) := by
    intro build hb i
    rw [← Sim.walk hf build hb, hlen]
    simp only [Real.scalar_zero, mul_zero]
    congr 1
    ring
  have hn0 : n ≠ 0 := by omega
  refine ⟨?_, ?_, ?_⟩
  · have h2 : ¬ ((p :: q :: l).map (sim2 f w)).length < 2 := by simp
    have h3 : ¬ (p :: q :: l).length < 2 := by simp
    simp only [interpolationLinear, if_neg h2, if_neg h3, if_neg hn0, Option.map_some, Except.map]
    rw [← hfm]
    congr 3
    funext i
    refine hw _ ?_ i
    intro t a b
    simp only [sim2]
    congr 1 <;> ring
  · have h2 : ¬ ((p :: q :: l).map (sim2 f w)).length < 2 := by simp
    have h3 : ¬ (p :: q :: l).length < 2 := by simp
    simp only [interpolateCosine, if_neg h2, if_neg h3, if_neg hn0, Option.map_some, Except.map]
    rw [← hfm]
    congr 3
    funext i
    refine hw _ ?_ i
    intro t a b
    simp only [sim2, Real.scalar_lit]
    push_cast
    congr 1 <;> ring
  · intro hl
    have h3 : ¬ (p :: q :: l).length < 2 := by simp
    simp only [interpolateBezier, if_neg h3, List.length_map]
    simp only [Sim.control (p :: q :: l) _ (by simp) (by simp only [List.length_cons]; omega), Sim.mapM_opt]
    cases (List.range n).mapM (fun (i : Nat) => controlPolygon (p :: q :: l) ((p :: q :: l).length - 1)
      (lit (i : ℚ) * (lit 1 / lit (n : ℚ)))) <;> rfl

example : interpolateBezier ([⟨0, 0⟩, ⟨1, 2⟩, ⟨3, 1⟩].map (sim2 2 ⟨5, 6⟩)) 7 =
    (interpolateBezier [⟨0, 0⟩, ⟨1, (2 : ℝ)⟩, ⟨3, 1⟩] 7).map (Except.map (List.map (sim2 2 ⟨5, 6⟩))) :=
  (c117_curves 2 (by norm_num) ⟨5, 6⟩ ⟨0, 0⟩ ⟨1, 2⟩ [⟨3, 1⟩] (by simp) 7 (by norm_num)).2.2 (by simp)

/-- **C117**, rays and lines: in other coordinates the same triangles, meshes and boxes are hit, in the same points. As in C48 no
component of the direction of a line against a box is zero (otherwise the code divides by zero). -/
theorem c117_rays (f : ℝ) (hf : 0 < f) (v anchor dir : Point3D ℝ) :
    (∀ a b c, intersectionRayTriangle (sim3 f v anchor) dir (sim3 f v a) (sim3 f v b) (sim3 f v c) =
      (intersectionRayTriangle anchor dir a b c).map (Option.map (sim3 f v))) ∧
    (dir.x ≠ 0 → dir.y ≠ 0 → dir.z ≠ 0 → ∀ b, AABBTree3D.lineIntersection (sim3 f v anchor) dir (simBox3 f v b) =
      (AABBTree3D.lineIntersection anchor dir b).map (sim3 f v)) :=
  ⟨fun a b c => Sim.rayTriangle hf anchor dir a b c, fun _ _ _ b => Sim.line hf anchor dir b⟩

example : AABBTree3D.lineIntersection (sim3 2 ⟨5, 6, 7⟩ ⟨-1, -1, -1⟩) ⟨1, 1, 1⟩ (simBox3 2 ⟨5, 6, 7⟩ ⟨⟨0, 0, 0⟩, ⟨1, 1, 1⟩⟩) =
    (AABBTree3D.lineIntersection (⟨-1, -1, -1⟩ : Point3D ℝ) ⟨1, 1, 1⟩ ⟨⟨0, 0, 0⟩, ⟨1, 1, 1⟩⟩).map (sim3 2 ⟨5, 6, 7⟩) :=
  (c117_rays 2 (by norm_num) ⟨5, 6, 7⟩ ⟨-1, -1, -1⟩ ⟨1, 1, 1⟩).2 (by norm_num) (by norm_num) (by norm_num) _

/-- **C117**, colliders: whether boxes, unaligned boxes and triangles collide does not depend on the coordinates. -/
theorem c117_collide (f : ℝ) (hf : 0 < f) (v : Point3D ℝ) (a b : Collider3D ℝ) :
    (simCollider f v a).collidesWith (simCollider f v b) = a.collidesWith b := by
  cases a with
  | aabb x => cases b with
    | aabb y => exact Sim.collides3 hf x y
    | box3 y => exact Sim.sat hf (.aabb x) (.box3 y)
    | face y => exact Sim.sat hf (.aabb x) (.face y)
  | box3 x => cases b with
    | aabb y => exact Sim.sat hf (.aabb y) (.box3 x)
    | box3 y => exact Sim.sat hf (.box3 x) (.box3 y)
    | face y => exact Sim.sat hf (.box3 x) (.face y)
  | face x => cases b with
    | aabb y => exact Sim.sat hf (.aabb y) (.face x)
    | box3 y => exact Sim.sat hf (.box3 y) (.face x)
    | face y => exact Sim.sat hf (.face x) (.face y)

example : (simCollider 2 ⟨5, 6, 7⟩ (.face ⟨⟨0, 0, 0⟩, ⟨1, 0, 0⟩, ⟨0, 1, 0⟩⟩)).collidesWith
    (simCollider 2 ⟨5, 6, 7⟩ (.aabb ⟨⟨2, 0, 0⟩, ⟨3, 1, 1⟩⟩)) =
    Collider3D.collidesWith (.face ⟨⟨0, 0, 0⟩, ⟨1, 0, 0⟩, ⟨0, 1, 0⟩⟩) (.aabb ⟨⟨2, 0, 0⟩, ⟨3, 1, (1 : ℝ)⟩⟩) :=
  c117_collide 2 (by norm_num) ⟨5, 6, 7⟩ _ _

/-- **C117**, octree: in other coordinates building gives the same result, and the tree holds and collects the same points. `uniq` and
`uniq'` are the orders in which the hash sets are enumerated. -/
theorem c117_octree (f : ℝ) (hf : 0 < f) (v : Point3D ℝ) (fuel : Nat) (uniq uniq' : List (Point3D ℝ) → List (Point3D ℝ)) (t t' : OcTree ℝ)
    (pc : List (Point3D ℝ)) (hu : uniq' (pc.map (sim3 f v)) = (uniq pc).map (sim3 f v)) :
    (OcTree.build fuel uniq' t' (pc.map (sim3 f v))).2 = (OcTree.build fuel uniq t pc).2 ∧
    ((OcTree.build fuel uniq t pc).2 = .ok () →
      (OcTree.build fuel uniq' t' (pc.map (sim3 f v))).1.size = (OcTree.build fuel uniq t pc).1.size ∧
      ∀ maxdepth, (OcTree.build fuel uniq' t' (pc.map (sim3 f v))).1.collect maxdepth =
        ((OcTree.build fuel uniq t pc).1.collect maxdepth).map (List.map (sim3 f v))) := by
  simp only [OcTree.build, Sim.fromIterator3 hf, hu]
  cases BoundingBox3D.fromIterator pc with
  | error e => simp [Except.toOption, Except.map]
  | ok b =>
    simp only [Except.map, Except.toOption, Sim.ocNode hf]
    cases OcNode.newNode fuel b (uniq pc) with
    | error e => simp
    | ok r => exact ⟨rfl, fun _ => ⟨Sim.ocSize r, fun m => Sim.ocCollect m r 0⟩⟩

example : (OcTree.build 5 id ⟨.nil, ⟨⟨0, 0, 0⟩, ⟨1, 1, 1⟩⟩⟩ ([⟨0, 0, 0⟩, ⟨1, 2, 3⟩].map (sim3 2 ⟨5, 6, 7⟩))).2 =
    (OcTree.build 5 id ⟨.nil, ⟨⟨0, 0, 0⟩, ⟨1, 1, 1⟩⟩⟩ [⟨0, 0, 0⟩, ⟨1, 2, (3 : ℝ)⟩]).2 :=
  (c117_octree 2 (by norm_num) ⟨5, 6, 7⟩ 5 id id _ _ _ rfl).1

end R3D

import Verif.Props.Symmetry
import Verif.Model.Compress
import Verif.Model.Filter
import Verif.Model.PointCloud
import Verif.Props.KdTree
/-!
C135: no axis is special. Exchanging two coordinates of all inputs exchanges the coordinates of the results.
`exch3 true` exchanges x and y, `exch3 false` exchanges y and z; every order of the axes is a sequence of such
exchanges.
-/
namespace R3D
open Scalar Spec

/-- two coordinates exchanged -/
def Spec.exch2 {α : Type} (p : Point2D α) : Point2D α := ⟨p.y, p.x⟩
/-- x and y, or y and z, exchanged -/
def Spec.exch3 {α : Type} (xy : Bool) (p : Point3D α) : Point3D α := if xy then ⟨p.y, p.x, p.z⟩ else ⟨p.x, p.z, p.y⟩
/-- both corners exchanged -/
def Spec.exchBox2 {α : Type} (b : BoundingBox2D α) : BoundingBox2D α := ⟨exch2 b.min, exch2 b.max⟩
/-- both corners exchanged -/
def Spec.exchBox3 {α : Type} (xy : Bool) (b : BoundingBox3D α) : BoundingBox3D α := ⟨exch3 xy b.min, exch3 xy b.max⟩
/-- center and sizes exchanged -/
def Spec.exchShape2 {α : Type} (b : Box2D α) : Box2D α := ⟨exch2 b.center, b.sizeY, b.sizeX⟩
/-- center and sizes exchanged -/
def Spec.exchShape3 {α : Type} (xy : Bool) (b : Box3D α) : Box3D α :=
  if xy then ⟨exch3 xy b.center, b.sizeY, b.sizeX, b.sizeZ⟩ else ⟨exch3 xy b.center, b.sizeX, b.sizeZ, b.sizeY⟩

variable {α : Type} [Scalar α]

theorem exch_new2 (p q : Point2D α) :
    BoundingBox2D.new (exch2 p) (exch2 q) = (BoundingBox2D.new p q).map exchBox2 := by
  unfold BoundingBox2D.new
  simp only [exch2, Bool.or_comm (p.y ==. q.y), Bool.or_comm (p.y >. q.y)]
  split_ifs <;> rfl

theorem exch_new3 (xy : Bool) (p q : Point3D α) :
    BoundingBox3D.new (exch3 xy p) (exch3 xy q) = (BoundingBox3D.new p q).map (exchBox3 xy) := by
  unfold BoundingBox3D.new
  cases xy
  · simp only [exch3, Bool.false_eq_true, if_false, Bool.or_right_comm (p.x ==. q.x) (p.z ==. q.z), Bool.or_right_comm (p.x >. q.x) (p.z >. q.z)]
    split_ifs <;> rfl
  · simp only [exch3, if_true, Bool.or_comm (p.y ==. q.y), Bool.or_comm (p.y >. q.y)]
    split_ifs <;> rfl

theorem exch_fold2 (l : List (Point2D α)) (s : Point2D α × Point2D α × Nat) :
    (l.map exch2).foldl BoundingBox2D.step (exch2 s.1, exch2 s.2.1, s.2.2) =
      (exch2 (l.foldl BoundingBox2D.step s).1, exch2 (l.foldl BoundingBox2D.step s).2.1, (l.foldl BoundingBox2D.step s).2.2) := by
  induction l generalizing s with
  | nil => rfl
  | cons p l ih => exact ih (BoundingBox2D.step s p)

theorem exch_fold3 (xy : Bool) (l : List (Point3D α)) (s : Point3D α × Point3D α × Nat) :
    (l.map (exch3 xy)).foldl BoundingBox3D.step (exch3 xy s.1, exch3 xy s.2.1, s.2.2) =
      (exch3 xy (l.foldl BoundingBox3D.step s).1, exch3 xy (l.foldl BoundingBox3D.step s).2.1, (l.foldl BoundingBox3D.step s).2.2) := by
  induction l generalizing s with
  | nil => rfl
  | cons p l ih => cases xy <;> exact ih (BoundingBox3D.step s p)

theorem exch_from3 (xy : Bool) (l : List (Point3D α)) :
    BoundingBox3D.fromIterator (l.map (exch3 xy)) = (BoundingBox3D.fromIterator l).map (exchBox3 xy) := by
  cases l with
  | nil => rfl
  | cons p l =>
    unfold BoundingBox3D.fromIterator
    simp only [List.map_cons]
    rw [exch_fold3 xy l (p, p, 1)]
    simp only [exch_new3]
    split_ifs <;> rfl

theorem exch_from2 (l : List (Point2D α)) :
    BoundingBox2D.fromIterator (l.map exch2) = (BoundingBox2D.fromIterator l).map exchBox2 := by
  cases l with
  | nil => rfl
  | cons p l =>
    unfold BoundingBox2D.fromIterator
    simp only [List.map_cons]
    rw [exch_fold2 l (p, p, 1)]
    simp only [exch_new2]
    split_ifs <;> rfl

/-- C135, any numbers, also infinite and nan: making a bounding box, also of points, and everything done with boxes
that needs no sum of several coordinates; accepted and refused alike -/
theorem c135_boxes (xy : Bool) (l : List (Point3D α)) (p q : Point3D α) (a b : BoundingBox3D α) (f : Positive α)
    (l' : List (Point2D α)) (p' q' : Point2D α) (a' b' : BoundingBox2D α) :
    (BoundingBox3D.new (exch3 xy p) (exch3 xy q) = (BoundingBox3D.new p q).map (exchBox3 xy) ∧
     BoundingBox3D.fromIterator (l.map (exch3 xy)) = (BoundingBox3D.fromIterator l).map (exchBox3 xy) ∧
     (exchBox3 xy a).centerBB = exch3 xy a.centerBB ∧
     (exchBox3 xy a).contains (exch3 xy p) = a.contains p ∧
     (exchBox3 xy a).isInside (exchBox3 xy b) = a.isInside b ∧
     (exchBox3 xy a).hasInside (exchBox3 xy b) = a.hasInside b ∧
     (exchBox3 xy a).consume (exchBox3 xy b) = exchBox3 xy (a.consume b) ∧
     (exchBox3 xy a).combine (exchBox3 xy b) = exchBox3 xy (a.combine b) ∧
     (exchBox3 xy a).scale f = (a.scale f).map (exchBox3 xy) ∧
     (exchBox3 xy a).corners.Perm (a.corners.map (exch3 xy))) ∧
    (BoundingBox2D.new (exch2 p') (exch2 q') = (BoundingBox2D.new p' q').map exchBox2 ∧
     BoundingBox2D.fromIterator (l'.map exch2) = (BoundingBox2D.fromIterator l').map exchBox2 ∧
     (exchBox2 a').centerBB = exch2 a'.centerBB ∧
     (exchBox2 a').contains (exch2 p') = a'.contains p' ∧
     (exchBox2 a').isInside (exchBox2 b') = a'.isInside b' ∧
     (exchBox2 a').hasInside (exchBox2 b') = a'.hasInside b' ∧
     (exchBox2 a').consume (exchBox2 b') = exchBox2 (a'.consume b') ∧
     (exchBox2 a').combine (exchBox2 b') = exchBox2 (a'.combine b') ∧
     (exchBox2 a').scale f = (a'.scale f).map exchBox2 ∧
     (exchBox2 a').corners.Perm (a'.corners.map exch2)) := by
  refine ⟨⟨exch_new3 xy p q, exch_from3 xy l, ?_, ?_, ?_, ?_, ?_, ?_, ?_, ?_⟩, exch_new2 p' q', exch_from2 l', rfl, ?_, ?_, ?_, rfl, rfl, ?_, ?_⟩
  · cases xy <;> rfl
  · unfold BoundingBox3D.contains
    cases xy <;> simp only [exchBox3, exch3, if_true, if_false, Bool.false_eq_true] <;> rw [Bool.eq_iff_iff] <;>
      simp only [Bool.and_eq_true] <;> tauto
  · unfold BoundingBox3D.isInside
    cases xy <;> simp only [exchBox3, exch3, if_true, if_false, Bool.false_eq_true] <;> rw [Bool.eq_iff_iff] <;>
      simp only [Bool.and_eq_true] <;> tauto
  · unfold BoundingBox3D.hasInside
    cases xy <;> simp only [exchBox3, exch3, if_true, if_false, Bool.false_eq_true] <;> rw [Bool.eq_iff_iff] <;>
      simp only [Bool.and_eq_true] <;> tauto
  · cases xy <;> rfl
  · cases xy <;> rfl
  · unfold BoundingBox3D.scale
    cases xy
    · rw [show (exchBox3 false a).sizeX = a.sizeX from rfl, show (exchBox3 false a).sizeY = a.sizeZ from rfl,
        show (exchBox3 false a).sizeZ = a.sizeY from rfl]
      cases a.sizeX <;> cases a.sizeY <;> cases a.sizeZ <;> rfl
    · rw [show (exchBox3 true a).sizeX = a.sizeY from rfl, show (exchBox3 true a).sizeY = a.sizeX from rfl,
        show (exchBox3 true a).sizeZ = a.sizeZ from rfl]
      cases a.sizeX <;> cases a.sizeY <;> cases a.sizeZ <;> rfl
  · cases xy
    · exact .cons _ ((List.Perm.swap _ _ _).trans (.cons _ (.cons _ (.cons _ (.cons _ (.swap _ _ _))))))
    · exact .cons _ (.cons _ ((List.perm_append_comm (l₁ := [_, _]) (l₂ := [_, _])).append_right [_, _]))
  · unfold BoundingBox2D.contains
    simp only [exchBox2, exch2]; rw [Bool.eq_iff_iff]; simp only [Bool.and_eq_true]; tauto
  · unfold BoundingBox2D.isInside
    simp only [exchBox2, exch2]; rw [Bool.eq_iff_iff]; simp only [Bool.and_eq_true]; tauto
  · unfold BoundingBox2D.hasInside
    simp only [exchBox2, exch2]; rw [Bool.eq_iff_iff]; simp only [Bool.and_eq_true]; tauto
  · unfold BoundingBox2D.scale
    rw [show (exchBox2 a').sizeX = a'.sizeY from rfl, show (exchBox2 a').sizeY = a'.sizeX from rfl]
    cases a'.sizeX <;> cases a'.sizeY <;> rfl
  · exact .cons _ (.swap _ _ _)

/-- C135, any numbers: whether boxes collide, provided that no size panics -/
theorem c135_collides (xy : Bool) (a b : BoundingBox3D α) (a' b' : BoundingBox2D α) :
    (a.sizeX ≠ none → a.sizeY ≠ none → a.sizeZ ≠ none → b.sizeX ≠ none → b.sizeY ≠ none → b.sizeZ ≠ none →
      (exchBox3 xy a).collidesWith (exchBox3 xy b) = a.collidesWith b) ∧
    (a'.sizeX ≠ none → a'.sizeY ≠ none → b'.sizeX ≠ none → b'.sizeY ≠ none →
      (exchBox2 a').collidesWith (exchBox2 b') = a'.collidesWith b') := by
  constructor
  · intro h1 h2 h3 h4 h5 h6
    obtain ⟨ax, h1⟩ := Option.ne_none_iff_exists'.1 h1
    obtain ⟨ay, h2⟩ := Option.ne_none_iff_exists'.1 h2
    obtain ⟨az, h3⟩ := Option.ne_none_iff_exists'.1 h3
    obtain ⟨bx, h4⟩ := Option.ne_none_iff_exists'.1 h4
    obtain ⟨by_, h5⟩ := Option.ne_none_iff_exists'.1 h5
    obtain ⟨bz, h6⟩ := Option.ne_none_iff_exists'.1 h6
    unfold BoundingBox3D.collidesWith
    cases xy
    · rw [show (exchBox3 false a).sizeX = some ax from h1, show (exchBox3 false a).sizeY = some az from h3,
        show (exchBox3 false a).sizeZ = some ay from h2, show (exchBox3 false b).sizeX = some bx from h4,
        show (exchBox3 false b).sizeY = some bz from h6, show (exchBox3 false b).sizeZ = some by_ from h5, h1, h2, h3, h4, h5, h6]
      simp only [Option.bind_eq_bind, Option.bind_some, show (exchBox3 false a).centerBB = exch3 false a.centerBB from rfl,
        show (exchBox3 false b).centerBB = exch3 false b.centerBB from rfl, exch3, Bool.false_eq_true, if_false]
      split_ifs <;> simp_all
    · rw [show (exchBox3 true a).sizeX = some ay from h2, show (exchBox3 true a).sizeY = some ax from h1,
        show (exchBox3 true a).sizeZ = some az from h3, show (exchBox3 true b).sizeX = some by_ from h5,
        show (exchBox3 true b).sizeY = some bx from h4, show (exchBox3 true b).sizeZ = some bz from h6, h1, h2, h3, h4, h5, h6]
      simp only [Option.bind_eq_bind, Option.bind_some, show (exchBox3 true a).centerBB = exch3 true a.centerBB from rfl,
        show (exchBox3 true b).centerBB = exch3 true b.centerBB from rfl, exch3, if_true]
      split_ifs <;> simp_all
  · intro h1 h2 h4 h5
    obtain ⟨ax, h1⟩ := Option.ne_none_iff_exists'.1 h1
    obtain ⟨ay, h2⟩ := Option.ne_none_iff_exists'.1 h2
    obtain ⟨bx, h4⟩ := Option.ne_none_iff_exists'.1 h4
    obtain ⟨by_, h5⟩ := Option.ne_none_iff_exists'.1 h5
    unfold BoundingBox2D.collidesWith
    rw [show (exchBox2 a').sizeX = some ay from h2, show (exchBox2 a').sizeY = some ax from h1,
        show (exchBox2 b').sizeX = some by_ from h5, show (exchBox2 b').sizeY = some bx from h4, h1, h2, h4, h5]
    simp only [Option.bind_eq_bind, Option.bind_some, show (exchBox2 a').centerBB = exch2 a'.centerBB from rfl,
        show (exchBox2 b').centerBB = exch2 b'.centerBB from rfl, exch2]
    split_ifs <;> simp_all

/-- C135, doubles, also infinite and nan, x and y exchanged: distances, lengths, scalar products, distances of boxes -/
theorem c135_distances (p q : Point3D F64) (a b : BoundingBox3D F64) (p' q' : Point2D F64) (a' b' : BoundingBox2D F64) :
    ((exch3 true p).dist (exch3 true q) = p.dist q ∧ (exch3 true p).dot (exch3 true q) = p.dot q ∧ (exch3 true p).abs = p.abs ∧
     (exch3 true p).beq (exch3 true q) = p.beq q ∧
     (exchBox3 true a).sqrDistance (exch3 true p) = a.sqrDistance p ∧
     (exchBox3 true a).distance (exch3 true p) = a.distance p ∧
     (exchBox3 true a).sqrDistanceBB (exchBox3 true b) = a.sqrDistanceBB b) ∧
    ((exch2 p').dist (exch2 q') = p'.dist q' ∧ (exch2 p').dot (exch2 q') = p'.dot q' ∧ (exch2 p').abs = p'.abs ∧
     (exch2 p').beq (exch2 q') = p'.beq q' ∧
     (exchBox2 a').sqrDistance (exch2 p') = a'.sqrDistance p' ∧
     (exchBox2 a').distance (exch2 p') = a'.distance p' ∧
     (exchBox2 a').sqrDistanceBB (exchBox2 b') = a'.sqrDistanceBB b') := by
  have s3 : (exchBox3 true a).sqrDistance (exch3 true p) = a.sqrDistance p := by
    simp only [BoundingBox3D.sqrDistance, exchBox3, exch3, if_true]
    rw [F64.add_swap (max3 (a.min.y - p.y) _ _ * _)]
  have s2 : (exchBox2 a').sqrDistance (exch2 p') = a'.sqrDistance p' := by
    simp only [BoundingBox2D.sqrDistance, exchBox2, exch2]
    rw [F64.add_swap]
  refine ⟨⟨?_, ?_, ?_, ?_, s3, ?_, ?_⟩, ?_, ?_, ?_, ?_, s2, ?_, ?_⟩
  · simp only [Point3D.dist, Point3D.sqrDist, exch3, if_true]; rw [F64.add_swap (sq (p.y - _))]
  · simp only [Point3D.dot, exch3, if_true]; rw [F64.add_swap (p.y * _)]
  · simp only [Point3D.abs, exch3, if_true]; rw [F64.add_swap (sq p.y)]
  · simp only [Point3D.beq, exch3, if_true]; rw [Bool.and_comm (p.y ==. _)]
  · unfold BoundingBox3D.distance; rw [s3]
  · simp only [BoundingBox3D.sqrDistanceBB, exchBox3, exch3, if_true]
    rw [F64.add_swap (BoundingBox2D.gap a.min.y _ _ _ * _)]
  · simp only [Point2D.dist, Point2D.sqrDist, exch2]; rw [F64.add_swap]
  · simp only [Point2D.dot, exch2]; rw [F64.add_swap]
  · simp only [Point2D.abs, exch2]; rw [F64.add_swap]
  · simp only [Point2D.beq, exch2]; rw [Bool.and_comm]
  · unfold BoundingBox2D.distance; rw [s2]
  · simp only [BoundingBox2D.sqrDistanceBB, exchBox2, exch2]; rw [F64.add_swap]

/-- C135, exact arithmetic: the same for any two axes; cross products turn around -/
theorem c135_distances_partial (xy : Bool) (p q : Point3D ℝ) (a b : BoundingBox3D ℝ) :
    (exch3 xy p).dist (exch3 xy q) = p.dist q ∧ (exch3 xy p).dot (exch3 xy q) = p.dot q ∧ (exch3 xy p).abs = p.abs ∧
    (exchBox3 xy a).sqrDistance (exch3 xy p) = a.sqrDistance p ∧
    (exchBox3 xy a).distance (exch3 xy p) = a.distance p ∧
    (exchBox3 xy a).sqrDistanceBB (exchBox3 xy b) = a.sqrDistanceBB b ∧
    (exch3 xy p).cross (exch3 xy q) = exch3 xy (q.cross p) := by
  have s3 : (exchBox3 xy a).sqrDistance (exch3 xy p) = a.sqrDistance p := by
    cases xy <;> simp only [BoundingBox3D.sqrDistance, exchBox3, exch3, if_true, if_false, Bool.false_eq_true] <;> congr 1 <;> ring
  refine ⟨?_, ?_, ?_, s3, ?_, ?_, ?_⟩
  · cases xy <;> simp only [Point3D.dist, Point3D.sqrDist, exch3, if_true, if_false, Bool.false_eq_true] <;> congr 1 <;> ring
  · cases xy <;> simp only [Point3D.dot, exch3, if_true, if_false, Bool.false_eq_true] <;> ring
  · cases xy <;> simp only [Point3D.abs, exch3, if_true, if_false, Bool.false_eq_true] <;> congr 2 <;> ring
  · unfold BoundingBox3D.distance; rw [s3]
  · cases xy <;> simp only [BoundingBox3D.sqrDistanceBB, exchBox3, exch3, if_true, if_false, Bool.false_eq_true] <;> congr 1 <;> ring
  · cases xy <;> simp only [Point3D.cross, exch3, if_true, if_false, Bool.false_eq_true, Point3D.mk.injEq] <;>
      refine ⟨?_, ?_, ?_⟩ <;> ring

/-- C135, any numbers: filters of boxes; doubles: filters of spheres and circles -/
theorem c135_filters (xy : Bool) (b : Box3D α) (p : Point3D α) (b' : Box2D α) (p' : Point2D α) (s : Sphere F64) (q : Point3D F64)
    (c : Circle F64) (q' : Point2D F64) (s' : Sphere ℝ) (r : Point3D ℝ) :
    filterBox3D (exchShape3 xy b) (exch3 xy p) = filterBox3D b p ∧ filterBox2D (exchShape2 b') (exch2 p') = filterBox2D b' p' ∧
    filterSphere ⟨exch3 true s.center, s.radius⟩ (exch3 true q) = filterSphere s q ∧
    filterCircle ⟨exch2 c.center, c.radius⟩ (exch2 q') = filterCircle c q' ∧
    filterSphere ⟨exch3 xy s'.center, s'.radius⟩ (exch3 xy r) = filterSphere s' r := by
  refine ⟨?_, ?_, ?_, ?_, ?_⟩
  · unfold filterBox3D
    cases xy <;> simp only [exchShape3, exch3, if_true, if_false, Bool.false_eq_true] <;> rw [Bool.eq_iff_iff] <;>
      simp only [Bool.and_eq_true] <;> tauto
  · unfold filterBox2D
    simp only [exchShape2, exch2]; rw [Bool.eq_iff_iff]; simp only [Bool.and_eq_true]; tauto
  · unfold filterSphere
    rw [(c135_distances q s.center ⟨q, q⟩ ⟨q, q⟩ q' q' ⟨q', q'⟩ ⟨q', q'⟩).1.1]
  · unfold filterCircle
    rw [(c135_distances q q ⟨q, q⟩ ⟨q, q⟩ q' c.center ⟨q', q'⟩ ⟨q', q'⟩).2.1]
  · unfold filterSphere
    rw [(c135_distances_partial xy r s'.center ⟨r, r⟩ ⟨r, r⟩).1]

/-- C135, any numbers: centers of gravity, moving and scaling of clouds; doubles: lengths of paths -/
theorem c135_clouds (xy : Bool) (l : List (Point3D α)) (l' : List (Point2D α)) (f : Positive α) :
    PointCloud3D.centerOfGravity ⟨l.map (exch3 xy)⟩ = (PointCloud3D.centerOfGravity ⟨l⟩).map (exch3 xy) ∧
    PointCloud2D.centerOfGravity ⟨l'.map exch2⟩ = (PointCloud2D.centerOfGravity ⟨l'⟩).map exch2 ∧
    (PointCloud3D.scale ⟨l.map (exch3 xy)⟩ f).data = (PointCloud3D.scale ⟨l⟩ f).data.map (exch3 xy) ∧
    (PointCloud2D.scale ⟨l'.map exch2⟩ f).data = (PointCloud2D.scale ⟨l'⟩ f).data.map exch2 ∧
    (PointCloud3D.center ⟨l.map (exch3 xy)⟩).data = (PointCloud3D.center ⟨l⟩).data.map (exch3 xy) := by
  have b3 : PointCloud3D.boundingBoxMaybe ⟨l.map (exch3 xy)⟩ = (PointCloud3D.boundingBoxMaybe ⟨l⟩).map (exchBox3 xy) := by
    unfold PointCloud3D.boundingBoxMaybe
    rw [exch_from3]
    cases BoundingBox3D.fromIterator l <;> rfl
  have b2 : PointCloud2D.boundingBoxMaybe ⟨l'.map exch2⟩ = (PointCloud2D.boundingBoxMaybe ⟨l'⟩).map exchBox2 := by
    unfold PointCloud2D.boundingBoxMaybe
    rw [exch_from2]
    cases BoundingBox2D.fromIterator l' <;> rfl
  refine ⟨?_, ?_, ?_, ?_, ?_⟩
  · unfold PointCloud3D.centerOfGravity
    simp only [PointCloud.len, List.length_map]
    split_ifs with h
    · rfl
    · have e : ∀ (l : List (Point3D α)) (s : Point3D α), (l.map (exch3 xy)).foldl (fun (s : α × α × α) p => (s.1 + p.x, s.2.1 + p.y, s.2.2 + p.z))
          ((exch3 xy s).x, (exch3 xy s).y, (exch3 xy s).z) =
          (fun t : α × α × α => ((exch3 xy ⟨t.1, t.2.1, t.2.2⟩).x, (exch3 xy ⟨t.1, t.2.1, t.2.2⟩).y, (exch3 xy ⟨t.1, t.2.1, t.2.2⟩).z))
            (l.foldl (fun (s : α × α × α) p => (s.1 + p.x, s.2.1 + p.y, s.2.2 + p.z)) (s.x, s.y, s.z)) := by
        intro l
        induction l with
        | nil => intro s; rfl
        | cons p l ih => intro s; cases xy <;> exact ih ⟨s.x + p.x, s.y + p.y, s.z + p.z⟩
      have e' := e l ⟨zero, zero, zero⟩
      cases xy
      · have e' : List.foldl _ (zero, zero, zero) _ = _ := e'
        rw [e']; rfl
      · have e' : List.foldl _ (zero, zero, zero) _ = _ := e'
        rw [e']; rfl
  · unfold PointCloud2D.centerOfGravity
    simp only [PointCloud.len, List.length_map]
    split_ifs with h
    · rfl
    · have e : ∀ (l : List (Point2D α)) (s : α × α), (l.map exch2).foldl (fun (s : α × α) p => (s.1 + p.x, s.2 + p.y)) (s.2, s.1) =
          Prod.swap (l.foldl (fun (s : α × α) p => (s.1 + p.x, s.2 + p.y)) s) := by
        intro l
        induction l with
        | nil => intro s; rfl
        | cons p l ih => intro s; exact ih (s.1 + p.x, s.2 + p.y)
      have e' : List.foldl _ (zero, zero) _ = _ := e l' (zero, zero)
      rw [e']; rfl
  · unfold PointCloud3D.scale
    rw [b3]
    cases PointCloud3D.boundingBoxMaybe (⟨l⟩ : PointCloud (Point3D α)) with
    | none => rfl
    | some bb =>
      simp only [Option.map_some, List.map_map]
      refine List.map_congr_left fun p _ => ?_
      cases xy <;> rfl
  · unfold PointCloud2D.scale
    rw [b2]
    cases PointCloud2D.boundingBoxMaybe (⟨l'⟩ : PointCloud (Point2D α)) with
    | none => rfl
    | some bb =>
      simp only [Option.map_some, List.map_map]
      exact List.map_congr_left fun p _ => rfl
  · unfold PointCloud3D.center
    rw [b3]
    cases PointCloud3D.boundingBoxMaybe (⟨l⟩ : PointCloud (Point3D α)) with
    | none => rfl
    | some bb =>
      simp only [Option.map_some, PointCloud3D.moveBy, List.map_map]
      refine List.map_congr_left fun p _ => ?_
      cases xy <;> rfl

/-- C135, doubles, x and y exchanged: lengths of paths -/
theorem c135_length (l : List (Point3D F64)) (l' : List (Point2D F64)) :
    PointCloud3D.length ⟨l.map (exch3 true)⟩ = PointCloud3D.length ⟨l⟩ ∧
    PointCloud2D.length ⟨l'.map exch2⟩ = PointCloud2D.length ⟨l'⟩ := by
  have d3 : ∀ p q : Point3D F64, (exch3 true p).dist (exch3 true q) = p.dist q := fun p q =>
    (c135_distances p q ⟨p, p⟩ ⟨p, p⟩ ⟨p.x, p.x⟩ ⟨p.x, p.x⟩ ⟨⟨p.x, p.x⟩, ⟨p.x, p.x⟩⟩ ⟨⟨p.x, p.x⟩, ⟨p.x, p.x⟩⟩).1.1
  have d2 : ∀ p q : Point2D F64, (exch2 p).dist (exch2 q) = p.dist q := fun p q =>
    (c135_distances ⟨p.x, p.x, p.x⟩ ⟨p.x, p.x, p.x⟩ ⟨⟨p.x, p.x, p.x⟩, ⟨p.x, p.x, p.x⟩⟩ ⟨⟨p.x, p.x, p.x⟩, ⟨p.x, p.x, p.x⟩⟩ p q ⟨p, p⟩ ⟨p, p⟩).2.1
  have l3 : ∀ (l : List (Point3D F64)) (acc : F64), PointCloud3D.lengthLoop acc (l.map (exch3 true)) = PointCloud3D.lengthLoop acc l := by
    intro l
    induction l with
    | nil => intro acc; rfl
    | cons a l ih =>
      intro acc
      cases l with
      | nil => rfl
      | cons b l =>
        show PointCloud3D.lengthLoop (acc + (exch3 true b).dist (exch3 true a)) _ = _
        rw [d3]; exact ih _
  have l2 : ∀ (l : List (Point2D F64)) (acc : F64), PointCloud2D.lengthLoop acc (l.map exch2) = PointCloud2D.lengthLoop acc l := by
    intro l
    induction l with
    | nil => intro acc; rfl
    | cons a l ih =>
      intro acc
      cases l with
      | nil => rfl
      | cons b l =>
        show PointCloud2D.lengthLoop (acc + (exch2 b).dist (exch2 a)) _ = _
        rw [d2]; exact ih _
  constructor
  · simp only [PointCloud3D.length, PointCloud.len, List.length_map, l3]
  · simp only [PointCloud2D.length, PointCloud.len, List.length_map, l2]

/-- the units of a point exchanged -/
def Spec.exchUnits (xy : Bool) (p : CompressedPoint3D) : CompressedPoint3D :=
  if xy then ⟨p.unitsy, p.unitsx, p.unitsz⟩ else ⟨p.unitsx, p.unitsz, p.unitsy⟩

theorem exch_point (xy : Bool) (bits : Nat) (mn : Point3D α) (ux uy uz : α) (p : Point3D α) :
    CompressedPointCloud3D.compressPoint bits (exch3 xy mn) (exch3 xy ⟨ux, uy, uz⟩).x (exch3 xy ⟨ux, uy, uz⟩).y
      (exch3 xy ⟨ux, uy, uz⟩).z (exch3 xy p) =
    (CompressedPointCloud3D.compressPoint bits mn ux uy uz p).map (exchUnits xy) := by
  unfold CompressedPointCloud3D.compressPoint
  cases xy <;> simp only [exch3, if_true, if_false, Bool.false_eq_true] <;>
    cases castTo bits ((p.x - mn.x) / ux) <;> cases castTo bits ((p.y - mn.y) / uy) <;>
    cases castTo bits ((p.z - mn.z) / uz) <;> rfl

/-- C135, any numbers: compressed clouds; the same clouds are refused, with the same error -/
theorem c135_compress (xy : Bool) (bits : Nat) (l : List (Point3D α)) :
    (CompressedPointCloud3D.compress bits (l.map (exch3 xy))).map CompressedPointCloud3D.decompress =
      ((CompressedPointCloud3D.compress bits l).map CompressedPointCloud3D.decompress).map (List.map (exch3 xy)) := by
  unfold CompressedPointCloud3D.compress
  rw [exch_from3]
  cases hb : BoundingBox3D.fromIterator l with
  | error e => rfl
  | ok bb =>
    have hm : ∀ (ux uy uz : α) (l : List (Point3D α)),
        (l.map (exch3 xy)).mapM (CompressedPointCloud3D.compressPoint bits (exch3 xy bb.min)
          (exch3 xy ⟨ux, uy, uz⟩).x (exch3 xy ⟨ux, uy, uz⟩).y (exch3 xy ⟨ux, uy, uz⟩).z) =
        (l.mapM (CompressedPointCloud3D.compressPoint bits bb.min ux uy uz)).map (List.map (exchUnits xy)) := by
      intro ux uy uz l
      induction l with
      | nil => rfl
      | cons p l ih =>
        rw [List.map_cons, List.mapM_cons, List.mapM_cons, ih, exch_point]
        cases CompressedPointCloud3D.compressPoint bits bb.min ux uy uz p with
        | error e => rfl
        | ok c => cases List.mapM (CompressedPointCloud3D.compressPoint bits bb.min ux uy uz) l <;> rfl
    have hm' := hm (Scalar.abs (bb.max.x - bb.min.x) / lit (maxValue bits)) (Scalar.abs (bb.max.y - bb.min.y) / lit (maxValue bits))
      (Scalar.abs (bb.max.z - bb.min.z) / lit (maxValue bits)) l
    have hm2 : (l.map (exch3 xy)).mapM (CompressedPointCloud3D.compressPoint bits (exchBox3 xy bb).min
        (Scalar.abs ((exchBox3 xy bb).max.x - (exchBox3 xy bb).min.x) / lit (maxValue bits))
        (Scalar.abs ((exchBox3 xy bb).max.y - (exchBox3 xy bb).min.y) / lit (maxValue bits))
        (Scalar.abs ((exchBox3 xy bb).max.z - (exchBox3 xy bb).min.z) / lit (maxValue bits))) =
        (l.mapM (CompressedPointCloud3D.compressPoint bits bb.min (Scalar.abs (bb.max.x - bb.min.x) / lit (maxValue bits))
          (Scalar.abs (bb.max.y - bb.min.y) / lit (maxValue bits)) (Scalar.abs (bb.max.z - bb.min.z) / lit (maxValue bits)))).map
          (List.map (exchUnits xy)) := by
      cases xy <;> exact hm'
    simp only [show Except.map (exchBox3 xy) (Except.ok bb : Res (BoundingBox3D α)) = .ok (exchBox3 xy bb) from rfl]
    rw [hm2]
    cases List.mapM (CompressedPointCloud3D.compressPoint bits bb.min _ _ _) l with
    | error e => rfl
    | ok data =>
      simp only [Except.map, CompressedPointCloud3D.decompress, List.map_map]
      congr 1
      refine List.map_congr_left fun c _ => ?_
      cases xy <;> rfl

/-- C135, exact arithmetic: searches of k-d trees find the same elements -/
theorem c135_searches {P : Type} (xy : Bool) (pos : P → Point3D ℝ) (pts : List P) (t t' : KdTree P)
    (ht : KdTree.Built pos pts t) (ht' : KdTree.Built (fun x => exch3 xy (pos x)) pts t') :
    (∀ (s : Sphere ℝ), 0 < s.radius.val → ∃ r r', t.inSphere pos s [] = r ∧
      t'.inSphere (fun x => exch3 xy (pos x)) ⟨exch3 xy s.center, s.radius⟩ [] = r' ∧ r'.Perm r) ∧
    (∀ (b : Box3D ℝ), ∃ r r', t.inBox pos b [] = r ∧ t'.inBox (fun x => exch3 xy (pos x)) (exchShape3 xy b) [] = r' ∧ r'.Perm r) ∧
    ∀ q, ∃ b b', t.nearest pos q = some (some b) ∧ t'.nearest (fun x => exch3 xy (pos x)) (exch3 xy q) = some (some b') ∧
      Spec.sqrDist (at3 q) (at3 (pos b')) = Spec.sqrDist (at3 q) (at3 (pos b)) := by
  classical
  have d : ∀ p q : Point3D ℝ, Spec.sqrDist (at3 (exch3 xy p)) (at3 (exch3 xy q)) = Spec.sqrDist (at3 p) (at3 q) := by
    intro p q
    cases xy <;> simp [Spec.sqrDist, at3, exch3, Fin.sum_univ_three] <;> ring
  refine ⟨fun s hs => ?_, fun b => ?_, fun q => ?_⟩
  · obtain ⟨r, h1, h2⟩ := KdTree.c27_in_sphere pos pts t ht s hs []
    obtain ⟨r', h1', h2'⟩ := KdTree.c27_in_sphere _ pts t' ht' ⟨exch3 xy s.center, s.radius⟩ hs []
    refine ⟨r, r', by simpa using h1, by simpa using h1', ?_⟩
    refine (h2' (fun x => decide (Spec.sqrDist (at3 s.center) (at3 (pos x)) ≤ s.radius.val ^ 2)) fun x => ?_).trans
      (h2 (fun x => decide (Spec.sqrDist (at3 s.center) (at3 (pos x)) ≤ s.radius.val ^ 2)) fun x => by simp).symm
    rw [d]; simp
  · obtain ⟨r, h1, h2⟩ := KdTree.c27_in_box pos pts t ht b []
    obtain ⟨r', h1', h2'⟩ := KdTree.c27_in_box _ pts t' ht' (exchShape3 xy b) []
    refine ⟨r, r', by simpa using h1, by simpa using h1', ?_⟩
    refine (h2' (fun x => decide (∀ d : Fin 3, at3 b.center d - ![b.sizeX.val, b.sizeY.val, b.sizeZ.val] d / 2 ≤ at3 (pos x) d ∧
        at3 (pos x) d ≤ at3 b.center d + ![b.sizeX.val, b.sizeY.val, b.sizeZ.val] d / 2)) fun x => ?_).trans
      (h2 (fun x => decide (∀ d : Fin 3, at3 b.center d - ![b.sizeX.val, b.sizeY.val, b.sizeZ.val] d / 2 ≤ at3 (pos x) d ∧
        at3 (pos x) d ≤ at3 b.center d + ![b.sizeX.val, b.sizeY.val, b.sizeZ.val] d / 2)) fun x => by simp).symm
    cases xy <;> simp [at3, exch3, exchShape3, Fin.forall_fin_succ] <;> tauto
  · obtain ⟨b, hb, h1, h2⟩ := KdTree.c25_nearest pos pts t ht q
    obtain ⟨b', hb', h1', h2'⟩ := KdTree.c25_nearest _ pts t' ht' (exch3 xy q)
    refine ⟨b, b', h1, h1', le_antisymm ?_ (h2 b' hb')⟩
    have := h2' b hb
    rwa [d, d] at this

/-- C135, doubles, is violated: with y and z exchanged, the squared distance and the scalar product of two points are others -/
theorem c135_violated : ∃ p q r : Point3D F64, (exch3 false p).sqrDist (exch3 false q) ≠ p.sqrDist q ∧
    (exch3 false p).dot (exch3 false r) ≠ p.dot r :=
  ⟨⟨F64.ofRat 1, F64.ofRat 1, F64.ofRat 1⟩, ⟨F64.ofRat 3, F64.ofRat 3, F64.ofRat (3 * 2 ^ 26 + 1)⟩,
    ⟨F64.ofRat 1, F64.ofRat 1, F64.ofRat (2 ^ 53)⟩, by decide +kernel⟩

/-- the hypotheses are met -/
example : ∃ a : BoundingBox3D F64, a.sizeX ≠ none ∧ a.sizeY ≠ none ∧ a.sizeZ ≠ none ∧ exchBox3 true a ≠ a :=
  ⟨⟨⟨F64.ofRat 0, F64.ofRat 0, F64.ofRat 0⟩, ⟨F64.ofRat 1, F64.ofRat 2, F64.ofRat 3⟩⟩, by decide +kernel⟩
example : ∃ a : BoundingBox2D F64, a.sizeX ≠ none ∧ a.sizeY ≠ none ∧ exchBox2 a ≠ a :=
  ⟨⟨⟨F64.ofRat 0, F64.ofRat 0⟩, ⟨F64.ofRat 1, F64.ofRat 2⟩⟩, by decide +kernel⟩
example : ∃ t t', KdTree.Built id [(⟨1, 3, 0⟩ : Point3D ℝ), ⟨3, 1, 0⟩] t ∧
    KdTree.Built (fun x => exch3 true (id x)) [(⟨1, 3, 0⟩ : Point3D ℝ), ⟨3, 1, 0⟩] t' := ⟨_, _, rfl, rfl⟩
/-- a compressed cloud that is accepted -/
example : ((CompressedPointCloud3D.compress 8 [(⟨F64.ofRat 0, F64.ofRat 0, F64.ofRat 0⟩ : Point3D F64),
    ⟨F64.ofRat 255, F64.ofRat 510, F64.ofRat 1020⟩]).map fun c => c.data) = .ok [⟨0, 0, 0⟩, ⟨255, 255, 255⟩] := by decide +kernel

end R3D

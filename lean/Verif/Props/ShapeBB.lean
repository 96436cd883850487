import Verif.Model.Intersect
import Verif.Props.Sat
import Verif.Lemmas.BBCloud
/-!
C50: the bounding boxes of the shapes.
-/
namespace R3D
open Scalar Spec LawfulScalar

/-- `b` is the smallest closed box around the points of a flat shape -/
def Spec.Tight2 (S : Point2D ℝ → Prop) (b : BoundingBox2D ℝ) : Prop :=
  (∀ p, S p → ∀ d, at2 b.min d ≤ at2 p d ∧ at2 p d ≤ at2 b.max d) ∧
  ∀ d, (∃ p, S p ∧ at2 p d = at2 b.min d) ∧ ∃ p, S p ∧ at2 p d = at2 b.max d

/-- `b` is the smallest closed box around the points of a solid shape -/
def Spec.Tight3 (S : Point3D ℝ → Prop) (b : BoundingBox3D ℝ) : Prop :=
  (∀ p, S p → ∀ d, at3 b.min d ≤ at3 p d ∧ at3 p d ≤ at3 b.max d) ∧
  ∀ d, (∃ p, S p ∧ at3 p d = at3 b.min d) ∧ ∃ p, S p ∧ at3 p d = at3 b.max d

theorem BoundingBox2D.new_real {a b : Point2D ℝ} (hx : a.x < b.x) (hy : a.y < b.y) :
    BoundingBox2D.new a b = .ok ⟨a, b⟩ := by
  simp [BoundingBox2D.new, ne_of_lt hx, ne_of_lt hy, not_lt.2 hx.le, not_lt.2 hy.le]

theorem BoundingBox3D.new_real {a b : Point3D ℝ} (hx : a.x < b.x) (hy : a.y < b.y) (hz : a.z < b.z) :
    BoundingBox3D.new a b = .ok ⟨a, b⟩ := by
  simp [BoundingBox3D.new, ne_of_lt hx, ne_of_lt hy, ne_of_lt hz, not_lt.2 hx.le, not_lt.2 hy.le, not_lt.2 hz.le]

theorem forall_fin2 {P : Fin 2 → Prop} : (∀ d, P d) ↔ P 0 ∧ P 1 := Fin.forall_fin_two

/-- C50, sphere -/
theorem c50_sphere (s : Sphere ℝ) (hr : 0 < s.radius.val) : ∃ b, s.boundingBox = some b ∧
    Tight3 (fun p => (p.x - s.center.x) ^ 2 + (p.y - s.center.y) ^ 2 + (p.z - s.center.z) ^ 2 ≤ s.radius.val ^ 2) b := by
  obtain ⟨⟨cx, cy, cz⟩, ⟨r⟩⟩ := s
  dsimp only at hr ⊢
  refine ⟨⟨⟨cx - r, cy - r, cz - r⟩, ⟨cx + r, cy + r, cz + r⟩⟩, ?_, ?_, ?_⟩
  · simp only [Sphere.boundingBox]
    rw [BoundingBox3D.new_real] <;> first | rfl | (dsimp only; linarith)
  · intro p hp
    rw [forall_fin3]
    simp only [at3_zero, at3_one, at3_two]
    have h1 := abs_le_of_sq_le_sq' (a := p.x - cx) (b := r) (by nlinarith [sq_nonneg (p.y - cy), sq_nonneg (p.z - cz)]) hr.le
    have h2 := abs_le_of_sq_le_sq' (a := p.y - cy) (b := r) (by nlinarith [sq_nonneg (p.x - cx), sq_nonneg (p.z - cz)]) hr.le
    have h3 := abs_le_of_sq_le_sq' (a := p.z - cz) (b := r) (by nlinarith [sq_nonneg (p.x - cx), sq_nonneg (p.y - cy)]) hr.le
    refine ⟨⟨?_, ?_⟩, ⟨?_, ?_⟩, ?_, ?_⟩ <;> linarith [h1.1, h1.2, h2.1, h2.2, h3.1, h3.2]
  · rw [forall_fin3]
    simp only [at3_zero, at3_one, at3_two]
    refine ⟨⟨⟨⟨cx - r, cy, cz⟩, ?_, rfl⟩, ⟨cx + r, cy, cz⟩, ?_, rfl⟩,
      ⟨⟨⟨cx, cy - r, cz⟩, ?_, rfl⟩, ⟨cx, cy + r, cz⟩, ?_, rfl⟩,
      ⟨⟨cx, cy, cz - r⟩, ?_, rfl⟩, ⟨cx, cy, cz + r⟩, ?_, rfl⟩ <;> apply le_of_eq <;> ring

/-- C50, circle -/
theorem c50_circle (s : Circle ℝ) (hr : 0 < s.radius.val) : ∃ b, s.boundingBox = some b ∧
    Tight2 (fun p => (p.x - s.center.x) ^ 2 + (p.y - s.center.y) ^ 2 ≤ s.radius.val ^ 2) b := by
  obtain ⟨⟨cx, cy⟩, ⟨r⟩⟩ := s
  dsimp only at hr ⊢
  refine ⟨⟨⟨cx - r, cy - r⟩, ⟨cx + r, cy + r⟩⟩, ?_, ?_, ?_⟩
  · simp only [Circle.boundingBox]
    rw [BoundingBox2D.new_real] <;> first | rfl | (dsimp only; linarith)
  · intro p hp
    rw [forall_fin2]
    simp only [at2_zero, at2_one]
    have h1 := abs_le_of_sq_le_sq' (a := p.x - cx) (b := r) (by nlinarith [sq_nonneg (p.y - cy)]) hr.le
    have h2 := abs_le_of_sq_le_sq' (a := p.y - cy) (b := r) (by nlinarith [sq_nonneg (p.x - cx)]) hr.le
    refine ⟨⟨?_, ?_⟩, ?_, ?_⟩ <;> linarith [h1.1, h1.2, h2.1, h2.2]
  · rw [forall_fin2]
    simp only [at2_zero, at2_one]
    refine ⟨⟨⟨⟨cx - r, cy⟩, ?_, rfl⟩, ⟨cx + r, cy⟩, ?_, rfl⟩,
      ⟨⟨cx, cy - r⟩, ?_, rfl⟩, ⟨cx, cy + r⟩, ?_, rfl⟩ <;> apply le_of_eq <;> ring

/-- C50, axis aligned box in the plane -/
theorem c50_box2d (s : Box2D ℝ) (hx : 0 < s.sizeX.val) (hy : 0 < s.sizeY.val) : ∃ b, s.boundingBox = some b ∧
    Tight2 (fun p => |p.x - s.center.x| ≤ s.sizeX.val / 2 ∧ |p.y - s.center.y| ≤ s.sizeY.val / 2) b := by
  obtain ⟨⟨cx, cy⟩, ⟨sx⟩, ⟨sy⟩⟩ := s
  dsimp only at hx hy ⊢
  refine ⟨⟨⟨cx - sx / 2, cy - sy / 2⟩, ⟨cx + sx / 2, cy + sy / 2⟩⟩, ?_, ?_, ?_⟩
  · simp only [Box2D.boundingBox, Real.scalar_lit]
    norm_num only
    rw [BoundingBox2D.new_real] <;> first | rfl | (dsimp only; linarith)
  · rintro p ⟨h1, h2⟩
    rw [abs_le] at h1 h2
    rw [forall_fin2]
    simp only [at2_zero, at2_one]
    refine ⟨⟨?_, ?_⟩, ?_, ?_⟩ <;> linarith [h1.1, h1.2, h2.1, h2.2]
  · have ax : |sx / 2| = sx / 2 := abs_of_pos (by linarith)
    have ay : |sy / 2| = sy / 2 := abs_of_pos (by linarith)
    rw [forall_fin2]
    simp only [at2_zero, at2_one]
    refine ⟨⟨⟨⟨cx - sx / 2, cy⟩, ?_, rfl⟩, ⟨cx + sx / 2, cy⟩, ?_, rfl⟩,
      ⟨⟨cx, cy - sy / 2⟩, ?_, rfl⟩, ⟨cx, cy + sy / 2⟩, ?_, rfl⟩ <;>
      simp only [sub_self, abs_zero, sub_sub_cancel_left, abs_neg, add_sub_cancel_left, ax, ay] <;>
      constructor <;> linarith

/-- C50, axis aligned box in space -/
theorem c50_box3d (s : Box3D ℝ) (hx : 0 < s.sizeX.val) (hy : 0 < s.sizeY.val) (hz : 0 < s.sizeZ.val) :
    ∃ b, s.boundingBox = some b ∧
    Tight3 (fun p => |p.x - s.center.x| ≤ s.sizeX.val / 2 ∧ |p.y - s.center.y| ≤ s.sizeY.val / 2 ∧
      |p.z - s.center.z| ≤ s.sizeZ.val / 2) b := by
  obtain ⟨⟨cx, cy, cz⟩, ⟨sx⟩, ⟨sy⟩, ⟨sz⟩⟩ := s
  dsimp only at hx hy hz ⊢
  refine ⟨⟨⟨cx - sx / 2, cy - sy / 2, cz - sz / 2⟩, ⟨cx + sx / 2, cy + sy / 2, cz + sz / 2⟩⟩, ?_, ?_, ?_⟩
  · simp only [Box3D.boundingBox, Real.scalar_lit]
    norm_num only
    rw [BoundingBox3D.new_real] <;> first | rfl | (dsimp only; linarith)
  · rintro p ⟨h1, h2, h3⟩
    rw [abs_le] at h1 h2 h3
    rw [forall_fin3]
    simp only [at3_zero, at3_one, at3_two]
    refine ⟨⟨?_, ?_⟩, ⟨?_, ?_⟩, ?_, ?_⟩ <;> linarith [h1.1, h1.2, h2.1, h2.2, h3.1, h3.2]
  · have ax : |sx / 2| = sx / 2 := abs_of_pos (by linarith)
    have ay : |sy / 2| = sy / 2 := abs_of_pos (by linarith)
    have az : |sz / 2| = sz / 2 := abs_of_pos (by linarith)
    rw [forall_fin3]
    simp only [at3_zero, at3_one, at3_two]
    refine ⟨⟨⟨⟨cx - sx / 2, cy, cz⟩, ?_, rfl⟩, ⟨cx + sx / 2, cy, cz⟩, ?_, rfl⟩,
      ⟨⟨⟨cx, cy - sy / 2, cz⟩, ?_, rfl⟩, ⟨cx, cy + sy / 2, cz⟩, ?_, rfl⟩,
      ⟨⟨cx, cy, cz - sz / 2⟩, ?_, rfl⟩, ⟨cx, cy, cz + sz / 2⟩, ?_, rfl⟩ <;>
      simp only [sub_self, abs_zero, sub_sub_cancel_left, abs_neg, add_sub_cancel_left, ax, ay, az] <;>
      refine ⟨?_, ?_, ?_⟩ <;> linarith

/-- a sphere and a box with extent -/
example : ∃ (s : Sphere ℝ) (b : Box3D ℝ), s = ⟨⟨1, 2, 3⟩, ⟨4⟩⟩ ∧ b = ⟨⟨1, 2, 3⟩, ⟨1⟩, ⟨2⟩, ⟨3⟩⟩ ∧ 0 < s.radius.val ∧
    0 < b.sizeX.val ∧ 0 < b.sizeY.val ∧ 0 < b.sizeZ.val :=
  ⟨_, _, rfl, rfl, by norm_num, by norm_num, by norm_num, by norm_num⟩

/-- `b'` is `b` blown up by `f` from the point `c` -/
def Spec.Blown2 (c : Point2D ℝ) (f : ℝ) (b b' : BoundingBox2D ℝ) : Prop :=
  ∀ d, at2 b'.min d - at2 c d = f * (at2 b.min d - at2 c d) ∧ at2 b'.max d - at2 c d = f * (at2 b.max d - at2 c d)

/-- `b'` is `b` blown up by `f` from the point `c` -/
def Spec.Blown3 (c : Point3D ℝ) (f : ℝ) (b b' : BoundingBox3D ℝ) : Prop :=
  ∀ d, at3 b'.min d - at3 c d = f * (at3 b.min d - at3 c d) ∧ at3 b'.max d - at3 c d = f * (at3 b.max d - at3 c d)

/-- C50: scaling a sphere, circle or box blows its bounding box up from its centre -/
theorem c50_scale (f : Positive ℝ) (hf : 0 < f.val) :
    (∀ s : Sphere ℝ, 0 < s.radius.val → ∃ b b', s.boundingBox = some b ∧ (s.scale f).boundingBox = some b' ∧
      Blown3 s.center f.val b b') ∧
    (∀ s : Circle ℝ, 0 < s.radius.val → ∃ b b', s.boundingBox = some b ∧ (s.scale f).boundingBox = some b' ∧
      Blown2 s.center f.val b b') ∧
    (∀ s : Box2D ℝ, 0 < s.sizeX.val → 0 < s.sizeY.val → ∃ b b', s.boundingBox = some b ∧
      (s.scale f).boundingBox = some b' ∧ Blown2 s.center f.val b b') ∧
    (∀ s : Box3D ℝ, 0 < s.sizeX.val → 0 < s.sizeY.val → 0 < s.sizeZ.val → ∃ b b', s.boundingBox = some b ∧
      (s.scale f).boundingBox = some b' ∧ Blown3 s.center f.val b b') := by
  obtain ⟨f⟩ := f
  dsimp only at hf
  have two : ((2 : ℚ) : ℝ) = 2 := by norm_num
  refine ⟨?_, ?_, ?_, ?_⟩
  · rintro ⟨⟨cx, cy, cz⟩, ⟨r⟩⟩ hr
    dsimp only at hr
    have hr' := mul_pos hr hf
    simp only [Sphere.boundingBox, Sphere.scale, Positive.mul]
    rw [BoundingBox3D.new_real (by dsimp only; linarith) (by dsimp only; linarith) (by dsimp only; linarith),
      BoundingBox3D.new_real (by dsimp only; linarith) (by dsimp only; linarith) (by dsimp only; linarith)]
    refine ⟨_, _, rfl, rfl, ?_⟩
    rw [Blown3, forall_fin3]
    simp only [at3_zero, at3_one, at3_two]
    refine ⟨⟨?_, ?_⟩, ⟨?_, ?_⟩, ?_, ?_⟩ <;> ring
  · rintro ⟨⟨cx, cy⟩, ⟨r⟩⟩ hr
    dsimp only at hr
    have hr' := mul_pos hr hf
    simp only [Circle.boundingBox, Circle.scale, Positive.mul]
    rw [BoundingBox2D.new_real (by dsimp only; linarith) (by dsimp only; linarith),
      BoundingBox2D.new_real (by dsimp only; linarith) (by dsimp only; linarith)]
    refine ⟨_, _, rfl, rfl, ?_⟩
    rw [Blown2, forall_fin2]
    simp only [at2_zero, at2_one]
    refine ⟨⟨?_, ?_⟩, ?_, ?_⟩ <;> ring
  · rintro ⟨⟨cx, cy⟩, ⟨r⟩, ⟨r2⟩⟩ hr hr2
    dsimp only at hr hr2
    have hr' := mul_pos hr hf
    have hr2' := mul_pos hr2 hf
    simp only [Box2D.boundingBox, Box2D.scale, Positive.mul, Real.scalar_lit, two]
    rw [BoundingBox2D.new_real (by dsimp only; linarith) (by dsimp only; linarith),
      BoundingBox2D.new_real (by dsimp only; linarith) (by dsimp only; linarith)]
    refine ⟨_, _, rfl, rfl, ?_⟩
    rw [Blown2, forall_fin2]
    simp only [at2_zero, at2_one]
    refine ⟨⟨?_, ?_⟩, ?_, ?_⟩ <;> ring
  · rintro ⟨⟨cx, cy, cz⟩, ⟨r⟩, ⟨r2⟩, ⟨r3⟩⟩ hr hr2 hr3
    dsimp only at hr hr2 hr3
    have hr' := mul_pos hr hf
    have hr2' := mul_pos hr2 hf
    have hr3' := mul_pos hr3 hf
    simp only [Box3D.boundingBox, Box3D.scale, Positive.mul, Real.scalar_lit, two]
    rw [BoundingBox3D.new_real (by dsimp only; linarith) (by dsimp only; linarith) (by dsimp only; linarith),
      BoundingBox3D.new_real (by dsimp only; linarith) (by dsimp only; linarith) (by dsimp only; linarith)]
    refine ⟨_, _, rfl, rfl, ?_⟩
    rw [Blown3, forall_fin3]
    simp only [at3_zero, at3_one, at3_two]
    refine ⟨⟨?_, ?_⟩, ⟨?_, ?_⟩, ?_, ?_⟩ <;> ring

/-- C50, triangle: the constructor accepts exactly the triangles with an extent along every axis, and the
bounding box of an accepted triangle encloses all of it and is tight. -/
theorem c50_triangle (a b c : Point3D ℝ) :
    ((∀ d, ¬(at3 a d = at3 b d ∧ at3 b d = at3 c d)) → TriFace3D.new a b c = .ok ⟨a, b, c⟩ ∧
      ∃ bb, (⟨a, b, c⟩ : TriFace3D ℝ).boundingBox = some bb ∧ Tight3 (fun p => at3 p ∈ solid [a, b, c]) bb) ∧
    ((∃ d, at3 a d = at3 b d ∧ at3 b d = at3 c d) → TriFace3D.new a b c = .error .TriFace3DNotSpanningVolume) := by
  obtain ⟨h1, h2, h3⟩ := c16_from_iterator_3d [a, b, c] (fun _ _ _ => True.intro)
  constructor
  · intro h
    obtain ⟨bb, hb, -⟩ := h3 (by simp) (by
      intro d
      by_contra hc
      push Not at hc
      simp only [Real.key_eq] at hc
      exact h d ⟨hc a (by simp) b (by simp), hc b (by simp) c (by simp)⟩)
    have hbb := (fromIterator_real_3d _ _).1 hb
    refine ⟨by simp [TriFace3D.new, hb], bb, by simp [TriFace3D.boundingBox, hb, Except.toOption], ?_, ?_⟩
    · intro p hp d
      constructor
      · have hconv : Convex ℝ {x : Fin 3 → ℝ | at3 bb.min d ≤ x d} := by
          intro u hu v hv s t hs ht hst
          simp only [Set.mem_ofPred_eq, Pi.add_apply, Pi.smul_apply, smul_eq_mul] at hu hv ⊢
          have e : s * at3 bb.min d + t * at3 bb.min d = at3 bb.min d := by rw [← add_mul, hst, one_mul]
          nlinarith [mul_le_mul_of_nonneg_left hu hs, mul_le_mul_of_nonneg_left hv ht]
        have hsub : {x | ∃ p ∈ [a, b, c], x = at3 p} ⊆ {x : Fin 3 → ℝ | at3 bb.min d ≤ x d} := by
          rintro y ⟨p, hp, rfl⟩
          exact (hbb.2.1 p hp d).1
        exact convexHull_min hsub hconv hp
      · have hconv : Convex ℝ {x : Fin 3 → ℝ | x d ≤ at3 bb.max d} := by
          intro u hu v hv s t hs ht hst
          simp only [Set.mem_ofPred_eq, Pi.add_apply, Pi.smul_apply, smul_eq_mul] at hu hv ⊢
          have e : s * at3 bb.max d + t * at3 bb.max d = at3 bb.max d := by rw [← add_mul, hst, one_mul]
          nlinarith [mul_le_mul_of_nonneg_left hu hs, mul_le_mul_of_nonneg_left hv ht]
        have hsub : {x | ∃ p ∈ [a, b, c], x = at3 p} ⊆ {x : Fin 3 → ℝ | x d ≤ at3 bb.max d} := by
          rintro y ⟨p, hp, rfl⟩
          exact (hbb.2.1 p hp d).2
        exact convexHull_min hsub hconv hp
    · intro d
      obtain ⟨⟨p, hp, e⟩, q, hq, e'⟩ := hbb.2.2 d
      exact ⟨⟨p, subset_convexHull ℝ _ ⟨p, hp, rfl⟩, e⟩, q, subset_convexHull ℝ _ ⟨q, hq, rfl⟩, e'⟩
  · rintro ⟨d, e1, e2⟩
    cases hb : BoundingBox3D.fromIterator [a, b, c] with
    | error e => simp [TriFace3D.new, hb]
    | ok bb =>
      exfalso
      have hbb := (fromIterator_real_3d _ _).1 hb
      obtain ⟨⟨p, hp, e⟩, q, hq, e'⟩ := hbb.2.2 d
      have hpc : at3 p d = at3 c d := by
        simp only [List.mem_cons, List.not_mem_nil, or_false] at hp
        rcases hp with rfl | rfl | rfl <;> simp_all
      have hqc : at3 q d = at3 c d := by
        simp only [List.mem_cons, List.not_mem_nil, or_false] at hq
        rcases hq with rfl | rfl | rfl <;> simp_all
      have := hbb.1 d
      rw [← e, ← e', hpc, hqc] at this
      exact lt_irrefl _ this

/-- a triangle with extent along all axes -/
example : ∀ d, ¬(at3 (⟨0, 0, 0⟩ : Point3D ℝ) d = at3 (⟨1, 0, 1⟩ : Point3D ℝ) d ∧
    at3 (⟨1, 0, 1⟩ : Point3D ℝ) d = at3 (⟨0, 1, 0⟩ : Point3D ℝ) d) := by
  rw [forall_fin3]; simp

/-! ### the box that need not be aligned -/

/-- `y` and `z` directions of unit length and orthogonal -/
def Spec.Framed (b : BoxUnaligned3D ℝ) : Prop :=
  dot3 b.yDir b.yDir = 1 ∧ dot3 b.zDir b.zDir = 1 ∧ dot3 b.yDir b.zDir = 0

/-- C50, exact arithmetic: the points of an unaligned box with orthonormal axes are its centre plus or minus the
*full* sizes along its axes, so that its edges are twice as long as its sizes, ... -/
theorem c50_unaligned_points (b : BoxUnaligned3D ℝ) (hf : Framed b) :
    ∃ (x : Point3D ℝ) (pts : List (Point3D ℝ)), b.xDir = some x ∧ dot3 x x = 1 ∧ dot3 x b.yDir = 0 ∧ dot3 x b.zDir = 0 ∧
      b.satPoints = some pts ∧
      ∀ p, p ∈ pts ↔ ∃ i j k : ℝ, (i = 1 ∨ i = -1) ∧ (j = 1 ∨ j = -1) ∧ (k = 1 ∨ k = -1) ∧
        ∀ d, at3 p d = at3 b.center d + i * b.sizeX.val * at3 x d + j * b.sizeY.val * at3 b.yDir d
          + k * b.sizeZ.val * at3 b.zDir d := by
  obtain ⟨⟨cx, cy, cz⟩, ⟨yx, yy, yz⟩, ⟨zx, zy, zz⟩, ⟨sx⟩, ⟨sy⟩, ⟨sz⟩⟩ := b
  obtain ⟨hy, hz, ho⟩ := hf
  simp only [dot3, Fin.sum_univ_three, at3_zero, at3_one, at3_two] at hy hz ho
  have hn : dot3 (Point3D.cross ⟨zx, zy, zz⟩ ⟨yx, yy, yz⟩) (Point3D.cross ⟨zx, zy, zz⟩ ⟨yx, yy, yz⟩) = 1 := by
    simp only [dot3, Fin.sum_univ_three, at3_zero, at3_one, at3_two, Point3D.cross]
    have lag : (zy * yz - zz * yy) * (zy * yz - zz * yy) + (zz * yx - zx * yz) * (zz * yx - zx * yz) +
        (zx * yy - zy * yx) * (zx * yy - zy * yx) =
        (zx * zx + zy * zy + zz * zz) * (yx * yx + yy * yy + yz * yz) - (yx * zx + yy * zy + yz * zz) ^ 2 := by ring
    rw [lag, hy, hz, ho]; norm_num
  have hl : Spec.len (Point3D.cross ⟨zx, zy, zz⟩ ⟨yx, yy, yz⟩ : Point3D ℝ) = 1 := by
    have h0 : 0 ≤ Spec.len (Point3D.cross ⟨zx, zy, zz⟩ ⟨yx, yy, yz⟩ : Point3D ℝ) := Real.sqrt_nonneg _
    have h1 := Spec.len_sq (Point3D.cross ⟨zx, zy, zz⟩ ⟨yx, yy, yz⟩ : Point3D ℝ)
    simp only [dot3, Fin.sum_univ_three, at3_zero, at3_one, at3_two] at hn
    nlinarith
  have hx : Norm3D.newOrZ (Point3D.cross ⟨zx, zy, zz⟩ ⟨yx, yy, yz⟩ : Point3D ℝ) =
      some (Point3D.cross ⟨zx, zy, zz⟩ ⟨yx, yy, yz⟩) := by
    rw [Norm3D.newOrZ_real, hl, if_neg]
    · simp
    · intro h0
      rw [h0] at hn
      simp [dot3, Fin.sum_univ_three] at hn
  refine ⟨Point3D.cross ⟨zx, zy, zz⟩ ⟨yx, yy, yz⟩, _, hx, hn, ?_, ?_, by
    simp only [BoxUnaligned3D.satPoints, BoxUnaligned3D.dX, BoxUnaligned3D.xDir, hx]; rfl, ?_⟩
  · simp only [dot3, Fin.sum_univ_three, at3_zero, at3_one, at3_two, Point3D.cross]; ring
  · simp only [dot3, Fin.sum_univ_three, at3_zero, at3_one, at3_two, Point3D.cross]; ring
  · intro p
    obtain ⟨px, py, pz⟩ := p
    simp only [List.mem_cons, List.not_mem_nil, or_false]
    constructor
    · intro h
      rcases h with h | h | h | h | h | h | h | h
      · exact ⟨-1, -1, 1, by simp, by simp, by simp, by
          rw [h, forall_fin3]
          simp only [at3_zero, at3_one, at3_two, Point3D.sub, Point3D.add, Point3D.smul, BoxUnaligned3D.dY, BoxUnaligned3D.dZ]
          refine ⟨?_, ?_, ?_⟩ <;> ring⟩
      · exact ⟨-1, -1, -1, by simp, by simp, by simp, by
          rw [h, forall_fin3]
          simp only [at3_zero, at3_one, at3_two, Point3D.sub, Point3D.add, Point3D.smul, BoxUnaligned3D.dY, BoxUnaligned3D.dZ]
          refine ⟨?_, ?_, ?_⟩ <;> ring⟩
      · exact ⟨-1, 1, -1, by simp, by simp, by simp, by
          rw [h, forall_fin3]
          simp only [at3_zero, at3_one, at3_two, Point3D.sub, Point3D.add, Point3D.smul, BoxUnaligned3D.dY, BoxUnaligned3D.dZ]
          refine ⟨?_, ?_, ?_⟩ <;> ring⟩
      · exact ⟨-1, 1, 1, by simp, by simp, by simp, by
          rw [h, forall_fin3]
          simp only [at3_zero, at3_one, at3_two, Point3D.sub, Point3D.add, Point3D.smul, BoxUnaligned3D.dY, BoxUnaligned3D.dZ]
          refine ⟨?_, ?_, ?_⟩ <;> ring⟩
      · exact ⟨1, -1, 1, by simp, by simp, by simp, by
          rw [h, forall_fin3]
          simp only [at3_zero, at3_one, at3_two, Point3D.sub, Point3D.add, Point3D.smul, BoxUnaligned3D.dY, BoxUnaligned3D.dZ]
          refine ⟨?_, ?_, ?_⟩ <;> ring⟩
      · exact ⟨1, -1, -1, by simp, by simp, by simp, by
          rw [h, forall_fin3]
          simp only [at3_zero, at3_one, at3_two, Point3D.sub, Point3D.add, Point3D.smul, BoxUnaligned3D.dY, BoxUnaligned3D.dZ]
          refine ⟨?_, ?_, ?_⟩ <;> ring⟩
      · exact ⟨1, 1, -1, by simp, by simp, by simp, by
          rw [h, forall_fin3]
          simp only [at3_zero, at3_one, at3_two, Point3D.sub, Point3D.add, Point3D.smul, BoxUnaligned3D.dY, BoxUnaligned3D.dZ]
          refine ⟨?_, ?_, ?_⟩ <;> ring⟩
      · exact ⟨1, 1, 1, by simp, by simp, by simp, by
          rw [h, forall_fin3]
          simp only [at3_zero, at3_one, at3_two, Point3D.sub, Point3D.add, Point3D.smul, BoxUnaligned3D.dY, BoxUnaligned3D.dZ]
          refine ⟨?_, ?_, ?_⟩ <;> ring⟩
    · rintro ⟨i, j, k, hi, hj, hk, hp⟩
      rw [forall_fin3] at hp
      simp only [at3_zero, at3_one, at3_two] at hp
      obtain ⟨rfl, rfl, rfl⟩ := hp
      rcases hi with rfl | rfl <;> rcases hj with rfl | rfl <;> rcases hk with rfl | rfl
      · iterate 7 right
        simp only [Point3D.sub, Point3D.add, Point3D.smul, BoxUnaligned3D.dY, BoxUnaligned3D.dZ, Point3D.mk.injEq]
        refine ⟨?_, ?_, ?_⟩ <;> ring
      · iterate 6 right
        left
        simp only [Point3D.sub, Point3D.add, Point3D.smul, BoxUnaligned3D.dY, BoxUnaligned3D.dZ, Point3D.mk.injEq]
        refine ⟨?_, ?_, ?_⟩ <;> ring
      · iterate 4 right
        left
        simp only [Point3D.sub, Point3D.add, Point3D.smul, BoxUnaligned3D.dY, BoxUnaligned3D.dZ, Point3D.mk.injEq]
        refine ⟨?_, ?_, ?_⟩ <;> ring
      · iterate 5 right
        left
        simp only [Point3D.sub, Point3D.add, Point3D.smul, BoxUnaligned3D.dY, BoxUnaligned3D.dZ, Point3D.mk.injEq]
        refine ⟨?_, ?_, ?_⟩ <;> ring
      · iterate 3 right
        left
        simp only [Point3D.sub, Point3D.add, Point3D.smul, BoxUnaligned3D.dY, BoxUnaligned3D.dZ, Point3D.mk.injEq]
        refine ⟨?_, ?_, ?_⟩ <;> ring
      · iterate 2 right
        left
        simp only [Point3D.sub, Point3D.add, Point3D.smul, BoxUnaligned3D.dY, BoxUnaligned3D.dZ, Point3D.mk.injEq]
        refine ⟨?_, ?_, ?_⟩ <;> ring
      · left
        simp only [Point3D.sub, Point3D.add, Point3D.smul, BoxUnaligned3D.dY, BoxUnaligned3D.dZ, Point3D.mk.injEq]
        refine ⟨?_, ?_, ?_⟩ <;> ring
      · right
        left
        simp only [Point3D.sub, Point3D.add, Point3D.smul, BoxUnaligned3D.dY, BoxUnaligned3D.dZ, Point3D.mk.injEq]
        refine ⟨?_, ?_, ?_⟩ <;> ring

/-- ... and its bounding box, a cube with the largest size as edge, misses corners of it, whatever the sizes and
axes: C50 is violated for every unaligned box. -/
theorem c50_unaligned_violated (b : BoxUnaligned3D ℝ) (hf : Framed b) (hx : 0 < b.sizeX.val) (hy : 0 < b.sizeY.val)
    (hz : 0 < b.sizeZ.val) : ∃ bb pts, b.boundingBox = some bb ∧ b.satPoints = some pts ∧
      ∃ p ∈ pts, ∃ d, ¬(at3 bb.min d ≤ at3 p d ∧ at3 p d ≤ at3 bb.max d) := by
  obtain ⟨x, pts, -, hxx, hxy, hxz, hp, hpts⟩ := c50_unaligned_points b hf
  obtain ⟨hyy, hzz, hyz⟩ := hf
  have hm : ∃ m, 0 < m ∧ (m = b.sizeX.val ∨ m = b.sizeY.val ∨ m = b.sizeZ.val) ∧ b.boundingBox = some
      ⟨⟨b.center.x - 1 / 2 * m, b.center.y - 1 / 2 * m, b.center.z - 1 / 2 * m⟩,
        ⟨b.center.x + 1 / 2 * m, b.center.y + 1 / 2 * m, b.center.z + 1 / 2 * m⟩⟩ := by
    have key : ∀ m : ℝ, 0 < m → (BoundingBox3D.new
        ⟨b.center.x - 1 / 2 * m, b.center.y - 1 / 2 * m, b.center.z - 1 / 2 * m⟩
        ⟨b.center.x + 1 / 2 * m, b.center.y + 1 / 2 * m, b.center.z + 1 / 2 * m⟩).toOption = some
      ⟨⟨b.center.x - 1 / 2 * m, b.center.y - 1 / 2 * m, b.center.z - 1 / 2 * m⟩,
        ⟨b.center.x + 1 / 2 * m, b.center.y + 1 / 2 * m, b.center.z + 1 / 2 * m⟩⟩ := by
      intro m h
      rw [BoundingBox3D.new_real] <;> first | rfl | (dsimp only; linarith)
    have half : (((1 / 2 : ℚ) : ℝ)) = 1 / 2 := by norm_num
    simp only [BoxUnaligned3D.boundingBox, Real.scalar_lit, half]
    split_ifs
    · exact ⟨b.sizeZ.val, hz, by simp, key _ hz⟩
    · exact ⟨b.sizeY.val, hy, by simp, key _ hy⟩
    · exact ⟨b.sizeZ.val, hz, by simp, key _ hz⟩
    · exact ⟨b.sizeX.val, hx, by simp, key _ hx⟩
  obtain ⟨m, hm0, hm, hbb⟩ := hm
  obtain ⟨p, hpp⟩ : ∃ p : Point3D ℝ, ∀ d, at3 p d = at3 b.center d + 1 * b.sizeX.val * at3 x d + 1 * b.sizeY.val * at3 b.yDir d
          + 1 * b.sizeZ.val * at3 b.zDir d :=
    ⟨⟨_, _, _⟩, by rw [forall_fin3]; exact ⟨rfl, rfl, rfl⟩⟩
  refine ⟨_, pts, hbb, hp, p, (hpts p).2 ⟨1, 1, 1, by simp, by simp, by simp, hpp⟩, ?_⟩
  by_contra hc
  push Not at hc
  rw [forall_fin3] at hc hpp
  simp only [at3_zero, at3_one, at3_two, one_mul] at hc hpp
  simp only [dot3, Fin.sum_univ_three, at3_zero, at3_one, at3_two] at hxx hxy hxz hyy hzz hyz
  obtain ⟨e1, e2, e3⟩ := hpp
  obtain ⟨c1, c2, c3⟩ := hc
  have dist : (p.x - b.center.x) ^ 2 + (p.y - b.center.y) ^ 2 + (p.z - b.center.z) ^ 2 =
      b.sizeX.val ^ 2 + b.sizeY.val ^ 2 + b.sizeZ.val ^ 2 := by
    rw [e1, e2, e3]
    linear_combination b.sizeX.val ^ 2 * hxx + b.sizeY.val ^ 2 * hyy + b.sizeZ.val ^ 2 * hzz +
      2 * b.sizeX.val * b.sizeY.val * hxy + 2 * b.sizeX.val * b.sizeZ.val * hxz + 2 * b.sizeY.val * b.sizeZ.val * hyz
  have q1 : (p.x - b.center.x) ^ 2 ≤ (1 / 2 * m) ^ 2 := sq_le_sq' (by linarith [c1.1]) (by linarith [c1.2])
  have q2 : (p.y - b.center.y) ^ 2 ≤ (1 / 2 * m) ^ 2 := sq_le_sq' (by linarith [c2.1]) (by linarith [c2.2])
  have q3 : (p.z - b.center.z) ^ 2 ≤ (1 / 2 * m) ^ 2 := sq_le_sq' (by linarith [c3.1]) (by linarith [c3.2])
  have hmm : m ^ 2 ≤ b.sizeX.val ^ 2 + b.sizeY.val ^ 2 + b.sizeZ.val ^ 2 := by
    have g1 := sq_nonneg b.sizeX.val
    have g2 := sq_nonneg b.sizeY.val
    have g3 := sq_nonneg b.sizeZ.val
    clear * - hm g1 g2 g3
    rcases hm with rfl | rfl | rfl <;> linarith
  have hm2 := pow_pos hm0 2
  have q4 : (1 / 2 * m) ^ 2 = 1 / 4 * m ^ 2 := by ring
  rw [q4] at q1 q2 q3
  linarith

/-- an axis aligned one -/
example : ∃ b : BoxUnaligned3D ℝ, b = ⟨⟨0, 0, 0⟩, ⟨0, 1, 0⟩, ⟨0, 0, 1⟩, ⟨1⟩, ⟨2⟩, ⟨3⟩⟩ ∧ Framed b ∧ 0 < b.sizeX.val ∧
    0 < b.sizeY.val ∧ 0 < b.sizeZ.val := by
  refine ⟨_, rfl, ?_, ?_, ?_, ?_⟩ <;> simp [Framed, dot3, Fin.sum_univ_three]

/-- C50: both constructors give boxes with orthonormal axes and the given centre and sizes; rotating by `φ` about the
z axis turns the y axis clockwise. -/
theorem c50_unaligned_new (bb : BoundingBox3D ℝ) (hv : (box3 bb).Valid) (c : Point3D ℝ) (sx sy sz : Positive ℝ) (phi : ℝ) :
    (∃ b, BoxUnaligned3D.newFromBB bb = some b ∧ Framed b ∧ b.center = bb.centerBB ∧
      b.sizeX.val = bb.max.x - bb.min.x ∧ b.sizeY.val = bb.max.y - bb.min.y ∧ b.sizeZ.val = bb.max.z - bb.min.z) ∧
    ∃ b, BoxUnaligned3D.newFromZRotation c sx sy sz phi = some b ∧ Framed b ∧ b.center = c ∧ b.sizeX = sx ∧
      b.sizeY = sy ∧ b.sizeZ = sz ∧ b.yDir = ⟨Real.sin phi, Real.cos phi, 0⟩ ∧ b.xDir = some ⟨-Real.cos phi, Real.sin phi, 0⟩ := by
  constructor
  · obtain ⟨h1, h2, h3⟩ := sizes_real_3d bb hv
    refine ⟨⟨bb.centerBB, ⟨0, 1, 0⟩, ⟨0, 0, 1⟩, ⟨_⟩, ⟨_⟩, ⟨_⟩⟩, ?_, ?_, rfl, rfl, rfl, rfl⟩
    · simp [BoxUnaligned3D.newFromBB, h1, h2, h3, Norm3D.normY, Norm3D.normZ]
    · simp [Framed, dot3, Fin.sum_univ_three]
  · have sc := Real.sin_sq_add_cos_sq phi
    have e : rot2d (⟨lit 0, lit 1, lit 0⟩ : Point3D ℝ) phi = ⟨Real.sin phi, Real.cos phi, 0⟩ := by
      simp [rot2d, Real.trig_sin, Real.trig_cos]
    have nz : (⟨Real.sin phi, Real.cos phi, 0⟩ : Point3D ℝ) ≠ ⟨0, 0, 0⟩ := by
      intro h
      simp only [Point3D.mk.injEq] at h
      rw [h.1, h.2.1] at sc
      norm_num at sc
    have hl : Spec.len (⟨Real.sin phi, Real.cos phi, 0⟩ : Point3D ℝ) = 1 := by
      simp [Spec.len, sc]
    have nz' : (⟨-Real.cos phi, Real.sin phi, 0⟩ : Point3D ℝ) ≠ ⟨0, 0, 0⟩ := by
      intro h
      simp only [Point3D.mk.injEq, neg_eq_zero] at h
      rw [h.1, h.2.1] at sc
      norm_num at sc
    have hl' : Spec.len (⟨-Real.cos phi, Real.sin phi, 0⟩ : Point3D ℝ) = 1 := by
      simp [Spec.len]
    refine ⟨⟨c, ⟨Real.sin phi, Real.cos phi, 0⟩, ⟨0, 0, 1⟩, sx, sy, sz⟩, ?_, ?_, rfl, rfl, rfl, rfl, rfl, ?_⟩
    · simp only [BoxUnaligned3D.newFromZRotation]
      rw [e, Norm3D.new_real, if_neg nz, hl]
      simp [Norm3D.normZ, Except.toOption]
    · refine ⟨?_, ?_, ?_⟩ <;> simp [dot3, Fin.sum_univ_three]
      linarith
    · have ec : Point3D.cross (⟨0, 0, 1⟩ : Point3D ℝ) ⟨Real.sin phi, Real.cos phi, 0⟩ = ⟨-Real.cos phi, Real.sin phi, 0⟩ := by
        simp [Point3D.cross]
      simp only [BoxUnaligned3D.xDir]
      rw [ec, Norm3D.newOrZ_real, if_neg nz', hl']
      simp

/-- C50: the unaligned box made from a bounding box does not stay inside it -/
theorem c50_from_bb_doubled (bb : BoundingBox3D ℝ) (hv : (box3 bb).Valid) : ∃ b pts, BoxUnaligned3D.newFromBB bb = some b ∧
    b.satPoints = some pts ∧ ∀ p ∈ pts, ∀ d, at3 p d < at3 bb.min d ∨ at3 bb.max d < at3 p d := by
  obtain ⟨⟨b, hb, hf, hc, hx, hy, hz⟩, -⟩ := c50_unaligned_new bb hv ⟨0, 0, 0⟩ ⟨1⟩ ⟨1⟩ ⟨1⟩ 0
  obtain ⟨h1, h2, h3⟩ := sizes_real_3d bb hv
  rw [valid_real_3d] at hv
  obtain ⟨v1, v2, v3⟩ := hv
  obtain ⟨x, pts, ex, hxx, hxy, hxz, hp, hpts⟩ := c50_unaligned_points b hf
  refine ⟨b, pts, hb, hp, ?_⟩
  have eb : b = ⟨bb.centerBB, ⟨0, 1, 0⟩, ⟨0, 0, 1⟩, ⟨bb.max.x - bb.min.x⟩, ⟨bb.max.y - bb.min.y⟩, ⟨bb.max.z - bb.min.z⟩⟩ := by
    have : BoxUnaligned3D.newFromBB bb = some ⟨bb.centerBB, ⟨0, 1, 0⟩, ⟨0, 0, 1⟩, ⟨bb.max.x - bb.min.x⟩,
        ⟨bb.max.y - bb.min.y⟩, ⟨bb.max.z - bb.min.z⟩⟩ := by
      simp [BoxUnaligned3D.newFromBB, h1, h2, h3, Norm3D.normY, Norm3D.normZ]
    rw [this] at hb
    exact (Option.some.inj hb).symm
  subst eb
  intro p hpm
  obtain ⟨i, j, k, hi, hj, hk, hh⟩ := (hpts p).1 hpm
  obtain ⟨xx, xy, xz⟩ := x
  rw [forall_fin3] at hh ⊢
  simp only [dot3, Fin.sum_univ_three, at3_zero, at3_one, at3_two, mul_zero, mul_one, zero_add, add_zero] at hxx hxy hxz hh ⊢
  subst hxy hxz
  obtain ⟨g1, g2, g3⟩ := hh
  have hxx' : xx = 1 ∨ xx = -1 := by
    rw [← mul_self_eq_one_iff]
    linarith
  rw [g1, g2, g3]
  have c1 : bb.centerBB.x = bb.min.x + (bb.max.x - bb.min.x) / 2 := by simp [BoundingBox3D.centerBB]
  have c2 : bb.centerBB.y = bb.min.y + (bb.max.y - bb.min.y) / 2 := by simp [BoundingBox3D.centerBB]
  have c3 : bb.centerBB.z = bb.min.z + (bb.max.z - bb.min.z) / 2 := by simp [BoundingBox3D.centerBB]
  rw [c1, c2, c3]
  refine ⟨?_, ?_, ?_⟩
  · rcases hi with rfl | rfl <;> rcases hxx' with rfl | rfl <;> first | (left; linarith) | (right; linarith)
  · rcases hj with rfl | rfl <;> first | (left; linarith) | (right; linarith)
  · rcases hk with rfl | rfl <;> first | (left; linarith) | (right; linarith)

/-- an ordered box -/
example : (box3 (⟨⟨0, 0, 0⟩, ⟨1, 2, 3⟩⟩ : BoundingBox3D ℝ)).Valid := by
  rw [valid_real_3d]; norm_num

end R3D

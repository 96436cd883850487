import Verif.Props.SatFloat
import Verif.Props.DistFloat
import Verif.Model.DirectionField
/-!
C126: swapping the two arguments of a symmetric function, or mirroring everything at a coordinate plane, does
not change the result; bit by bit, with doubles.
-/
namespace R3D
open Scalar Spec F64

namespace F64

theorem add_swap (a b : F64) : a + b = b + a := by
  show F64.add a b = F64.add b a
  cases a <;> cases b <;> try rfl
  · rename_i s t; cases s <;> cases t <;> rfl
  · rename_i s m t n; simp only [F64.add, add_comm (val s m), Bool.and_comm s]

theorem mul_swap (a b : F64) : a * b = b * a := by
  show F64.mul a b = F64.mul b a
  cases a <;> cases b <;> try rfl
  · rename_i s t; simp only [F64.mul, Bool.xor_comm s]
  · rename_i s t n; simp only [F64.mul, Bool.xor_comm s]
  · rename_i s m t; simp only [F64.mul, Bool.xor_comm s]
  · rename_i s m t n; simp only [F64.mul, Bool.xor_comm s, mul_comm m]

theorem neg_neg_eq (a : F64) : - -a = a := by
  show F64.neg (F64.neg a) = a
  cases a <;> simp [F64.neg]

theorem neg_sub_neg' (a b : F64) : -a - -b = b - a := by
  show F64.add (F64.neg a) (F64.neg (F64.neg b)) = F64.add b (F64.neg a)
  rw [show F64.neg (F64.neg b) = b from neg_neg_eq b]
  exact add_swap _ _

theorem neg_mul_neg_eq (a b : F64) : -a * -b = a * b := by
  show F64.mul (F64.neg a) (F64.neg b) = F64.mul a b
  cases a <;> cases b <;> simp [F64.mul, F64.neg]

theorem lt_neg_neg (a b : F64) : (-a <. -b) = (b <. a) := by
  show F64.lt (F64.neg a) (F64.neg b) = F64.lt b a
  cases a with
  | nan => cases b <;> rfl
  | inf s => cases b with
    | nan => rfl
    | inf t => cases s <;> cases t <;> rfl
    | fin t n => cases s <;> rfl
  | fin s m => cases b with
    | nan => rfl
    | inf t => cases t <;> rfl
    | fin t n =>
      simp only [F64.lt, F64.neg]
      rw [decide_eq_decide]
      cases s <;> cases t <;> simp [val] <;> constructor <;> intro h <;> linarith

theorem abs_sub_swap (a b : F64) : Scalar.abs (a - b) = Scalar.abs (b - a) := by
  show F64.abs (F64.sub a b) = F64.abs (F64.sub b a)
  cases a with
  | nan => cases b <;> rfl
  | inf s => cases b with
    | nan => rfl
    | inf t => cases s <;> cases t <;> rfl
    | fin t n => cases s <;> rfl
  | fin s m => cases b with
    | nan => rfl
    | inf t => cases t <;> rfl
    | fin t n =>
      obtain ⟨b1, h1⟩ := sub_form s t m n
      obtain ⟨b2, h2⟩ := sub_form t s n m
      rw [h1, h2, abs_round, abs_round, abs_sub_comm]

/-- numbers of equal value have equal squares -/
theorem sq_of_key {a b : F64} (ha : ok a) (hb : ok b) (h : key a = key b) : a * a = b * b := by
  show F64.mul a a = F64.mul b b
  cases a with
  | nan => exact absurd rfl ha
  | inf s => cases b with
    | nan => exact absurd rfl hb
    | inf t => cases s <;> cases t <;> rfl
    | fin t n => cases s <;> simp [key] at h
  | fin s m => cases b with
    | nan => exact absurd rfl hb
    | inf t => cases t <;> simp [key] at h
    | fin t n =>
      have h' : val s m = val t n := by simpa [key] using h
      have e : ∀ (s : Bool) (m : ℚ), m * m = val s m * val s m := by intro s m; cases s <;> simp [val]
      simp only [F64.mul, Bool.xor_self]
      rw [e s m, e t n, h']

theorem max3_swap {a c : F64} (ha : ok a) (hc : ok c) :
    max3 a zero c * max3 a zero c = max3 c zero a * max3 c zero a := by
  have e : ∀ x y : F64, max2 x y = mx y x := fun _ _ => rfl
  have o : ∀ {x y : F64}, ok x → ok y → ok (max2 x y) := by
    intro x y hx hy; unfold max2; split_ifs <;> assumption
  have k : ∀ {x y : F64}, ok x → ok y → key (max2 x y) = max (key y) (key x) := fun hx hy => key_mx (α := F64) hy hx
  have z : ok (zero : F64) := by show (zero : F64) ≠ .nan; decide +kernel
  refine sq_of_key (o (o ha z) hc) (o (o hc z) ha) ?_
  unfold max3
  rw [k (o ha z) hc, k ha z, k (o hc z) ha, k hc z]
  rw [max_comm (key (zero : F64)), max_comm (key (zero : F64)), ← max_assoc, ← max_assoc, max_comm (key c)]

theorem gap_swap (a b c d : F64) (h1 : (a >. b) = false) (h2 : (c >. d) = false) :
    BoundingBox2D.gap a b c d * BoundingBox2D.gap a b c d = BoundingBox2D.gap c d a b * BoundingBox2D.gap c d a b := by
  have hs : ∀ x y : F64, (x - y) * (x - y) = (y - x) * (y - x) := sq_sub_comm
  unfold BoundingBox2D.gap
  by_cases p : (d <. a) = true <;> by_cases q : (b <. c) = true
  · exfalso
    rw [LawfulScalar.lt_iff] at p q
    rw [← Bool.not_eq_true, LawfulScalar.lt_iff] at h1
    have n1 := not_lt.mp fun h => h1 ⟨q.1, p.2.1, h⟩
    rw [← Bool.not_eq_true, LawfulScalar.lt_iff] at h2
    have n2 := not_lt.mp fun h => h2 ⟨p.1, q.2.1, h⟩
    exact absurd ((p.2.2.trans_le n1).trans (q.2.2.trans_le n2)) (lt_irrefl _)
  · simp only [p, q, if_true]; exact hs _ _
  · simp only [p, q, if_true]; exact hs _ _
  · simp only [p, q]; rfl

end F64

/-! ### swapped arguments -/

/-- C126, doubles, also infinite and nan: scalar product, length of the difference and equality do not depend on
the order of the points -/
theorem c126_points (p q : Point3D F64) (p' q' : Point2D F64) :
    p.dot q = q.dot p ∧ p.dist q = q.dist p ∧ p.beq q = q.beq p ∧
    p'.dot q' = q'.dot p' ∧ p'.dist q' = q'.dist p' ∧ p'.beq q' = q'.beq p' := by
  have e : ∀ a b : F64, (a ==. b) = (b ==. a) := by
    intro a b; rw [Bool.eq_iff_iff, LawfulScalar.eq_iff, LawfulScalar.eq_iff]; tauto
  obtain ⟨d, -, d', -⟩ := c92_symmetric p q p' q'
  refine ⟨?_, d, ?_, ?_, d', ?_⟩
  · unfold Point3D.dot; rw [mul_swap p.x, mul_swap p.y, mul_swap p.z]
  · unfold Point3D.beq; rw [e p.x, e p.y, e p.z]
  · unfold Point2D.dot; rw [mul_swap p'.x, mul_swap p'.y]
  · unfold Point2D.beq; rw [e p'.x, e p'.y]

/-- C126, doubles, whatever the arc cosine: the angle between two 3D vectors does not depend on their order;
nor does failing for a vector without length, nor panicking -/
theorem c126_angle [Angle F64] (p q : Point3D F64) : p.radTo q = q.radTo p := by
  unfold Point3D.radTo
  rw [(c126_points p q ⟨p.x, p.x⟩ ⟨p.x, p.x⟩).1]
  generalize p.abs = a
  generalize q.abs = b
  cases a <;> cases b <;> try rfl
  rename_i a b
  simp only [Option.bind_eq_bind, Option.bind_some, NonNegative.mul]
  rw [mul_swap a.val, Bool.or_comm]

theorem pos_add_swap (a b : Positive F64) : a.add b = b.add a := by
  unfold Positive.add; rw [add_swap]

/-- C126, doubles, also infinite, nan and swapped corners: whether two boxes collide does not depend on their
order, nor does panicking -/
theorem c126_collides (a b : BoundingBox3D F64) (a' b' : BoundingBox2D F64) :
    a.collidesWith b = b.collidesWith a ∧ a'.collidesWith b' = b'.collidesWith a' := by
  constructor
  · unfold BoundingBox3D.collidesWith
    rw [abs_sub_swap a.centerBB.x, abs_sub_swap a.centerBB.y, abs_sub_swap a.centerBB.z]
    generalize lit 2 * Scalar.abs (b.centerBB.x - a.centerBB.x) = dx, lit 2 * Scalar.abs (b.centerBB.y - a.centerBB.y) = dy,
      lit 2 * Scalar.abs (b.centerBB.z - a.centerBB.z) = dz
    generalize a.sizeX = ax, b.sizeX = bx, a.sizeY = ay, b.sizeY = bY, a.sizeZ = az, b.sizeZ = bz
    cases ax <;> cases bx <;> try rfl
    rename_i ax bx
    simp only [Option.bind_eq_bind, Option.bind_some]
    rw [pos_add_swap ax]
    split_ifs
    · cases ay <;> cases bY <;> try rfl
      rename_i ay bY
      simp only [Option.bind_some]
      rw [pos_add_swap ay]
      split_ifs
      · cases az <;> cases bz <;> try rfl
        rename_i az bz
        simp only [Option.bind_some]
        rw [pos_add_swap az]
      · rfl
    · rfl
  · unfold BoundingBox2D.collidesWith
    rw [abs_sub_swap a'.centerBB.x, abs_sub_swap a'.centerBB.y]
    generalize lit 2 * Scalar.abs (b'.centerBB.x - a'.centerBB.x) = dx, lit 2 * Scalar.abs (b'.centerBB.y - a'.centerBB.y) = dy
    generalize a'.sizeX = ax, b'.sizeX = bx, a'.sizeY = ay, b'.sizeY = bY
    cases ax <;> cases bx <;> try rfl
    rename_i ax bx
    simp only [Option.bind_eq_bind, Option.bind_some]
    rw [pos_add_swap ax]
    split_ifs
    · cases ay <;> cases bY <;> try rfl
      rename_i ay bY
      simp only [Option.bind_some]
      rw [pos_add_swap ay]
    · rfl

/-- C126, doubles: the squared distance of two boxes made by `new` does not depend on their order -/
theorem c126_box_distance (p q r s : Point3D F64) (a b : BoundingBox3D F64) (p' q' r' s' : Point2D F64)
    (a' b' : BoundingBox2D F64) (ha : BoundingBox3D.new p q = .ok a) (hb : BoundingBox3D.new r s = .ok b)
    (ha' : BoundingBox2D.new p' q' = .ok a') (hb' : BoundingBox2D.new r' s' = .ok b') :
    a.sqrDistanceBB b = b.sqrDistanceBB a ∧ a'.sqrDistanceBB b' = b'.sqrDistanceBB a' := by
  have v3 : ∀ (p q : Point3D F64) (a : BoundingBox3D F64), BoundingBox3D.new p q = .ok a →
      (a.min.x >. a.max.x) = false ∧ (a.min.y >. a.max.y) = false ∧ (a.min.z >. a.max.z) = false := by
    intro p q a h
    unfold BoundingBox3D.new at h
    split_ifs at h with h1 h2
    cases h
    simp only [Bool.or_eq_true, not_or, Bool.not_eq_true] at h2
    exact ⟨h2.1.1, h2.1.2, h2.2⟩
  have v2 : ∀ (p q : Point2D F64) (a : BoundingBox2D F64), BoundingBox2D.new p q = .ok a →
      (a.min.x >. a.max.x) = false ∧ (a.min.y >. a.max.y) = false := by
    intro p q a h
    unfold BoundingBox2D.new at h
    split_ifs at h with h1 h2
    cases h
    simp only [Bool.or_eq_true, not_or, Bool.not_eq_true] at h2
    exact h2
  obtain ⟨a1, a2, a3⟩ := v3 _ _ _ ha
  obtain ⟨b1, b2, b3⟩ := v3 _ _ _ hb
  obtain ⟨c1, c2⟩ := v2 _ _ _ ha'
  obtain ⟨d1, d2⟩ := v2 _ _ _ hb'
  constructor
  · unfold BoundingBox3D.sqrDistanceBB
    simp only
    rw [gap_swap _ _ _ _ a1 b1, gap_swap _ _ _ _ a2 b2, gap_swap _ _ _ _ a3 b3]
  · unfold BoundingBox2D.sqrDistanceBB
    simp only
    rw [gap_swap _ _ _ _ c1 d1, gap_swap _ _ _ _ c2 d2]

/-- C126, doubles: whether two colliders of any kind collide does not depend on their order, nor does panicking -/
theorem c126_colliders (a b : Collider3D F64) : a.collidesWith b = b.collidesWith a := by
  by_cases h : (∃ x, a = .aabb x) ∧ ∃ y, b = .aabb y
  · obtain ⟨⟨x, rfl⟩, y, rfl⟩ := h
    exact (c126_collides x y ⟨⟨x.min.x, x.min.x⟩, ⟨x.min.x, x.min.x⟩⟩ ⟨⟨x.min.x, x.min.x⟩, ⟨x.min.x, x.min.x⟩⟩).1
  · exact c49_symmetric a b h

theorem any_foldlM_some {β : Type} (g : β → Panics Bool) (l : List β) (o r : Bool)
    (h : l.foldlM (fun result c => if !result then g c else some result) o = some r) :
    (r = true → o = true ∨ ∃ x ∈ l, g x = some true) ∧ (r = false → o = false ∧ ∀ x ∈ l, g x = some false) := by
  induction l generalizing o with
  | nil => cases h; simp
  | cons x l ih =>
    rw [List.foldlM_cons] at h
    cases o with
    | true =>
      obtain ⟨h1, h2⟩ := ih true (by simpa using h)
      exact ⟨fun _ => .inl rfl, fun hr => absurd (h2 hr).1 (by simp)⟩
    | false =>
      cases hx : g x with
      | none => rw [hx] at h; cases h
      | some v =>
        rw [hx] at h
        obtain ⟨h1, h2⟩ := ih v (by simpa using h)
        refine ⟨fun hr => ?_, fun hr => ?_⟩
        · rcases h1 hr with rfl | ⟨y, hy, hg⟩
          · exact .inr ⟨x, by simp, hx⟩
          · exact .inr ⟨y, by simp [hy], hg⟩
        · obtain ⟨rfl, h3⟩ := h2 hr
          exact ⟨rfl, by rintro y (_ | ⟨_, hy⟩); exacts [hx, h3 y hy]⟩

/-- the colliders that are compared: those of an object that has some of its own, else its bounding box -/
def Spec.Represents (s : HasColliders F64) (c : Collider3D F64) : Prop :=
  if s.hasAdditional then c ∈ s.colliders else ∃ b, s.boundingBox = some b ∧ c = .aabb b

theorem HasColliders.collides_cases {s t : HasColliders F64} {r : Bool} (h : s.collidesWith t = some r) :
    (r = true → ∃ c d, Represents s c ∧ Represents t d ∧ c.collidesWith d = some true) ∧
    (r = false → ∀ c d, Represents s c → Represents t d → c.collidesWith d = some false) := by
  have one : ∀ {d : Collider3D F64} {r : Bool}, s.collidesWithCollider d = some r →
      (r = true → ∃ c, Represents s c ∧ c.collidesWith d = some true) ∧
      (r = false → ∀ c, Represents s c → c.collidesWith d = some false) := by
    intro d r h
    unfold HasColliders.collidesWithCollider at h
    unfold Represents
    cases hh : s.hasAdditional with
    | true =>
      rw [hh] at h
      obtain ⟨h1, h2⟩ := any_foldlM_some (fun c : Collider3D F64 => c.collidesWith d) _ _ _ (by simpa using h)
      exact ⟨fun hr => by simpa using h1 hr, fun hr => by simpa using (h2 hr).2⟩
    | false =>
      rw [hh] at h
      cases hb : s.boundingBox with
      | none => rw [hb] at h; cases h
      | some b =>
        rw [hb] at h
        have h' : (Collider3D.aabb b).collidesWith d = some r := by simpa using h
        exact ⟨fun hr => ⟨_, by simp, hr ▸ h'⟩, fun hr => by simpa using hr ▸ h'⟩
  unfold HasColliders.collidesWith at h
  cases hh : t.hasAdditional with
  | true =>
    rw [hh] at h
    obtain ⟨h1, h2⟩ := any_foldlM_some (fun c => s.collidesWithCollider c) _ _ _ (by simpa using h)
    constructor
    · intro hr
      obtain ⟨d, hd, e⟩ := (h1 hr).resolve_left (by simp)
      obtain ⟨c, hc, e'⟩ := (one e).1 rfl
      exact ⟨c, d, hc, by simpa [Represents, hh] using hd, e'⟩
    · intro hr c d hc hd
      exact (one ((h2 hr).2 d (by simpa [Represents, hh] using hd))).2 rfl c hc
  | false =>
    rw [hh] at h
    cases hb : t.boundingBox with
    | none => rw [hb] at h; cases h
    | some b =>
      rw [hb] at h
      have h' : s.collidesWithCollider (Collider3D.aabb b) = some r := by simpa using h
      obtain ⟨h1, h2⟩ := one h'
      constructor
      · intro hr
        obtain ⟨c, hc, e⟩ := h1 hr
        exact ⟨c, _, hc, by simp [Represents, hh, hb], e⟩
      · intro hr c d hc hd
        have : d = .aabb b := by simpa [Represents, hh, hb] using hd
        exact this ▸ h2 hr c hc

/-- C126, doubles: two objects with any number of colliders; if neither call panics they agree -/
theorem c126_objects (s t : HasColliders F64) (r r' : Bool) (h : s.collidesWith t = some r)
    (h' : t.collidesWith s = some r') : r = r' := by
  obtain ⟨h1, h2⟩ := HasColliders.collides_cases h
  obtain ⟨h3, h4⟩ := HasColliders.collides_cases h'
  cases r <;> cases r' <;> try rfl
  · obtain ⟨d, c, hd, hc, e⟩ := h3 rfl
    rw [c126_colliders, h2 rfl c d hc hd] at e
    cases e
  · obtain ⟨c, d, hc, hd, e⟩ := h1 rfl
    rw [c126_colliders, h4 rfl d c hd hc] at e
    cases e

/-- C126, doubles, is violated: the center of two points depends on their order -/
theorem c126_violated_center : ∃ p q : Point3D F64, center3D p q ≠ center3D q p :=
  ⟨⟨F64.ofRat 1, F64.ofRat 0, F64.ofRat 0⟩, ⟨F64.ofRat (2 ^ 53 + 2), F64.ofRat 0, F64.ofRat 0⟩, by decide +kernel⟩

/-- C126, exact arithmetic: the center of two points does not depend on their order -/
theorem c126_center_partial (p q : Point3D ℝ) (p' q' : Point2D ℝ) :
    center3D p q = center3D q p ∧ center2D p' q' = center2D q' p' := by
  constructor
  · simp only [center3D, Real.scalar_lit, Point3D.mk.injEq]
    refine ⟨?_, ?_, ?_⟩ <;> push_cast <;> ring
  · simp only [center2D, Real.scalar_lit, Point2D.mk.injEq]
    refine ⟨?_, ?_⟩ <;> push_cast <;> ring

/-! ### mirrored coordinates -/

/-- a coordinate, mirrored or not -/
def Spec.mirrored {α : Type} [Scalar α] (s : Bool) (a : α) : α := if s then -a else a
/-- a 2D point mirrored in the chosen coordinates -/
def Spec.mirror2 {α : Type} [Scalar α] (sx sy : Bool) (p : Point2D α) : Point2D α := ⟨mirrored sx p.x, mirrored sy p.y⟩
/-- a 3D point mirrored in the chosen coordinates -/
def Spec.mirror3 {α : Type} [Scalar α] (sx sy sz : Bool) (p : Point3D α) : Point3D α := ⟨mirrored sx p.x, mirrored sy p.y, mirrored sz p.z⟩
/-- a mirrored box: mirrored corners, lower and upper bound of a mirrored coordinate swapped -/
def Spec.mirrorBox2 {α : Type} [Scalar α] (sx sy : Bool) (b : BoundingBox2D α) : BoundingBox2D α :=
  ⟨⟨mirrored sx (if sx then b.max.x else b.min.x), mirrored sy (if sy then b.max.y else b.min.y)⟩,
   ⟨mirrored sx (if sx then b.min.x else b.max.x), mirrored sy (if sy then b.min.y else b.max.y)⟩⟩
/-- the same in 3D -/
def Spec.mirrorBox3 {α : Type} [Scalar α] (sx sy sz : Bool) (b : BoundingBox3D α) : BoundingBox3D α :=
  ⟨⟨mirrored sx (if sx then b.max.x else b.min.x), mirrored sy (if sy then b.max.y else b.min.y),
    mirrored sz (if sz then b.max.z else b.min.z)⟩,
   ⟨mirrored sx (if sx then b.min.x else b.max.x), mirrored sy (if sy then b.min.y else b.max.y),
    mirrored sz (if sz then b.min.z else b.max.z)⟩⟩

theorem flip_sq_sub (s : Bool) (a b : F64) : Scalar.sq (mirrored s a - mirrored s b) = Scalar.sq (a - b) := by
  cases s
  · rfl
  · show Scalar.sq (-a - -b) = _
    rw [neg_sub_neg']; exact sq_sub_comm _ _

theorem flip_mul (s : Bool) (a b : F64) : mirrored s a * mirrored s b = a * b := by
  cases s
  · rfl
  · exact neg_mul_neg_eq a b

/-- C126, doubles, also infinite and nan: mirrored points have the same distance, length and scalar product -/
theorem c126_mirror_points (sx sy sz : Bool) (p q : Point3D F64) (p' q' : Point2D F64) :
    (mirror3 sx sy sz p).dist (mirror3 sx sy sz q) = p.dist q ∧
    (mirror3 sx sy sz p).dot (mirror3 sx sy sz q) = p.dot q ∧ (mirror3 sx sy sz p).abs = p.abs ∧
    (mirror2 sx sy p').dist (mirror2 sx sy q') = p'.dist q' ∧
    (mirror2 sx sy p').dot (mirror2 sx sy q') = p'.dot q' ∧ (mirror2 sx sy p').abs = p'.abs := by
  refine ⟨?_, ?_, ?_, ?_, ?_, ?_⟩
  · simp only [Point3D.dist, Point3D.sqrDist, mirror3, flip_sq_sub]
  · simp only [Point3D.dot, mirror3, flip_mul]
  · simp only [Point3D.abs, Scalar.sq, mirror3, flip_mul]
  · simp only [Point2D.dist, Point2D.sqrDist, mirror2, flip_sq_sub]
  · simp only [Point2D.dot, mirror2, flip_mul]
  · simp only [Point2D.abs, Scalar.sq, mirror2, flip_mul]

/-- C126, doubles: a mirrored path has the same length -/
theorem c126_mirror_length (sx sy sz : Bool) (pc : List (Point3D F64)) (pc' : List (Point2D F64)) :
    PointCloud3D.length ⟨pc.map (mirror3 sx sy sz)⟩ = PointCloud3D.length ⟨pc⟩ ∧
    PointCloud2D.length ⟨pc'.map (mirror2 sx sy)⟩ = PointCloud2D.length ⟨pc'⟩ := by
  have d3 : ∀ p q, (mirror3 sx sy sz p).dist (mirror3 sx sy sz q) = p.dist q := fun p q =>
    (c126_mirror_points sx sy sz p q ⟨p.x, p.x⟩ ⟨p.x, p.x⟩).1
  have d2 : ∀ p q, (mirror2 sx sy p).dist (mirror2 sx sy q) = p.dist q := fun p q =>
    (c126_mirror_points sx sy sz ⟨p.x, p.x, p.x⟩ ⟨p.x, p.x, p.x⟩ p q).2.2.2.1
  have l3 : ∀ (l : List (Point3D F64)) (acc : F64),
      PointCloud3D.lengthLoop acc (l.map (mirror3 sx sy sz)) = PointCloud3D.lengthLoop acc l := by
    intro l
    induction l with
    | nil => intro acc; rfl
    | cons a l ih =>
      intro acc
      cases l with
      | nil => rfl
      | cons b l =>
        show PointCloud3D.lengthLoop (acc + (mirror3 sx sy sz b).dist (mirror3 sx sy sz a)) _ = _
        rw [d3]; exact ih _
  have l2 : ∀ (l : List (Point2D F64)) (acc : F64),
      PointCloud2D.lengthLoop acc (l.map (mirror2 sx sy)) = PointCloud2D.lengthLoop acc l := by
    intro l
    induction l with
    | nil => intro acc; rfl
    | cons a l ih =>
      intro acc
      cases l with
      | nil => rfl
      | cons b l =>
        show PointCloud2D.lengthLoop (acc + (mirror2 sx sy b).dist (mirror2 sx sy a)) _ = _
        rw [d2]; exact ih _
  constructor
  · simp only [PointCloud3D.length, PointCloud.len, List.length_map, l3]
  · simp only [PointCloud2D.length, PointCloud.len, List.length_map, l2]

/-- C126, doubles, also infinite and nan: a mirrored box contains the mirrored points and boxes -/
theorem c126_mirror_contains (sx sy sz : Bool) (a b : BoundingBox3D F64) (p : Point3D F64) (a' b' : BoundingBox2D F64)
    (p' : Point2D F64) :
    (mirrorBox3 sx sy sz a).contains (mirror3 sx sy sz p) = a.contains p ∧
    (mirrorBox3 sx sy sz a).hasInside (mirrorBox3 sx sy sz b) = a.hasInside b ∧
    (mirrorBox3 sx sy sz a).isInside (mirrorBox3 sx sy sz b) = a.isInside b ∧
    (mirrorBox2 sx sy a').contains (mirror2 sx sy p') = a'.contains p' ∧
    (mirrorBox2 sx sy a').hasInside (mirrorBox2 sx sy b') = a'.hasInside b' ∧
    (mirrorBox2 sx sy a').isInside (mirrorBox2 sx sy b') = a'.isInside b' := by
  refine ⟨?_, ?_, ?_, ?_, ?_, ?_⟩
  · unfold BoundingBox3D.contains
    cases sx <;> cases sy <;> cases sz <;> simp only [mirrorBox3, mirror3, mirrored, if_true, if_false, Bool.false_eq_true, lt_neg_neg] <;>
      rw [Bool.eq_iff_iff] <;> simp only [Bool.and_eq_true] <;> tauto
  · unfold BoundingBox3D.hasInside
    cases sx <;> cases sy <;> cases sz <;> simp only [mirrorBox3, mirrored, if_true, if_false, Bool.false_eq_true, lt_neg_neg] <;>
      rw [Bool.eq_iff_iff] <;> simp only [Bool.and_eq_true] <;> tauto
  · unfold BoundingBox3D.isInside
    cases sx <;> cases sy <;> cases sz <;> simp only [mirrorBox3, mirrored, if_true, if_false, Bool.false_eq_true, lt_neg_neg] <;>
      rw [Bool.eq_iff_iff] <;> simp only [Bool.and_eq_true] <;> tauto
  · unfold BoundingBox2D.contains
    cases sx <;> cases sy <;> simp only [mirrorBox2, mirror2, mirrored, if_true, if_false, Bool.false_eq_true, lt_neg_neg] <;>
      rw [Bool.eq_iff_iff] <;> simp only [Bool.and_eq_true] <;> tauto
  · unfold BoundingBox2D.hasInside
    cases sx <;> cases sy <;> simp only [mirrorBox2, mirrored, if_true, if_false, Bool.false_eq_true, lt_neg_neg] <;>
      rw [Bool.eq_iff_iff] <;> simp only [Bool.and_eq_true] <;> tauto
  · unfold BoundingBox2D.isInside
    cases sx <;> cases sy <;> simp only [mirrorBox2, mirrored, if_true, if_false, Bool.false_eq_true, lt_neg_neg] <;>
      rw [Bool.eq_iff_iff] <;> simp only [Bool.and_eq_true] <;> tauto

theorem flip_gap (s : Bool) (lo hi p : F64) (h1 : IsFin lo) (h2 : IsFin hi) (h3 : IsFin p) :
    max3 (mirrored s (if s then hi else lo) - mirrored s p) zero (mirrored s p - mirrored s (if s then lo else hi)) *
      max3 (mirrored s (if s then hi else lo) - mirrored s p) zero (mirrored s p - mirrored s (if s then lo else hi)) =
    max3 (lo - p) zero (p - hi) * max3 (lo - p) zero (p - hi) := by
  cases s
  · rfl
  · simp only [mirrored, if_true]
    rw [neg_sub_neg', neg_sub_neg']
    exact max3_swap (ok_sub_fin h3 h2) (ok_sub_fin h1 h3)

/-- C126, finite doubles: a mirrored point has the same squared distance from a mirrored box -/
theorem c126_mirror_distance (sx sy sz : Bool) (b : BoundingBox3D F64) (p : Point3D F64) (b' : BoundingBox2D F64)
    (p' : Point2D F64) (hp : p.Num) (hl : b.min.Num) (hh : b.max.Num) (hp' : p'.Num) (hl' : b'.min.Num) (hh' : b'.max.Num) :
    (mirrorBox3 sx sy sz b).sqrDistance (mirror3 sx sy sz p) = b.sqrDistance p ∧
    (mirrorBox2 sx sy b').sqrDistance (mirror2 sx sy p') = b'.sqrDistance p' := by
  constructor
  · unfold BoundingBox3D.sqrDistance
    simp only [mirrorBox3, mirror3]
    rw [flip_gap sx _ _ _ hl.1.1 hh.1.1 hp.1.1, flip_gap sy _ _ _ hl.2.1.1 hh.2.1.1 hp.2.1.1,
      flip_gap sz _ _ _ hl.2.2.1 hh.2.2.1 hp.2.2.1]
  · unfold BoundingBox2D.sqrDistance
    simp only [mirrorBox2, mirror2]
    rw [flip_gap sx _ _ _ hl'.1.1 hh'.1.1 hp'.1.1, flip_gap sy _ _ _ hl'.2.1 hh'.2.1 hp'.2.1]

theorem mirrored_size (s : Bool) (lo hi : ℝ) :
    Scalar.abs (mirrored s (if s then lo else hi) - mirrored s (if s then hi else lo)) = Scalar.abs (hi - lo) := by
  cases s
  · rfl
  · simp only [mirrored, if_true]
    congr 1
    show -lo - -hi = _
    ring

theorem mirrored_mid (s : Bool) (lo hi lo' hi' : ℝ) :
    Scalar.abs (mirrored s (if s then hi else lo) + (mirrored s (if s then lo else hi) - mirrored s (if s then hi else lo)) / lit 2 -
      (mirrored s (if s then hi' else lo') + (mirrored s (if s then lo' else hi') - mirrored s (if s then hi' else lo')) / lit 2)) =
    Scalar.abs (lo + (hi - lo) / lit 2 - (lo' + (hi' - lo') / lit 2)) := by
  cases s
  · rfl
  · simp only [mirrored, if_true, Real.scalar_lit, Real.scalar_abs]
    rw [← abs_neg]
    congr 1
    show -(-hi + (-lo - -hi) / _ - (-hi' + (-lo' - -hi') / _)) = _
    push_cast
    ring

/-- C126, exact arithmetic: mirrored boxes collide exactly when the boxes do -/
theorem c126_mirror_collides_partial (sx sy sz : Bool) (a b : BoundingBox3D ℝ) (a' b' : BoundingBox2D ℝ) :
    (mirrorBox3 sx sy sz a).collidesWith (mirrorBox3 sx sy sz b) = a.collidesWith b ∧
    (mirrorBox2 sx sy a').collidesWith (mirrorBox2 sx sy b') = a'.collidesWith b' := by
  constructor
  · have x : ∀ c : BoundingBox3D ℝ, (mirrorBox3 sx sy sz c).sizeX = c.sizeX := fun c =>
      congrArg Positive.new (mirrored_size sx c.min.x c.max.x)
    have y : ∀ c : BoundingBox3D ℝ, (mirrorBox3 sx sy sz c).sizeY = c.sizeY := fun c =>
      congrArg Positive.new (mirrored_size sy c.min.y c.max.y)
    have z : ∀ c : BoundingBox3D ℝ, (mirrorBox3 sx sy sz c).sizeZ = c.sizeZ := fun c =>
      congrArg Positive.new (mirrored_size sz c.min.z c.max.z)
    unfold BoundingBox3D.collidesWith
    rw [x a, x b, y a, y b, z a, z b]
    have cx : Scalar.abs ((mirrorBox3 sx sy sz a).centerBB.x - (mirrorBox3 sx sy sz b).centerBB.x) =
        Scalar.abs (a.centerBB.x - b.centerBB.x) := mirrored_mid sx _ _ _ _
    have cy : Scalar.abs ((mirrorBox3 sx sy sz a).centerBB.y - (mirrorBox3 sx sy sz b).centerBB.y) =
        Scalar.abs (a.centerBB.y - b.centerBB.y) := mirrored_mid sy _ _ _ _
    have cz : Scalar.abs ((mirrorBox3 sx sy sz a).centerBB.z - (mirrorBox3 sx sy sz b).centerBB.z) =
        Scalar.abs (a.centerBB.z - b.centerBB.z) := mirrored_mid sz _ _ _ _
    rw [cx, cy, cz]
  · have x : ∀ c : BoundingBox2D ℝ, (mirrorBox2 sx sy c).sizeX = c.sizeX := fun c =>
      congrArg Positive.new (mirrored_size sx c.min.x c.max.x)
    have y : ∀ c : BoundingBox2D ℝ, (mirrorBox2 sx sy c).sizeY = c.sizeY := fun c =>
      congrArg Positive.new (mirrored_size sy c.min.y c.max.y)
    unfold BoundingBox2D.collidesWith
    rw [x a', x b', y a', y b']
    have cx : Scalar.abs ((mirrorBox2 sx sy a').centerBB.x - (mirrorBox2 sx sy b').centerBB.x) =
        Scalar.abs (a'.centerBB.x - b'.centerBB.x) := mirrored_mid sx _ _ _ _
    have cy : Scalar.abs ((mirrorBox2 sx sy a').centerBB.y - (mirrorBox2 sx sy b').centerBB.y) =
        Scalar.abs (a'.centerBB.y - b'.centerBB.y) := mirrored_mid sy _ _ _ _
    rw [cx, cy]

/-- C126, doubles, is violated: two boxes collide, their mirror images do not (the center is computed from the
lower corner) -/
theorem c126_violated_mirror : ∃ a b : BoundingBox2D F64, BoundingBox2D.new a.min a.max = .ok a ∧
    BoundingBox2D.new b.min b.max = .ok b ∧ a.collidesWith b = some true ∧
    (mirrorBox2 true false a).collidesWith (mirrorBox2 true false b) = some false :=
  ⟨⟨⟨F64.ofRat 1, F64.ofRat 0⟩, ⟨F64.ofRat (2 ^ 53 + 2), F64.ofRat 1⟩⟩,
   ⟨⟨F64.ofRat (-3 / 2), F64.ofRat 0⟩, ⟨F64.ofRat (3 / 2), F64.ofRat 1⟩⟩, by decide +kernel⟩

/-- C126: an infinite point at an infinite side panics, its mirror image does not -/
theorem c126_violated_infinite : ∃ (b : BoundingBox2D F64) (p : Point2D F64), BoundingBox2D.new b.min b.max = .ok b ∧
    b.sqrDistance p = none ∧ (mirrorBox2 true false b).sqrDistance (mirror2 true false p) = some ⟨F64.ofRat 0⟩ :=
  ⟨⟨⟨F64.ofRat 0, F64.ofRat 0⟩, ⟨.inf false, F64.ofRat 1⟩⟩, ⟨.inf false, F64.ofRat (1 / 2)⟩, by decide +kernel⟩

example : BoundingBox3D.new (⟨F64.ofRat 0, F64.ofRat 0, F64.ofRat 0⟩ : Point3D F64) ⟨F64.ofRat 1, F64.ofRat 1, F64.ofRat 1⟩ =
    .ok ⟨⟨F64.ofRat 0, F64.ofRat 0, F64.ofRat 0⟩, ⟨F64.ofRat 1, F64.ofRat 1, F64.ofRat 1⟩⟩ := by decide +kernel
example : BoundingBox2D.new (⟨F64.ofRat 0, F64.ofRat 0⟩ : Point2D F64) ⟨F64.ofRat 1, F64.ofRat 1⟩ =
    .ok ⟨⟨F64.ofRat 0, F64.ofRat 0⟩, ⟨F64.ofRat 1, F64.ofRat 1⟩⟩ := by decide +kernel
example : ∃ (b : BoundingBox3D F64) (p : Point3D F64) (b' : BoundingBox2D F64) (p' : Point2D F64),
    p.Num ∧ b.min.Num ∧ b.max.Num ∧ p'.Num ∧ b'.min.Num ∧ b'.max.Num ∧ p ≠ b.min := by
  have h : F64.Num (.fin true 3) := ⟨⟨_, _, rfl⟩, num_three.1.2⟩
  have k := num_three.1
  exact ⟨⟨⟨_, _, _⟩, ⟨_, _, _⟩⟩, ⟨_, _, _⟩, ⟨⟨_, _⟩, ⟨_, _⟩⟩, ⟨_, _⟩, ⟨k, h, k⟩, ⟨h, h, h⟩, ⟨k, k, k⟩, ⟨h, k⟩, ⟨h, h⟩,
    ⟨k, k⟩, by decide +kernel⟩
example : ∃ s t : HasColliders F64, s.collidesWith t = some true ∧ t.collidesWith s = some true :=
  ⟨⟨some ⟨⟨F64.ofRat 0, F64.ofRat 0, F64.ofRat 0⟩, ⟨F64.ofRat 2, F64.ofRat 2, F64.ofRat 2⟩⟩, false, []⟩,
   ⟨some ⟨⟨F64.ofRat 1, F64.ofRat 1, F64.ofRat 1⟩, ⟨F64.ofRat 3, F64.ofRat 3, F64.ofRat 3⟩⟩, false, []⟩, by decide +kernel⟩

end R3D

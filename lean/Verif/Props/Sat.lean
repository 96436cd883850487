import Verif.Model.Intersect
import Verif.Props.RayTriangle
import Verif.Props.BoundingBoxReal
import Mathlib.Analysis.Convex.Hull
/-!
C49: the separating axis test and the colliders.
-/
namespace R3D
open Scalar Spec LawfulScalar

/-- scalar product -/
noncomputable def Spec.dot3 (p q : Point3D ℝ) : ℝ := ∑ d, at3 p d * at3 q d

/-- every point of `A` lies strictly before every point of `B` along the axis -/
def Spec.Before (A B : List (Point3D ℝ)) (axis : Point3D ℝ) : Prop :=
  ∀ p ∈ A, ∀ q ∈ B, dot3 p axis < dot3 q axis

/-- the solid spanned by points -/
def Spec.solid (pts : List (Point3D ℝ)) : Set (Fin 3 → ℝ) := convexHull ℝ {x | ∃ p ∈ pts, x = at3 p}

theorem Point3D.dot_spec (p q : Point3D ℝ) : p.dot q = dot3 p q := by
  simp [Point3D.dot, dot3, Fin.sum_univ_three]

theorem Sat.range_real (axis : Point3D ℝ) (pts : List (Point3D ℝ)) (h : pts ≠ []) :
    ∃ m M, Sat.range axis pts = (some m, some M) ∧ (∃ p ∈ pts, m = dot3 p axis) ∧ (∃ p ∈ pts, M = dot3 p axis) ∧
      ∀ p ∈ pts, m ≤ dot3 p axis ∧ dot3 p axis ≤ M := by
  induction pts using List.reverseRecOn with
  | nil => exact absurd rfl h
  | append_singleton l x ih =>
    unfold Sat.range at ih ⊢
    rw [List.foldl_append]
    simp only [List.foldl_cons, List.foldl_nil]
    by_cases hl : l = []
    · subst hl
      exact ⟨dot3 x axis, dot3 x axis, by simp [Sat.step, Point3D.dot_spec], by simp, by simp, by simp⟩
    · obtain ⟨m, M, e, ⟨p, hp, hm⟩, ⟨q, hq, hM⟩, hall⟩ := ih hl
      rw [e]
      refine ⟨if dot3 x axis < m then dot3 x axis else m, if M < dot3 x axis then dot3 x axis else M, ?_, ?_, ?_, ?_⟩
      · simp only [Sat.step, Point3D.dot_spec, Real.scalar_lt, decide_eq_true_eq]
        split_ifs <;> rfl
      · split_ifs
        · exact ⟨x, by simp, rfl⟩
        · exact ⟨p, by simp [hp], hm⟩
      · split_ifs
        · exact ⟨x, by simp, rfl⟩
        · exact ⟨q, by simp [hq], hM⟩
      · intro r hr
        rcases List.mem_append.1 hr with hr | hr
        · have := hall r hr
          split_ifs <;> constructor <;> linarith
        · rw [List.mem_singleton] at hr
          subst hr
          split_ifs <;> constructor <;> linarith

theorem Sat.onAxis_real (A B : List (Point3D ℝ)) (hA : A ≠ []) (hB : B ≠ []) (o : Bool) (axis : Point3D ℝ) :
    Sat.onAxis A B o axis = true ↔ o = true ∧ ¬Before A B axis ∧ ¬Before B A axis := by
  obtain ⟨m, M, e, ⟨p, hp, rfl⟩, ⟨q, hq, rfl⟩, hall⟩ := Sat.range_real axis A hA
  obtain ⟨m', M', e', ⟨p', hp', rfl⟩, ⟨q', hq', rfl⟩, hall'⟩ := Sat.range_real axis B hB
  have h1 : Before A B axis ↔ dot3 q axis < dot3 p' axis := by
    constructor
    · intro h; exact h q hq p' hp'
    · intro h r hr s hs
      exact ((hall r hr).2.trans_lt h).trans_le (hall' s hs).1
  have h2 : Before B A axis ↔ dot3 q' axis < dot3 p axis := by
    constructor
    · intro h; exact h q' hq' p hp
    · intro h r hr s hs
      exact ((hall' r hr).2.trans_lt h).trans_le (hall s hs).1
  rw [h1, h2]
  unfold Sat.onAxis
  rw [e, e']
  simp only [Real.scalar_lt, Bool.or_eq_true, decide_eq_true_eq]
  cases o
  · simp
  · simp only [if_true, true_and]
    split_ifs with hc
    · simp only [Bool.false_eq_true, false_iff]
      tauto
    · simp only [true_iff]
      tauto

theorem Sat.foldl_real (A B : List (Point3D ℝ)) (hA : A ≠ []) (hB : B ≠ []) (axes : List (Point3D ℝ)) (o : Bool) :
    axes.foldl (Sat.onAxis A B) o = true ↔ o = true ∧ ∀ ax ∈ axes, ¬Before A B ax ∧ ¬Before B A ax := by
  induction axes generalizing o with
  | nil => simp
  | cons x l ih =>
    rw [List.foldl_cons, ih, Sat.onAxis_real A B hA hB]
    simp only [List.mem_cons, forall_eq_or_imp]
    tauto

/-- C49, exact arithmetic: the test reports a collision exactly when none of the axes of the two objects
strictly separates their points. -/
theorem c49_sat_iff (A axesA B axesB : List (Point3D ℝ)) (hA : A ≠ []) (hB : B ≠ []) :
    Sat.collide A axesA B axesB = true ↔ ∀ ax ∈ axesA ++ axesB, ¬Before A B ax ∧ ¬Before B A ax := by
  unfold Sat.collide
  rw [Sat.foldl_real A B hA hB, Sat.foldl_real A B hA hB]
  simp only [true_and, List.mem_append]
  constructor
  · rintro ⟨h1, h2⟩ ax (h | h)
    · exact h1 ax h
    · exact h2 ax h
  · intro h
    exact ⟨fun ax hx => h ax (.inl hx), fun ax hx => h ax (.inr hx)⟩

theorem solid_le (pts : List (Point3D ℝ)) (ax : Point3D ℝ) (c : ℝ) (h : ∀ p ∈ pts, dot3 p ax ≤ c) (x : Fin 3 → ℝ)
    (hx : x ∈ solid pts) : ∑ d, x d * at3 ax d ≤ c := by
  have hconv : Convex ℝ {x : Fin 3 → ℝ | ∑ d, x d * at3 ax d ≤ c} := by
    intro u hu v hv a b ha hb hab
    simp only [Set.mem_ofPred_eq, Fin.sum_univ_three, Pi.add_apply, Pi.smul_apply, smul_eq_mul] at hu hv ⊢
    have h1 := mul_le_mul_of_nonneg_left hu ha
    have h2 := mul_le_mul_of_nonneg_left hv hb
    have h3 : a * c + b * c = c := by rw [← add_mul, hab, one_mul]
    linarith
  have hsub : {x | ∃ p ∈ pts, x = at3 p} ⊆ {x : Fin 3 → ℝ | ∑ d, x d * at3 ax d ≤ c} := by
    rintro y ⟨p, hp, rfl⟩
    exact h p hp
  exact convexHull_min hsub hconv hx

theorem solid_not_before (A B : List (Point3D ℝ)) (ax : Point3D ℝ) (hA : A ≠ []) (hB : B ≠ []) (x : Fin 3 → ℝ)
    (h1 : x ∈ solid A) (h2 : x ∈ solid B) : ¬Before A B ax := by
  intro h
  obtain ⟨m, M, -, -, ⟨q, hq, rfl⟩, hall⟩ := Sat.range_real ax A hA
  obtain ⟨m', M', -, ⟨p', hp', rfl⟩, -, hall'⟩ := Sat.range_real ax B hB
  have u1 := solid_le A ax _ (fun p hp => (hall p hp).2) x h1
  have u2 := solid_le B ⟨-ax.x, -ax.y, -ax.z⟩ (-dot3 p' ax) (fun p hp => by
    have := (hall' p hp).1
    simp only [dot3, Fin.sum_univ_three, at3_zero, at3_one, at3_two] at this ⊢
    linarith) x h2
  have hlt := h q hq p' hp'
  simp only [Fin.sum_univ_three, at3_zero, at3_one, at3_two] at u1 u2
  linarith

theorem solid_nonempty {A : List (Point3D ℝ)} {x : Fin 3 → ℝ} (h : x ∈ solid A) : A ≠ [] := by
  rintro rfl
  simp [solid] at h

/-- C49, exact arithmetic: whatever the axes, if the solids spanned by the points share a point, a collision
is reported. -/
theorem c49_no_false_negative (A axesA B axesB : List (Point3D ℝ)) (x : Fin 3 → ℝ)
    (h1 : x ∈ solid A) (h2 : x ∈ solid B) : Sat.collide A axesA B axesB = true := by
  rw [c49_sat_iff A axesA B axesB (solid_nonempty h1) (solid_nonempty h2)]
  exact fun ax _ => ⟨solid_not_before A B ax (solid_nonempty h1) (solid_nonempty h2) x h1 h2,
    solid_not_before B A ax (solid_nonempty h2) (solid_nonempty h1) x h2 h1⟩

theorem Norm3D.newOrZ_total (p : Point3D ℝ) : ∃ n, Norm3D.newOrZ p = some n := by
  rw [Norm3D.newOrZ_real]; split_ifs <;> exact ⟨_, rfl⟩

/-- no panic: every collider enumerates at least one point -/
theorem Collider3D.satObject_total (c : Collider3D ℝ) : ∃ pts axes, c.satObject = some (pts, axes) ∧ pts ≠ [] := by
  cases c with
  | aabb b => exact ⟨_, _, rfl, by simp [BoundingBox3D.satPoints]⟩
  | box3 b =>
    obtain ⟨n, hn⟩ := Norm3D.newOrZ_total (b.zDir.cross b.yDir)
    simp [satObject, BoxUnaligned3D.satPoints, BoxUnaligned3D.satAxes, BoxUnaligned3D.dX, BoxUnaligned3D.xDir, hn]
  | face f =>
    obtain ⟨n, hn⟩ := Norm3D.newOrZ_total ((conn f.a f.b).cross (conn f.b f.c))
    obtain ⟨e1, h1⟩ := Norm3D.newOrZ_total (n.cross (conn f.a f.b))
    obtain ⟨e2, h2⟩ := Norm3D.newOrZ_total (n.cross (conn f.b f.c))
    obtain ⟨e3, h3⟩ := Norm3D.newOrZ_total (n.cross (conn f.c f.a))
    simp [satObject, TriFace3D.satAxes, TriFace3D.satPoints, hn, h1, h2, h3]

/-- the points a collider enumerates span its solid -/
def Spec.ColliderPoints (c : Collider3D ℝ) (pts : List (Point3D ℝ)) : Prop := ∃ axes, c.satObject = some (pts, axes)

/-- both are axis aligned boxes -/
def Spec.BothAabb : Collider3D ℝ → Collider3D ℝ → Prop
  | .aabb _, .aabb _ => True
  | _, _ => False

theorem Collider3D.sat_symm (a b : Collider3D ℝ) : Collider3D.sat a b = Collider3D.sat b a := by
  obtain ⟨pa, xa, ha, na⟩ := a.satObject_total
  obtain ⟨pb, xb, hb, nb⟩ := b.satObject_total
  simp only [Collider3D.sat, ha, hb, Option.bind_eq_bind, Option.bind_some, Option.pure_def, Option.some.injEq]
  rw [Bool.eq_iff_iff, c49_sat_iff pa xa pb xb na nb, c49_sat_iff pb xb pa xa nb na]
  simp only [List.mem_append]
  constructor <;> intro h ax hx <;> exact (h ax hx.symm).symm

theorem Collider3D.collidesWith_sat (a b : Collider3D ℝ) (h : ¬BothAabb a b) :
    a.collidesWith b = Collider3D.sat a b := by
  cases a <;> cases b <;> first | rfl | exact absurd trivial h | exact Collider3D.sat_symm _ _

/-- C49, exact arithmetic: colliders never panic, the test is symmetric, and whenever the solids spanned by the
points of two colliders share a point a collision is reported, unless both are axis aligned boxes. Two
axis aligned boxes collide exactly when their interiors share a point. -/
theorem c49_colliders (a b : Collider3D ℝ) :
    (¬BothAabb a b → ∃ r, a.collidesWith b = some r ∧ b.collidesWith a = some r ∧
      ∀ pa pb, ColliderPoints a pa → ColliderPoints b pb → (∃ x, x ∈ solid pa ∧ x ∈ solid pb) → r = true) ∧
    ∀ ba bb, a = .aabb ba → b = .aabb bb → (box3 ba).Valid → (box3 bb).Valid →
      ∃ r, a.collidesWith b = some r ∧ (r = true ↔ ∃ p, (box3 ba).MemInt p ∧ (box3 bb).MemInt p) := by
  constructor
  · intro h
    have h' : ¬BothAabb b a := by cases a <;> cases b <;> simp_all [BothAabb]
    obtain ⟨pa, xa, ha, na⟩ := a.satObject_total
    obtain ⟨pb, xb, hb, nb⟩ := b.satObject_total
    have e : Collider3D.sat a b = some (Sat.collide pa xa pb xb) := by
      simp [Collider3D.sat, ha, hb]
    refine ⟨Sat.collide pa xa pb xb, ?_, ?_, ?_⟩
    · rw [Collider3D.collidesWith_sat a b h, e]
    · rw [Collider3D.collidesWith_sat b a h', Collider3D.sat_symm, e]
    · rintro pa' pb' ⟨xa', ha'⟩ ⟨xb', hb'⟩ ⟨x, h1, h2⟩
      rw [ha] at ha'; cases ha'
      rw [hb] at hb'; cases hb'
      exact c49_no_false_negative _ _ _ _ x h1 h2
  · rintro ba bb rfl rfl hva hvb
    exact c18_collides_3d ba bb hva hvb

/-- a unit box and a triangle through its centre share a point -/
example : ∃ (b : BoundingBox3D ℝ) (t : TriFace3D ℝ), b = ⟨⟨0, 0, 0⟩, ⟨1, 1, 1⟩⟩ ∧ t = ⟨⟨1/2, 1/2, 1/2⟩, ⟨3, 4, 5⟩, ⟨7, 9, 8⟩⟩ ∧
    TriFace3D.new t.a t.b t.c = .ok t ∧ ∃ x, x ∈ solid b.satPoints ∧ x ∈ solid t.satPoints := by
  refine ⟨_, _, rfl, rfl, ?_, at3 ⟨1/2, 1/2, 1/2⟩, ?_, ?_⟩
  · simp [TriFace3D.new, BoundingBox3D.fromIterator, BoundingBox3D.step, BoundingBox3D.new]
    norm_num
  · have h0 : at3 (⟨0, 0, 0⟩ : Point3D ℝ) ∈ solid (BoundingBox3D.satPoints ⟨⟨0, 0, 0⟩, ⟨1, 1, 1⟩⟩) :=
      subset_convexHull ℝ _ ⟨_, by simp [BoundingBox3D.satPoints], rfl⟩
    have h1 : at3 (⟨1, 1, 1⟩ : Point3D ℝ) ∈ solid (BoundingBox3D.satPoints ⟨⟨0, 0, 0⟩, ⟨1, 1, 1⟩⟩) :=
      subset_convexHull ℝ _ ⟨_, by simp [BoundingBox3D.satPoints], rfl⟩
    have hc : Convex ℝ (solid (BoundingBox3D.satPoints (⟨⟨0, 0, 0⟩, ⟨1, 1, 1⟩⟩ : BoundingBox3D ℝ))) := convex_convexHull ℝ _
    have := hc h0 h1 (show (0:ℝ) ≤ 1/2 by norm_num) (show (0:ℝ) ≤ 1/2 by norm_num) (by norm_num)
    convert this using 1
    funext d
    revert d
    rw [forall_fin3]
    simp
  · exact subset_convexHull ℝ _ ⟨_, by simp [TriFace3D.satPoints], rfl⟩

/-- C49, false positives: the box `[0,2]³` and a triangle are reported as colliding, although the plane
`10 y + z = 24` separates them: the test has no axis for pairs of edges. -/
theorem c49_false_positive : ∃ (b : BoundingBox3D F64) (t : TriFace3D F64),
    b = ⟨⟨.ofRat 0, .ofRat 0, .ofRat 0⟩, ⟨.ofRat 2, .ofRat 2, .ofRat 2⟩⟩ ∧
    t = ⟨⟨.ofRat (-4), .ofRat 3, .ofRat (-4)⟩, ⟨.ofRat 0, .ofRat 5, .ofRat 5⟩, ⟨.ofRat 5, .ofRat 2, .ofRat 6⟩⟩ ∧
    (Collider3D.aabb b).collidesWith (.face t) = some true ∧
    (∀ p ∈ b.satPoints, (.ofRat 10 * p.y + p.z <. (.ofRat 24 : F64)) = true) ∧
    ∀ p ∈ t.satPoints, ((.ofRat 24 : F64) <. .ofRat 10 * p.y + p.z) = true := by
  refine ⟨_, _, rfl, rfl, ?_, ?_, ?_⟩ <;> decide +kernel

/-- two axis aligned boxes that touch in a face are not reported, against the documentation of a collision
by a common point -/
theorem c49_touching : ∃ a b : BoundingBox3D F64,
    a = ⟨⟨.ofRat 0, .ofRat 0, .ofRat 0⟩, ⟨.ofRat 2, .ofRat 2, .ofRat 2⟩⟩ ∧
    b = ⟨⟨.ofRat 2, .ofRat 0, .ofRat 0⟩, ⟨.ofRat 3, .ofRat 2, .ofRat 2⟩⟩ ∧
    (Collider3D.aabb a).collidesWith (.aabb b) = some false ∧
    Sat.collide a.satPoints a.satAxes b.satPoints b.satAxes = true := by
  refine ⟨_, _, rfl, rfl, ?_, ?_⟩ <;> decide +kernel

/-! ### objects with several colliders -/

/-- the colliders that stand for an object: its own ones, or its bounding box -/
def Spec.StandsFor (s : HasColliders ℝ) (c : Collider3D ℝ) : Prop :=
  if s.hasAdditional then c ∈ s.colliders else ∃ b, s.boundingBox = some b ∧ c = .aabb b

theorem any_foldlM {β : Type} (g : β → Panics Bool) (l : List β) (h : ∀ x ∈ l, ∃ r, g x = some r) (o : Bool) :
    ∃ r, l.foldlM (fun result c => if !result then g c else some result) o = some r ∧
      (r = true ↔ o = true ∨ ∃ x ∈ l, g x = some true) := by
  induction l generalizing o with
  | nil => exact ⟨o, rfl, by simp⟩
  | cons x l ih =>
    obtain ⟨rx, hx⟩ := h x (by simp)
    obtain ⟨r, h1, h2⟩ := ih (fun y hy => h y (by simp [hy])) (if o then o else rx)
    refine ⟨r, ?_, ?_⟩
    · rw [List.foldlM_cons]
      cases o
      · simpa [hx] using h1
      · simpa using h1
    · rw [h2]
      cases o
      · simp [hx]
      · simp

theorem collider_total (a b : Collider3D ℝ)
    (ha : ∀ x, a = .aabb x → (box3 x).Valid) (hb : ∀ x, b = .aabb x → (box3 x).Valid) : ∃ r, a.collidesWith b = some r := by
  by_cases h : BothAabb a b
  · cases a with
    | aabb x =>
      cases b with
      | aabb y =>
        obtain ⟨r, hr, -⟩ := c18_collides_3d x y (ha x rfl) (hb y rfl)
        exact ⟨r, hr⟩
      | box3 _ => exact absurd h (by simp [BothAabb])
      | face _ => exact absurd h (by simp [BothAabb])
    | box3 _ => exact absurd h (by simp [BothAabb])
    | face _ => exact absurd h (by simp [BothAabb])
  · obtain ⟨r, hr, -⟩ := (c49_colliders a b).1 h
    exact ⟨r, hr⟩

/-- C49, exact arithmetic: two objects collide exactly when some collider standing for the one collides
with some collider standing for the other; no panic as long as their boxes exist and are ordered. -/
theorem c49_objects (s t : HasColliders ℝ)
    (hs : ∃ b, s.boundingBox = some b ∧ (box3 b).Valid) (ht : ∃ b, t.boundingBox = some b ∧ (box3 b).Valid)
    (hcs : ∀ x, .aabb x ∈ s.colliders → (box3 x).Valid) (hct : ∀ x, .aabb x ∈ t.colliders → (box3 x).Valid) :
    ∃ r, s.collidesWith t = some r ∧
      (r = true ↔ ∃ c d, StandsFor s c ∧ StandsFor t d ∧ c.collidesWith d = some true) := by
  obtain ⟨bs, es, vs⟩ := hs
  obtain ⟨bt, et, vt⟩ := ht
  have one : ∀ d : Collider3D ℝ, (∀ x, d = .aabb x → (box3 x).Valid) → ∃ r, s.collidesWithCollider d = some r ∧
      (r = true ↔ ∃ c, StandsFor s c ∧ c.collidesWith d = some true) := by
    intro d hd
    unfold HasColliders.collidesWithCollider StandsFor
    cases hh : s.hasAdditional with
    | true =>
      obtain ⟨r, h1, h2⟩ := any_foldlM (fun c => c.collidesWith d) s.colliders
        (fun c hc => collider_total c d (fun x e => hcs x (e ▸ hc)) hd) false
      exact ⟨r, by simpa using h1, by simpa using h2⟩
    | false =>
      obtain ⟨r, hr⟩ := collider_total (Collider3D.aabb bs) d (fun x e => by cases e; exact vs) hd
      refine ⟨r, by simpa [es] using hr, ?_⟩
      simp only [es]
      constructor
      · rintro rfl
        exact ⟨_, ⟨bs, rfl, rfl⟩, hr⟩
      · rintro ⟨c, ⟨b, hb, rfl⟩, hc⟩
        cases hb
        rw [hr] at hc
        cases hc
        rfl
  unfold HasColliders.collidesWith
  cases hh : t.hasAdditional with
  | true =>
    have hval : ∀ d ∈ t.colliders, ∀ x, d = .aabb x → (box3 x).Valid := fun d hd x e => hct x (e ▸ hd)
    obtain ⟨r, h1, h2⟩ := any_foldlM (fun c => s.collidesWithCollider c) t.colliders
      (fun d hd => by obtain ⟨r, hr, -⟩ := one d (hval d hd); exact ⟨r, hr⟩) false
    refine ⟨r, by simpa using h1, ?_⟩
    rw [h2]
    simp only [Bool.false_eq_true, false_or]
    constructor
    · rintro ⟨d, hd, h⟩
      obtain ⟨r', h1', h2'⟩ := one d (hval d hd)
      rw [h] at h1'
      cases h1'
      obtain ⟨c, hc, hcc⟩ := h2'.1 rfl
      exact ⟨c, d, hc, by simpa [StandsFor, hh] using hd, hcc⟩
    · rintro ⟨c, d, hc, hd, hcc⟩
      have hd' : d ∈ t.colliders := by simpa [StandsFor, hh] using hd
      obtain ⟨r', h1', h2'⟩ := one d (hval d hd')
      refine ⟨d, hd', ?_⟩
      rw [h1', h2'.2 ⟨c, hc, hcc⟩]
  | false =>
    obtain ⟨r, h1, h2⟩ := one (.aabb bt) (fun x e => by cases e; exact vt)
    refine ⟨r, by simpa [et] using h1, ?_⟩
    rw [h2]
    constructor
    · rintro ⟨c, hc, hcc⟩
      exact ⟨c, _, hc, by simp [StandsFor, hh, et], hcc⟩
    · rintro ⟨c, d, hc, hd, hcc⟩
      simp [StandsFor, hh, et] at hd
      subst hd
      exact ⟨c, hc, hcc⟩

/-- an object with a triangle collider and one without additional colliders -/
example : ∃ s t : HasColliders ℝ, s = ⟨some ⟨⟨0, 0, 0⟩, ⟨1, 1, 1⟩⟩, true, [.face ⟨⟨0, 0, 0⟩, ⟨1, 0, 1⟩, ⟨0, 1, 0⟩⟩]⟩ ∧
    t = ⟨some ⟨⟨0, 0, 0⟩, ⟨2, 3, 4⟩⟩, false, []⟩ ∧
    (∃ b, s.boundingBox = some b ∧ (box3 b).Valid) ∧ (∃ b, t.boundingBox = some b ∧ (box3 b).Valid) ∧
    (∀ x, .aabb x ∈ s.colliders → (box3 x).Valid) ∧ ∀ x, .aabb x ∈ t.colliders → (box3 x).Valid := by
  refine ⟨_, _, rfl, rfl, ⟨_, rfl, ?_⟩, ⟨_, rfl, ?_⟩, by simp, by simp⟩ <;> rw [valid_real_3d] <;> norm_num

end R3D

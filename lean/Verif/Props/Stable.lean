import Verif.Props.CloudGeometry
import Verif.Props.KdTree
import Verif.Props.Bezier
import Verif.Lemmas.Triangle
/-!
C142 small changes of the input have small effects: when every point moves by at most `ε`, boxes, centers of gravity,
distances, lengths, searches and Bezier curves change by a known multiple of `ε` (exact arithmetic). Scaling does not have
this property, see `c142_violated_scale`.
-/
namespace R3D
open Scalar LawfulScalar Spec

/-- the distance of two vectors -/
noncomputable def Spec.eucl {n : ℕ} (u v : Fin n → ℝ) : ℝ := √(Spec.sqrDist u v)

/-- the same number of points, each one within `ε` of its counterpart -/
def Spec.Near2 (ε : ℝ) (l l' : List (Point2D ℝ)) : Prop := List.Forall₂ (fun p q => eucl (at2 p) (at2 q) ≤ ε) l l'
def Spec.Near3 (ε : ℝ) (l l' : List (Point3D ℝ)) : Prop := List.Forall₂ (fun p q => eucl (at3 p) (at3 q) ≤ ε) l l'

theorem eucl_dist {n : ℕ} (a b : Fin n → ℝ) :
    eucl a b = dist (WithLp.toLp 2 a : EuclideanSpace ℝ (Fin n)) (WithLp.toLp 2 b) := by
  rw [eucl, EuclideanSpace.dist_eq]
  simp [Spec.sqrDist, Real.dist_eq, sq_abs]

theorem eucl_comm {n : ℕ} (a b : Fin n → ℝ) : eucl a b = eucl b a := by rw [eucl_dist, eucl_dist, dist_comm]

theorem eucl_tri4 {n : ℕ} (p q P Q : Fin n → ℝ) : |eucl p q - eucl P Q| ≤ eucl p P + eucl q Q := by
  simp only [eucl_dist]
  generalize (WithLp.toLp 2 p : EuclideanSpace ℝ (Fin n)) = a
  generalize (WithLp.toLp 2 q : EuclideanSpace ℝ (Fin n)) = b
  generalize (WithLp.toLp 2 P : EuclideanSpace ℝ (Fin n)) = A
  generalize (WithLp.toLp 2 Q : EuclideanSpace ℝ (Fin n)) = B
  have h1 := dist_triangle4 a A B b
  have h2 := dist_triangle4 A a b B
  rw [dist_comm B b] at h1
  rw [dist_comm A a] at h2
  rw [abs_le]; constructor <;> linarith

theorem eucl_add {n : ℕ} (a b s t : Fin n → ℝ) : eucl (fun d => a d + s d) (fun d => b d + t d) ≤ eucl a b + eucl s t := by
  simp only [eucl_dist]
  exact dist_add_add_le (WithLp.toLp 2 a : EuclideanSpace ℝ (Fin n)) (WithLp.toLp 2 s) (WithLp.toLp 2 b) (WithLp.toLp 2 t)

theorem eucl_smul {n : ℕ} (a b : Fin n → ℝ) (k : ℝ) (hk : 0 ≤ k) :
    eucl (fun d => k * a d) (fun d => k * b d) = k * eucl a b := by
  have : Spec.sqrDist (fun d => k * a d) (fun d => k * b d) = k ^ 2 * Spec.sqrDist a b := by
    simp only [Spec.sqrDist, Finset.mul_sum]
    exact Finset.sum_congr rfl fun d _ => by ring
  rw [eucl, this, Real.sqrt_mul (sq_nonneg _), Real.sqrt_sq hk, eucl]

theorem eucl_coord {n : ℕ} (a b : Fin n → ℝ) (d : Fin n) : |a d - b d| ≤ eucl a b := by
  rw [eucl, ← Real.sqrt_sq_eq_abs]
  exact Real.sqrt_le_sqrt (Finset.single_le_sum (f := fun d => (a d - b d) ^ 2) (fun i _ => sq_nonneg _) (Finset.mem_univ d))

theorem eucl_self {n : ℕ} (a : Fin n → ℝ) : eucl a a = 0 := by rw [eucl_dist, dist_self]

theorem eucl_nonneg {n : ℕ} (a b : Fin n → ℝ) : 0 ≤ eucl a b := Real.sqrt_nonneg _

/-! ### distances -/

/-- **C142** a distance changes by at most as much as both ends together (exact arithmetic). -/
theorem c142_dist :
    (∀ p q p' q' : Point2D ℝ, |p.dist q - p'.dist q'| ≤ eucl (at2 p) (at2 p') + eucl (at2 q) (at2 q')) ∧
    ∀ p q p' q' : Point3D ℝ, |p.dist q - p'.dist q'| ≤ eucl (at3 p) (at3 p') + eucl (at3 q) (at3 q') := by
  constructor
  · intro p q p' q'
    have e : ∀ p q : Point2D ℝ, p.dist q = eucl (at2 p) (at2 q) := fun p q => by
      rw [Point2D.dist_segLen, eucl_comm]; rfl
    rw [e, e]
    exact eucl_tri4 _ _ _ _
  · intro p q p' q'
    have e : ∀ p q : Point3D ℝ, p.dist q = eucl (at3 p) (at3 q) := fun p q => by
      rw [Point3D.dist_segLen, eucl_comm]; rfl
    rw [e, e]
    exact eucl_tri4 _ _ _ _

/-! ### bounding boxes -/

theorem near_mem {β : Type} {R : β → β → Prop} {l l' : List β} (h : List.Forall₂ R l l') :
    (∀ p ∈ l, ∃ q ∈ l', R p q) ∧ ∀ q ∈ l', ∃ p ∈ l, R p q := by
  induction h with
  | nil => simp
  | cons h _ ih =>
    simp only [List.mem_cons, exists_eq_or_imp, forall_eq_or_imp]
    exact ⟨⟨.inl h, fun p hp => .inr (ih.1 p hp)⟩, .inl h, fun q hq => .inr (ih.2 q hq)⟩

/-- **C142** no side of the bounding box moves by more than `ε` (exact arithmetic). -/
theorem c142_box_2d (ε : ℝ) (l l' : List (Point2D ℝ)) (h : Near2 ε l l') (b b' : BoundingBox2D ℝ)
    (hb : PointCloud2D.boundingBoxMaybe ⟨l⟩ = some b) (hb' : PointCloud2D.boundingBoxMaybe ⟨l'⟩ = some b') :
    ∀ d, |at2 b.min d - at2 b'.min d| ≤ ε ∧ |at2 b.max d - at2 b'.max d| ≤ ε := by
  rw [bbm_real_2d] at hb hb'
  obtain ⟨-, i, t⟩ := hb
  obtain ⟨-, i', t'⟩ := hb'
  obtain ⟨m, m'⟩ := near_mem h
  intro d
  obtain ⟨⟨p, hp, ep⟩, q, hq, eq⟩ := t d
  obtain ⟨⟨p', hp', ep'⟩, q', hq', eq'⟩ := t' d
  obtain ⟨x, hx, ex⟩ := m p hp
  obtain ⟨y, hy, ey⟩ := m q hq
  obtain ⟨x', hx', ex'⟩ := m' p' hp'
  obtain ⟨y', hy', ey'⟩ := m' q' hq'
  have c1 := abs_le.1 ((eucl_coord _ _ d).trans ex)
  have c2 := abs_le.1 ((eucl_coord _ _ d).trans ey)
  have c3 := abs_le.1 ((eucl_coord _ _ d).trans ex')
  have c4 := abs_le.1 ((eucl_coord _ _ d).trans ey')
  have i1 := i' x hx d
  have i2 := i' y hy d
  have i3 := i x' hx' d
  have i4 := i y' hy' d
  rw [abs_le, abs_le]
  refine ⟨⟨?_, ?_⟩, ?_, ?_⟩ <;> linarith [c1.1, c1.2, c2.1, c2.2, c3.1, c3.2, c4.1, c4.2, i1.1, i2.2, i3.1, i4.2]

/-- **C142** the same in space (exact arithmetic). -/
theorem c142_box_3d (ε : ℝ) (l l' : List (Point3D ℝ)) (h : Near3 ε l l') (b b' : BoundingBox3D ℝ)
    (hb : PointCloud3D.boundingBoxMaybe ⟨l⟩ = some b) (hb' : PointCloud3D.boundingBoxMaybe ⟨l'⟩ = some b') :
    ∀ d, |at3 b.min d - at3 b'.min d| ≤ ε ∧ |at3 b.max d - at3 b'.max d| ≤ ε := by
  rw [bbm_real_3d] at hb hb'
  obtain ⟨-, i, t⟩ := hb
  obtain ⟨-, i', t'⟩ := hb'
  obtain ⟨m, m'⟩ := near_mem h
  intro d
  obtain ⟨⟨p, hp, ep⟩, q, hq, eq⟩ := t d
  obtain ⟨⟨p', hp', ep'⟩, q', hq', eq'⟩ := t' d
  obtain ⟨x, hx, ex⟩ := m p hp
  obtain ⟨y, hy, ey⟩ := m q hq
  obtain ⟨x', hx', ex'⟩ := m' p' hp'
  obtain ⟨y', hy', ey'⟩ := m' q' hq'
  have c1 := abs_le.1 ((eucl_coord _ _ d).trans ex)
  have c2 := abs_le.1 ((eucl_coord _ _ d).trans ey)
  have c3 := abs_le.1 ((eucl_coord _ _ d).trans ex')
  have c4 := abs_le.1 ((eucl_coord _ _ d).trans ey')
  have i1 := i' x hx d
  have i2 := i' y hy d
  have i3 := i x' hx' d
  have i4 := i y' hy' d
  rw [abs_le, abs_le]
  refine ⟨⟨?_, ?_⟩, ?_, ?_⟩ <;> linarith [c1.1, c1.2, c2.1, c2.2, c3.1, c3.2, c4.1, c4.2, i1.1, i2.2, i3.1, i4.2]

/-! ### centers of gravity -/

theorem near_sum {β : Type} {n : ℕ} (g : β → Fin n → ℝ) {ε : ℝ} {l l' : List β}
    (h : List.Forall₂ (fun p q => eucl (g p) (g q) ≤ ε) l l') :
    eucl (fun d => (l.map fun p => g p d).sum) (fun d => (l'.map fun p => g p d).sum) ≤ l.length * ε := by
  induction h with
  | nil => simp [eucl_self]
  | @cons p q l l' h _ ih =>
    simp only [List.map_cons, List.sum_cons, List.length_cons]
    refine (eucl_add _ _ _ _).trans ?_
    push_cast
    linarith

theorem near_mean {β : Type} {n : ℕ} (g : β → Fin n → ℝ) {ε : ℝ} {l l' : List β}
    (h : List.Forall₂ (fun p q => eucl (g p) (g q) ≤ ε) l l') (hl : l ≠ []) :
    eucl (fun d => (l.map fun p => g p d).sum / l.length) (fun d => (l'.map fun p => g p d).sum / l'.length) ≤ ε := by
  have hpos : (0 : ℝ) < l.length := by exact_mod_cast List.length_pos_iff.2 hl
  rw [← h.length_eq]
  have e := eucl_smul (fun d => (l.map fun p => g p d).sum) (fun d => (l'.map fun p => g p d).sum) (l.length : ℝ)⁻¹
    (inv_nonneg.2 hpos.le)
  simp only [← div_eq_inv_mul] at e
  rw [e, div_le_iff₀ hpos, mul_comm ε]
  exact near_sum g h

/-- **C142** the center of gravity moves by at most `ε`, however many points there are (exact arithmetic). -/
theorem c142_center (ε : ℝ) :
    (∀ (l l' : List (Point2D ℝ)), Near2 ε l l' → l ≠ [] → ∃ c c', PointCloud2D.centerOfGravity ⟨l⟩ = some c ∧
      PointCloud2D.centerOfGravity ⟨l'⟩ = some c' ∧ eucl (at2 c) (at2 c') ≤ ε) ∧
    ∀ (l l' : List (Point3D ℝ)), Near3 ε l l' → l ≠ [] → ∃ c c', PointCloud3D.centerOfGravity ⟨l⟩ = some c ∧
      PointCloud3D.centerOfGravity ⟨l'⟩ = some c' ∧ eucl (at3 c) (at3 c') ≤ ε := by
  constructor
  · intro l l' h hl
    have hl' : l' ≠ [] := fun e => hl (List.length_eq_zero_iff.1 (by rw [h.length_eq, e]; rfl))
    obtain ⟨c, e, hc⟩ := (c76_center_of_gravity_2d l).2 hl
    obtain ⟨c', e', hc'⟩ := (c76_center_of_gravity_2d l').2 hl'
    refine ⟨c, c', e, e', ?_⟩
    rw [show at2 c = _ from funext hc, show at2 c' = _ from funext hc']
    exact near_mean at2 h hl
  · intro l l' h hl
    have hl' : l' ≠ [] := fun e => hl (List.length_eq_zero_iff.1 (by rw [h.length_eq, e]; rfl))
    obtain ⟨c, e, hc⟩ := (c76_center_of_gravity_3d l).2 hl
    obtain ⟨c', e', hc'⟩ := (c76_center_of_gravity_3d l').2 hl'
    refine ⟨c, c', e, e', ?_⟩
    rw [show at3 c = _ from funext hc, show at3 c' = _ from funext hc']
    exact near_mean at3 h hl

/-! ### lengths -/

theorem near_pairSum {β : Type} {n : ℕ} (g : β → Fin n → ℝ) {ε : ℝ} {l l' : List β}
    (h : List.Forall₂ (fun p q => eucl (g p) (g q) ≤ ε) l l') :
    |pairSum (fun a b => eucl (g a) (g b)) l - pairSum (fun a b => eucl (g a) (g b)) l'| ≤ 2 * ε * (l.length - 1 : ℕ) := by
  induction h with
  | nil => simp [pairSum]
  | @cons p q l l' h1 h2 ih =>
    cases h2 with
    | nil => simp [pairSum]
    | @cons p2 q2 l l' h3 h4 =>
      simp only [pairSum, List.length_cons, Nat.add_sub_cancel] at ih ⊢
      have t := eucl_tri4 (g p) (g p2) (g q) (g q2)
      rw [abs_le] at ih t ⊢
      push_cast
      constructor <;> nlinarith [ih.1, ih.2, t.1, t.2]

/-- **C142** the length of a line of `n` points changes by at most `2ε` for each of its `n - 1` segments (exact
arithmetic). -/
theorem c142_length (ε : ℝ) :
    (∀ l l' : List (Point2D ℝ), Near2 ε l l' →
      |PointCloud2D.length ⟨l⟩ - PointCloud2D.length ⟨l'⟩| ≤ 2 * ε * (l.length - 1 : ℕ)) ∧
    ∀ l l' : List (Point3D ℝ), Near3 ε l l' →
      |PointCloud3D.length ⟨l⟩ - PointCloud3D.length ⟨l'⟩| ≤ 2 * ε * (l.length - 1 : ℕ) := by
  constructor
  · intro l l' h
    rw [cloud_length_2d, cloud_length_2d]
    exact near_pairSum at2 h
  · intro l l' h
    rw [cloud_length_3d, cloud_length_3d]
    exact near_pairSum at3 h

/-! ### searches -/

/-- **C142** when the points of a tree move by at most `ε` and the search point by at most `δ`, the distance to the
nearest point changes by at most `ε + δ`, whichever points are found (exact arithmetic). -/
theorem c142_nearest {P : Type} (pos pos' : P → Point3D ℝ) (pts : List P) (t t' : KdTree P) (ht : KdTree.Built pos pts t)
    (ht' : KdTree.Built pos' pts t') (ε δ : ℝ) (hp : ∀ x ∈ pts, eucl (at3 (pos x)) (at3 (pos' x)) ≤ ε) (q q' : Point3D ℝ)
    (hq : eucl (at3 q) (at3 q') ≤ δ) :
    ∃ b b', t.nearest pos q = some (some b) ∧ t'.nearest pos' q' = some (some b') ∧
      |q.dist (pos b) - q'.dist (pos' b')| ≤ ε + δ := by
  obtain ⟨b, hb, e, m⟩ := KdTree.c25_nearest pos pts t ht q
  obtain ⟨b', hb', e', m'⟩ := KdTree.c25_nearest pos' pts t' ht' q'
  refine ⟨b, b', e, e', ?_⟩
  have de : ∀ p q : Point3D ℝ, p.dist q = eucl (at3 p) (at3 q) := fun p q => by
    rw [Point3D.dist_segLen, eucl_comm]; rfl
  have h1 := Real.sqrt_le_sqrt (m b' hb')
  have h2 := Real.sqrt_le_sqrt (m' b hb)
  have t1 := abs_le.1 (c142_dist.2 q (pos b') q' (pos' b'))
  have t2 := abs_le.1 (c142_dist.2 q (pos b) q' (pos' b))
  have p1 := hp b hb
  have p2 := hp b' hb'
  change eucl _ _ ≤ eucl _ _ at h1 h2
  rw [← de, ← de] at h1 h2
  rw [abs_le]
  constructor <;> linarith [t1.1, t1.2, t2.1, t2.2]

/-- **C142** a point found within a sphere is still found after everything moved a little when the radius is larger by as
much: by the change of the points and that of the center (exact arithmetic). -/
theorem c142_in_sphere {P : Type} (pos pos' : P → Point3D ℝ) (pts : List P) (t t' : KdTree P) (ht : KdTree.Built pos pts t)
    (ht' : KdTree.Built pos' pts t') (ε δ : ℝ) (hp : ∀ x ∈ pts, eucl (at3 (pos x)) (at3 (pos' x)) ≤ ε) (s s' : Sphere ℝ)
    (hs : 0 < s.radius.val) (hr : s.radius.val + ε + δ ≤ s'.radius.val) (hs' : 0 < s'.radius.val)
    (hc : eucl (at3 s.center) (at3 s'.center) ≤ δ) (x : P) (hx : x ∈ t.inSphere pos s []) : x ∈ t'.inSphere pos' s' [] := by
  classical
  obtain ⟨r, e, hr1⟩ := KdTree.c27_in_sphere pos pts t ht s hs []
  obtain ⟨r', e', hr2⟩ := KdTree.c27_in_sphere pos' pts t' ht' s' hs' []
  have f1 := hr1 (fun x => decide (Spec.sqrDist (at3 s.center) (at3 (pos x)) ≤ s.radius.val ^ 2)) (by simp)
  have f2 := hr2 (fun x => decide (Spec.sqrDist (at3 s'.center) (at3 (pos' x)) ≤ s'.radius.val ^ 2)) (by simp)
  rw [e, List.nil_append, f1.mem_iff, List.mem_filter, decide_eq_true_eq] at hx
  rw [e', List.nil_append, f2.mem_iff, List.mem_filter, decide_eq_true_eq]
  refine ⟨hx.1, ?_⟩
  have h1 : eucl (at3 s.center) (at3 (pos x)) ≤ s.radius.val := Real.sqrt_le_iff.2 ⟨hs.le, hx.2⟩
  have t := abs_le.1 (eucl_tri4 (at3 s.center) (at3 (pos x)) (at3 s'.center) (at3 (pos' x)))
  have := hp x hx.1
  have h2 : eucl (at3 s'.center) (at3 (pos' x)) ≤ s'.radius.val := by linarith [t.1]
  exact (Real.sqrt_le_iff.1 h2).2

/-- **C142** the same for boxes, whose sizes have to be larger by twice as much (exact arithmetic). -/
theorem c142_in_box {P : Type} (pos pos' : P → Point3D ℝ) (pts : List P) (t t' : KdTree P) (ht : KdTree.Built pos pts t)
    (ht' : KdTree.Built pos' pts t') (ε δ : ℝ) (hp : ∀ x ∈ pts, eucl (at3 (pos x)) (at3 (pos' x)) ≤ ε) (b b' : Box3D ℝ)
    (hs : b.sizeX.val + 2 * (ε + δ) ≤ b'.sizeX.val ∧ b.sizeY.val + 2 * (ε + δ) ≤ b'.sizeY.val ∧
      b.sizeZ.val + 2 * (ε + δ) ≤ b'.sizeZ.val)
    (hc : eucl (at3 b.center) (at3 b'.center) ≤ δ) (x : P) (hx : x ∈ t.inBox pos b []) : x ∈ t'.inBox pos' b' [] := by
  classical
  let S := fun b : Box3D ℝ => ![b.sizeX.val, b.sizeY.val, b.sizeZ.val]
  obtain ⟨r, e, hr1⟩ := KdTree.c27_in_box pos pts t ht b []
  obtain ⟨r', e', hr2⟩ := KdTree.c27_in_box pos' pts t' ht' b' []
  have f1 := hr1 (fun x => decide (∀ d : Fin 3, at3 b.center d - S b d / 2 ≤ at3 (pos x) d ∧
    at3 (pos x) d ≤ at3 b.center d + S b d / 2)) (fun x => by rw [decide_eq_true_eq])
  have f2 := hr2 (fun x => decide (∀ d : Fin 3, at3 b'.center d - S b' d / 2 ≤ at3 (pos' x) d ∧
    at3 (pos' x) d ≤ at3 b'.center d + S b' d / 2)) (fun x => by rw [decide_eq_true_eq])
  rw [e, List.nil_append, f1.mem_iff, List.mem_filter, decide_eq_true_eq] at hx
  rw [e', List.nil_append, f2.mem_iff, List.mem_filter, decide_eq_true_eq]
  refine ⟨hx.1, fun d => ?_⟩
  have hS : ∀ d, S b d + 2 * (ε + δ) ≤ S b' d := by rw [forall_fin3]; exact hs
  have c1 := abs_le.1 ((eucl_coord _ _ d).trans (hp x hx.1))
  have c2 := abs_le.1 ((eucl_coord _ _ d).trans hc)
  have i := hx.2 d
  have := hS d
  constructor <;> linarith [c1.1, c1.2, c2.1, c2.2, i.1, i.2]

/-! ### Bezier curves -/

theorem eucl_weighted {n m : ℕ} (w : Fin m → ℝ) (hw : ∀ k, 0 ≤ w k) (u v : Fin m → Fin n → ℝ) (ε : ℝ)
    (h : ∀ k, eucl (u k) (v k) ≤ ε) : eucl (fun d => ∑ k, w k * u k d) (fun d => ∑ k, w k * v k d) ≤ (∑ k, w k) * ε := by
  induction m with
  | zero => simp [eucl_self]
  | succ m ih =>
    simp only [Fin.sum_univ_succ]
    refine (eucl_add _ _ _ _).trans ?_
    rw [eucl_smul _ _ _ (hw 0), add_mul]
    exact add_le_add (mul_le_mul_of_nonneg_left (h 0) (hw 0))
      (ih (fun k => w k.succ) (fun k => hw _) (fun k => u k.succ) (fun k => v k.succ) fun k => h _)

/-- **C142** (partial: up to 21 control points, more are answered with a panic, see C45) when the control points of a Bezier
curve move by at most `ε`, so do the points of the curve (exact arithmetic). -/
theorem c142_bezier_partial (ε : ℝ) (base base' : List (Point2D ℝ)) (h : Near2 ε base base') (h2 : 2 ≤ base.length)
    (h21 : base.length ≤ 21) (n : Nat) :
    ∃ pts pts', interpolateBezier base n = some (.ok pts) ∧ interpolateBezier base' n = some (.ok pts') ∧ Near2 ε pts pts' := by
  have hlen := h.length_eq
  obtain ⟨pts, e1, l1, -, w1⟩ := c45_bezier_partial base h2 h21 n
  obtain ⟨pts', e2, l2, -, w2⟩ := c45_bezier_partial base' (by omega) (by omega) n
  refine ⟨pts, pts', e1, e2, List.forall₂_iff_get.2 ⟨by omega, fun i hi hi' => ?_⟩⟩
  obtain ⟨w, w0, ws, hx, hy, hw⟩ := w1 i pts[i] (List.getElem?_eq_getElem hi)
  obtain ⟨w', -, -, hx', hy', hw'⟩ := w2 i pts'[i] (List.getElem?_eq_getElem hi')
  have tr : ∀ g : Point2D ℝ → ℝ, ∑ k, w' k * g base'[k] = ∑ k : Fin base.length, w k * g (base'[k.1]'(by omega)) := fun g => by
    rw [← Equiv.sum_comp (finCongr hlen) (fun k => w' k * g base'[k])]
    refine Finset.sum_congr rfl fun k _ => ?_
    have ew : w' (finCongr hlen k) = w k := by
      rw [hw, hw']
      simp [hlen]
    rw [ew]
    rfl
  rw [tr Point2D.x] at hx'
  rw [tr Point2D.y] at hy'
  have key := eucl_weighted w w0 (fun k => at2 base[k]) (fun k => at2 (base'[k.1]'(by omega))) ε
    (fun k => (List.forall₂_iff_get.1 h).2 k.1 k.2 (by omega))
  rw [ws, one_mul] at key
  have a1 : at2 pts[i] = fun d => ∑ k, w k * at2 base[k] d := by
    funext d; revert d; rw [Fin.forall_fin_two]; exact ⟨hx, hy⟩
  have a2 : at2 pts'[i] = fun d => ∑ k : Fin base.length, w k * at2 (base'[k.1]'(by omega)) d := by
    funext d; revert d; rw [Fin.forall_fin_two]; exact ⟨hx', hy'⟩
  change eucl (at2 pts[i]) (at2 pts'[i]) ≤ ε
  rw [a1, a2]
  exact key

/-! ### scaling jumps -/

theorem eucl2_le {p q : Point2D ℝ} {ε : ℝ} (hx : p.x = q.x) (hy : |p.y - q.y| ≤ ε) : eucl (at2 p) (at2 q) ≤ ε := by
  rw [eucl]
  refine Real.sqrt_le_iff.2 ⟨(abs_nonneg _).trans hy, ?_⟩
  simp only [Spec.sqrDist, Fin.sum_univ_two, at2_zero, at2_one, hx, sub_self]
  have := abs_le.1 hy
  nlinarith

/-- **C142 violated** for every `ε`, however small, there are two lines within `ε` of each other that are more than 0.4 apart
after both were scaled by 2: the horizontal one has no bounding box and is not scaled. -/
theorem c142_violated_scale (ε : ℝ) (hε : 0 < ε) : ∃ l l' : List (Point2D ℝ), Near2 ε l l' ∧
    ¬ Near2 (2 / 5) (PointCloud2D.scale ⟨l⟩ ⟨2⟩).data (PointCloud2D.scale ⟨l'⟩ ⟨2⟩).data := by
  refine ⟨[⟨0, 0⟩, ⟨1, 0⟩], [⟨0, 0⟩, ⟨1, ε⟩], .cons ?_ (.cons ?_ .nil), fun h => ?_⟩
  · rw [eucl_self]; exact hε.le
  · exact eucl2_le rfl (by simp [abs_of_pos hε])
  have b1 : PointCloud2D.boundingBoxMaybe (⟨[⟨0, 0⟩, ⟨1, 0⟩]⟩ : PointCloud (Point2D ℝ)) = none := by
    rw [Option.eq_none_iff_forall_ne_some]
    intro b hb
    rw [bbm_real_2d] at hb
    obtain ⟨h1, -, h3⟩ := hb
    have hy := h1 1
    obtain ⟨⟨p, hp, ep⟩, q, hq, eq⟩ := h3 1
    simp only [List.mem_cons, List.not_mem_nil, or_false] at hp hq
    rcases hp with rfl | rfl <;> rcases hq with rfl | rfl <;> simp only [at2_one] at hy ep eq <;> linarith
  have b2 : PointCloud2D.boundingBoxMaybe (⟨[⟨0, 0⟩, ⟨1, ε⟩]⟩ : PointCloud (Point2D ℝ)) = some ⟨⟨0, 0⟩, ⟨1, ε⟩⟩ := by
    rw [bbm_real_2d]
    simp [IsBB2, hε, hε.le]
  rw [c76_scale_flat_2d _ _ b1] at h
  simp only [PointCloud2D.scale, b2, List.map_cons] at h
  cases h with
  | cons h _ =>
    have := (eucl_coord _ _ 0).trans h
    rw [increase_at_2d] at this
    simp only [at2_zero, BoundingBox2D.centerBB, Real.scalar_lit] at this
    norm_num [abs_of_pos] at this

/-- the hypotheses are met: two lines within 1/10, with bounding boxes -/
example : Near2 (1 / 10) [⟨0, 0⟩, ⟨1, 1⟩] [⟨0, 1 / 10⟩, ⟨1, 1⟩] ∧
    PointCloud2D.boundingBoxMaybe (⟨[⟨0, 0⟩, ⟨1, 1⟩]⟩ : PointCloud (Point2D ℝ)) = some ⟨⟨0, 0⟩, ⟨1, 1⟩⟩ ∧
    PointCloud2D.boundingBoxMaybe (⟨[⟨0, 1 / 10⟩, ⟨1, 1⟩]⟩ : PointCloud (Point2D ℝ)) = some ⟨⟨0, 1 / 10⟩, ⟨1, 1⟩⟩ := by
  refine ⟨.cons (eucl2_le rfl ?_) (.cons (eucl2_le rfl ?_) .nil), ?_, ?_⟩
  · rw [abs_le]; norm_num
  · norm_num
  · rw [bbm_real_2d]; simp [IsBB2]
  · rw [bbm_real_2d]; simp [IsBB2]; norm_num

/-- the hypotheses in space and those of the searches are met -/
example : Near3 (1 / 10) [⟨0, 0, 0⟩, ⟨1, 1, 1⟩] [⟨0, 0, 0⟩, ⟨1, 1, 1⟩] ∧
    PointCloud3D.boundingBoxMaybe (⟨[⟨0, 0, 0⟩, ⟨1, 1, 1⟩]⟩ : PointCloud (Point3D ℝ)) = some ⟨⟨0, 0, 0⟩, ⟨1, 1, 1⟩⟩ ∧
    (∃ t, KdTree.Built id [(⟨0, 0, 0⟩ : Point3D ℝ), ⟨1, 1, 1⟩] t) ∧
    (∃ t, KdTree.Built (fun p : Point3D ℝ => ⟨p.x + 1, p.y, p.z⟩) [(⟨0, 0, 0⟩ : Point3D ℝ), ⟨1, 1, 1⟩] t) ∧
    (∀ p : Point3D ℝ, eucl (at3 p) (at3 (⟨p.x + 1, p.y, p.z⟩ : Point3D ℝ)) ≤ 1) ∧
    (0 : ℝ) < 2 ∧ (2 : ℝ) + 1 + 1 ≤ 5 ∧ (2 : ℝ) + 2 * (1 + 1) ≤ 7 := by
  refine ⟨.cons (by rw [eucl_self]; norm_num) (.cons (by rw [eucl_self]; norm_num) .nil), ?_, ⟨_, rfl⟩, ⟨_, rfl⟩, fun p => ?_, by norm_num, by norm_num, by norm_num⟩
  · rw [bbm_real_3d]; simp [IsBB3, forall_fin3]
  · simp [eucl, Spec.sqrDist, Fin.sum_univ_three]

end R3D

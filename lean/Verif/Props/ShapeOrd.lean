import Verif.Model.ShapeOrd
import Verif.Props.PointOrd
import Verif.Lemmas.F64Dist
/-!
C95: equality, ordering and hashing of circles, spheres and boxes are coherent. Violated; the parts which hold are proved. The ordering
of points of C54 is characterised here as well.
-/
namespace R3D
open Scalar LawfulScalar Spec

namespace Spec
/-- squared distance to the origin as computed: `x² + y²` -/
noncomputable def originKey2 (p : Point2D F64) : EReal := F64.key (p.x * p.x + p.y * p.y)
/-- squared distance to the origin as computed: `x² + y² + z²` -/
noncomputable def originKey3 (p : Point3D F64) : EReal := F64.key (p.x * p.x + p.y * p.y + p.z * p.z)
/-- `cmp` orders by `k` -/
def OrdersBy {T : Type} (cmp : T → T → Ordering) (k : T → EReal) (dom : T → Prop) : Prop :=
  ∀ a b, dom a → dom b → (cmp a b = .lt ↔ k a < k b) ∧ (cmp a b = .eq ↔ k a = k b) ∧ (cmp a b = .gt ↔ k b < k a)
/-- no NaN among the coordinates -/
def NoNan2 (p : Point2D F64) : Prop := p.x ≠ .nan ∧ p.y ≠ .nan
/-- no NaN among the coordinates -/
def NoNan3 (p : Point3D F64) : Prop := p.x ≠ .nan ∧ p.y ≠ .nan ∧ p.z ≠ .nan
end Spec

section
variable {α : Type} [Scalar α] [LawfulScalar α]

theorem partialCmp_swap (x y : α) : partialCmp y x = (partialCmp x y).map Ordering.swap := by
  unfold partialCmp
  have hl := lt_iff x y
  have hr := lt_iff y x
  have he := eq_iff x y
  have he' := eq_iff y x
  by_cases h1 : Scalar.lt x y = true
  · have h2 : ¬ Scalar.lt y x = true := by
      rw [hr]; intro h; exact absurd h.2.2 (hl.1 h1).2.2.not_gt
    have h3 : ¬ Scalar.eq y x = true := by
      rw [he']; intro h; exact absurd h.2.2 (hl.1 h1).2.2.ne'
    simp [h1, h2, h3]
  · by_cases h2 : Scalar.eq x y = true
    · have h3 : Scalar.eq y x = true := by
        rw [he']; have := he.1 h2; exact ⟨this.2.1, this.1, this.2.2.symm⟩
      have h4 : ¬ Scalar.lt y x = true := by
        rw [hr]; intro h; exact absurd h.2.2 (he.1 h2).2.2.not_gt
      simp [h1, h2, h3, h4]
    · have h3 : ¬ Scalar.eq y x = true := by
        rw [he']; intro h; exact h2 (he.2 ⟨h.2.1, h.1, h.2.2.symm⟩)
      by_cases h4 : Scalar.lt y x = true <;> simp [h1, h2, h3, h4]

theorem partialCmp_self (x : α) : partialCmp x x = some .eq ∨ partialCmp x x = none := by
  unfold partialCmp
  have h : ¬ Scalar.lt x x = true := by
    rw [lt_iff]; exact fun h => lt_irrefl _ h.2.2
  by_cases h2 : Scalar.eq x x = true <;> simp [h, h2]

theorem partialCmp_num {x y : α} (hx : ok x) (hy : ok y) : partialCmp x y = some (unwrapEq (partialCmp x y)) := by
  unfold partialCmp
  rcases lt_trichotomy (key x) (key y) with h | h | h
  · have h1 := (lt_of_ok hx hy).2 h
    simp [h1, unwrapEq]
  · have h2 := (eq_of_ok hx hy).2 h
    by_cases h1 : Scalar.lt x y = true <;> simp [h1, h2, unwrapEq]
  · have h3 := (lt_of_ok hy hx).2 h
    by_cases h1 : Scalar.lt x y = true <;> by_cases h2 : Scalar.eq x y = true <;> simp [h1, h2, h3, unwrapEq]

end

theorem unwrapEq_swap (o : Option Ordering) : unwrapEq (o.map Ordering.swap) = (unwrapEq o).swap := by
  cases o <;> rfl

theorem F64.zero_sub_eq {x : F64} (hx : F64.Rep x) : F64.sub (.fin false 0) x = F64.neg x ∨ (∃ s, x = .fin s 0) := by
  cases x with
  | nan => exact .inl rfl
  | inf s => exact .inl rfl
  | fin s m =>
    by_cases h0 : m = 0
    · exact .inr ⟨s, by rw [h0]⟩
    · left
      have hm : 0 < m := lt_of_le_of_ne hx.1 (Ne.symm h0)
      have hr : F64.ofRat (F64.val (!s) m) = .fin (!s) m := by
        unfold F64.ofRat F64.val
        cases s
        · simp [hm, F64.round_exact true (show F64.Rep (.fin true m) from hx)]
        · simp [hm.le.not_gt, F64.round_exact false (show F64.Rep (.fin false m) from hx)]
      have hv : F64.val (!s) m ≠ 0 := by cases s <;> simp [F64.val, h0]
      simp only [F64.sub, F64.neg, F64.add]
      rw [show F64.val false 0 = 0 from rfl, zero_add, if_neg hv, hr]

/-- `(0 - x)² = x²` -/
theorem F64.zero_sub_sqr {x : F64} (hx : F64.Rep x) : ((Scalar.zero : F64) - x) * ((Scalar.zero : F64) - x) = x * x := by
  show F64.mul (F64.sub Scalar.zero x) (F64.sub Scalar.zero x) = F64.mul x x
  rw [F64.zero_eq]
  rcases F64.zero_sub_eq hx with h | ⟨s, rfl⟩
  · rw [h]; cases x <;> simp [F64.neg, F64.mul]
  · cases s <;> decide +kernel

theorem originKey2_eq {p : Point2D F64} (hx : F64.Rep p.x) (hy : F64.Rep p.y) :
    F64.key ((Point2D.default : Point2D F64).sqrDist p) = originKey2 p := by
  simp only [Point2D.sqrDist, Scalar.sq, Point2D.default, originKey2, F64.zero_sub_sqr hx, F64.zero_sub_sqr hy]

theorem originKey3_eq {p : Point3D F64} (hx : F64.Rep p.x) (hy : F64.Rep p.y) (hz : F64.Rep p.z) :
    F64.key ((Point3D.default : Point3D F64).sqrDist p) = originKey3 p := by
  simp only [Point3D.sqrDist, Scalar.sq, Point3D.default, originKey3, F64.zero_sub_sqr hx, F64.zero_sub_sqr hy, F64.zero_sub_sqr hz]

theorem originOk2 {p : Point2D F64} (hx : F64.Rep p.x) (hy : F64.Rep p.y) (h : NoNan2 p) :
    F64.ok ((Point2D.default : Point2D F64).sqrDist p) := by
  simp only [Point2D.sqrDist, Scalar.sq, Point2D.default, F64.zero_sub_sqr hx, F64.zero_sub_sqr hy]
  exact (F64.add_nonNeg (F64.mul_self_nonNeg h.1) (F64.mul_self_nonNeg h.2)).ok

theorem originOk3 {p : Point3D F64} (hx : F64.Rep p.x) (hy : F64.Rep p.y) (hz : F64.Rep p.z) (h : NoNan3 p) :
    F64.ok ((Point3D.default : Point3D F64).sqrDist p) := by
  simp only [Point3D.sqrDist, Scalar.sq, Point3D.default, F64.zero_sub_sqr hx, F64.zero_sub_sqr hy, F64.zero_sub_sqr hz]
  exact (F64.add_nonNeg (F64.add_nonNeg (F64.mul_self_nonNeg h.1) (F64.mul_self_nonNeg h.2.1)) (F64.mul_self_nonNeg h.2.2)).ok

/-- a position of representable numbers without NaN -/
def Spec.Valid2 (p : Point2D F64) : Prop := F64.Rep p.x ∧ F64.Rep p.y ∧ NoNan2 p
/-- a position of representable numbers without NaN -/
def Spec.Valid3 (p : Point3D F64) : Prop := F64.Rep p.x ∧ F64.Rep p.y ∧ F64.Rep p.z ∧ NoNan3 p

/-- a comparison which starts with the distances to the origin -/
theorem ordersBy_2d {T : Type} (cmp : T → T → Ordering) (c : T → Point2D F64)
    (h : ∀ a b o, partialCmp ((Point2D.default : Point2D F64).sqrDist (c a)) ((Point2D.default : Point2D F64).sqrDist (c b)) = some o →
      cmp a b = o) : OrdersBy cmp (fun a => originKey2 (c a)) fun a => Valid2 (c a) := by
  intro a b ha hb
  have oa := originOk2 ha.1 ha.2.1 ha.2.2
  have ob := originOk2 hb.1 hb.2.1 hb.2.2
  rw [h a b _ (partialCmp_num oa ob)]
  simp only [← originKey2_eq ha.1 ha.2.1, ← originKey2_eq hb.1 hb.2.1]
  exact unwrap_ok oa ob

theorem ordersBy_3d {T : Type} (cmp : T → T → Ordering) (c : T → Point3D F64)
    (h : ∀ a b o, partialCmp ((Point3D.default : Point3D F64).sqrDist (c a)) ((Point3D.default : Point3D F64).sqrDist (c b)) = some o →
      cmp a b = o) : OrdersBy cmp (fun a => originKey3 (c a)) fun a => Valid3 (c a) := by
  intro a b ha hb
  have oa := originOk3 ha.1 ha.2.1 ha.2.2.1 ha.2.2.2
  have ob := originOk3 hb.1 hb.2.1 hb.2.2.1 hb.2.2.2
  rw [h a b _ (partialCmp_num oa ob)]
  simp only [← originKey3_eq ha.1 ha.2.1 ha.2.2.1, ← originKey3_eq hb.1 hb.2.1 hb.2.2.1]
  exact unwrap_ok oa ob

/-- **C95** (and C54) points, circles, spheres and boxes without NaN are ordered by the distance of their center to the origin: a total
preorder. -/
theorem c95_order :
    OrdersBy (Point2D.cmp (α := F64)) originKey2 Valid2 ∧ OrdersBy (Point3D.cmp (α := F64)) originKey3 Valid3 ∧
    OrdersBy (Circle.cmp (α := F64)) (fun a => originKey2 a.center) (fun a => Valid2 a.center) ∧
    OrdersBy (Sphere.cmp (α := F64)) (fun a => originKey3 a.center) (fun a => Valid3 a.center) ∧
    OrdersBy (Box2D.cmp (α := F64)) (fun a => originKey2 a.center) (fun a => Valid2 a.center) ∧
    OrdersBy (Box3D.cmp (α := F64)) (fun a => originKey3 a.center) (fun a => Valid3 a.center) := by
  refine ⟨ordersBy_2d _ id fun a b o h => ?_, ordersBy_3d _ id fun a b o h => ?_, ordersBy_2d _ _ fun a b o h => ?_,
    ordersBy_3d _ _ fun a b o h => ?_, ordersBy_2d _ _ fun a b o h => ?_, ordersBy_3d _ _ fun a b o h => ?_⟩
  · simp only [id] at h; rw [Point2D.cmp, h]; rfl
  · simp only [id] at h; rw [Point3D.cmp, h]; rfl
  · rw [Circle.cmp, h]
  · rw [Sphere.cmp, h]
  · rw [Box2D.cmp, h]
  · rw [Box3D.cmp, h]

section
variable {α : Type} [Scalar α] [LawfulScalar α]

/-- **C95** for all numbers, NaN included: a shape compares as `Equal` to itself and swapping the arguments swaps the result -/
theorem c95_swap (p q : Point2D α) (p' q' : Point3D α) (c d : Circle α) (s t : Sphere α) (a b : Box2D α) (a' b' : Box3D α) :
    (p.cmp p = .eq ∧ q.cmp p = (p.cmp q).swap) ∧ (p'.cmp p' = .eq ∧ q'.cmp p' = (p'.cmp q').swap) ∧
    (c.cmp c = .eq ∧ d.cmp c = (c.cmp d).swap) ∧ (s.cmp s = .eq ∧ t.cmp s = (s.cmp t).swap) ∧
    (a.cmp a = .eq ∧ b.cmp a = (a.cmp b).swap) ∧ (a'.cmp a' = .eq ∧ b'.cmp a' = (a'.cmp b').swap) := by
  have two : ∀ (o : Option Ordering) (x y : α), (match o.map Ordering.swap with
      | some r => r | none => unwrapEq (partialCmp y x)) = (match o with | some r => r | none => unwrapEq (partialCmp x y)).swap := by
    intro o x y
    cases o with
    | some r => rfl
    | none => simp only [Option.map_none]; rw [partialCmp_swap x y, unwrapEq_swap]
  refine ⟨⟨?_, ?_⟩, ⟨?_, ?_⟩, ⟨?_, ?_⟩, ⟨?_, ?_⟩, ⟨?_, ?_⟩, ⟨?_, ?_⟩⟩
  · exact unwrap_self _
  · unfold Point2D.cmp; rw [partialCmp_swap, unwrapEq_swap]
  · exact unwrap_self _
  · unfold Point3D.cmp; rw [partialCmp_swap, unwrapEq_swap]
  · unfold Circle.cmp
    rcases partialCmp_self ((Point2D.default : Point2D α).sqrDist c.center) with h | h <;> rw [h]
    exact unwrap_self _
  · unfold Circle.cmp; rw [partialCmp_swap]; exact two _ _ _
  · unfold Sphere.cmp
    rcases partialCmp_self ((Point3D.default : Point3D α).sqrDist s.center) with h | h <;> rw [h]
    exact unwrap_self _
  · unfold Sphere.cmp; rw [partialCmp_swap]; exact two _ _ _
  · unfold Box2D.cmp
    rcases partialCmp_self ((Point2D.default : Point2D α).sqrDist a.center) with h | h <;> rw [h]
    rcases partialCmp_self a.sizeX.val with h | h <;> rw [h]
    exact unwrap_self _
  · unfold Box2D.cmp
    rw [partialCmp_swap]
    cases partialCmp ((Point2D.default : Point2D α).sqrDist a.center) ((Point2D.default : Point2D α).sqrDist b.center) with
    | some r => rfl
    | none =>
      simp only [Option.map_none]
      rw [partialCmp_swap a.sizeX.val]
      exact two _ _ _
  · unfold Box3D.cmp
    rcases partialCmp_self ((Point3D.default : Point3D α).sqrDist a'.center) with h | h <;> rw [h]
    rcases partialCmp_self a'.sizeX.val with h | h <;> rw [h]
    rcases partialCmp_self a'.sizeY.val with h | h <;> rw [h]
    exact unwrap_self _
  · unfold Box3D.cmp
    rw [partialCmp_swap]
    cases partialCmp ((Point3D.default : Point3D α).sqrDist a'.center) ((Point3D.default : Point3D α).sqrDist b'.center) with
    | some r => rfl
    | none =>
      simp only [Option.map_none]
      rw [partialCmp_swap a'.sizeX.val]
      cases partialCmp a'.sizeX.val b'.sizeX.val with
      | some r => rfl
      | none =>
        simp only [Option.map_none]
        rw [partialCmp_swap a'.sizeY.val]
        exact two _ _ _
end

theorem F64.sqr_beq {x y : F64} (hx : F64.Rep x) (hy : F64.Rep y) (h : Scalar.eq x y = true) : x * x = y * y ∧ x ≠ .nan ∧ y ≠ .nan := by
  rcases F64.eq_of_beq hx hy h with rfl | ⟨s, t, rfl, rfl⟩
  · refine ⟨rfl, ?_, ?_⟩ <;> · rintro rfl; exact absurd h (by decide)
  · refine ⟨?_, F64.noConfusion, F64.noConfusion⟩
    cases s <;> cases t <;> decide +kernel

theorem originKey2_beq {p q : Point2D F64} (hp : F64.Rep p.x ∧ F64.Rep p.y) (hq : F64.Rep q.x ∧ F64.Rep q.y) (h : p.beq q = true) :
    originKey2 p = originKey2 q ∧ NoNan2 p ∧ NoNan2 q := by
  simp only [Point2D.beq, Bool.and_eq_true] at h
  obtain ⟨e1, a1, b1⟩ := F64.sqr_beq hp.1 hq.1 h.1
  obtain ⟨e2, a2, b2⟩ := F64.sqr_beq hp.2 hq.2 h.2
  exact ⟨by rw [originKey2, originKey2, e1, e2], ⟨a1, a2⟩, ⟨b1, b2⟩⟩

theorem originKey3_beq {p q : Point3D F64} (hp : F64.Rep p.x ∧ F64.Rep p.y ∧ F64.Rep p.z) (hq : F64.Rep q.x ∧ F64.Rep q.y ∧ F64.Rep q.z)
    (h : p.beq q = true) : originKey3 p = originKey3 q ∧ NoNan3 p ∧ NoNan3 q := by
  simp only [Point3D.beq, Bool.and_eq_true] at h
  obtain ⟨e1, a1, b1⟩ := F64.sqr_beq hp.1 hq.1 h.1.1
  obtain ⟨e2, a2, b2⟩ := F64.sqr_beq hp.2.1 hq.2.1 h.1.2
  obtain ⟨e3, a3, b3⟩ := F64.sqr_beq hp.2.2 hq.2.2 h.2
  exact ⟨by rw [originKey3, originKey3, e1, e2, e3], ⟨a1, a2, a3⟩, ⟨b1, b2, b3⟩⟩

/-- **C95** equal shapes compare as `Equal` -/
theorem c95_equal :
    (∀ a b : Circle F64, F64.Rep a.center.x ∧ F64.Rep a.center.y → F64.Rep b.center.x ∧ F64.Rep b.center.y → a.beq b = true →
      a.cmp b = .eq) ∧
    (∀ a b : Sphere F64, F64.Rep a.center.x ∧ F64.Rep a.center.y ∧ F64.Rep a.center.z →
      F64.Rep b.center.x ∧ F64.Rep b.center.y ∧ F64.Rep b.center.z → a.beq b = true → a.cmp b = .eq) ∧
    (∀ a b : Box2D F64, F64.Rep a.center.x ∧ F64.Rep a.center.y → F64.Rep b.center.x ∧ F64.Rep b.center.y → a.beq b = true →
      a.cmp b = .eq) ∧
    (∀ a b : Box3D F64, F64.Rep a.center.x ∧ F64.Rep a.center.y ∧ F64.Rep a.center.z →
      F64.Rep b.center.x ∧ F64.Rep b.center.y ∧ F64.Rep b.center.z → a.beq b = true → a.cmp b = .eq) := by
  obtain ⟨-, -, o1, o2, o3, o4⟩ := c95_order
  refine ⟨fun a b ha hb h => ?_, fun a b ha hb h => ?_, fun a b ha hb h => ?_, fun a b ha hb h => ?_⟩
  · simp only [Circle.beq, Bool.and_eq_true] at h
    obtain ⟨e, n1, n2⟩ := originKey2_beq ha hb h.1
    exact (o1 a b ⟨ha.1, ha.2, n1⟩ ⟨hb.1, hb.2, n2⟩).2.1.2 e
  · simp only [Sphere.beq, Bool.and_eq_true] at h
    obtain ⟨e, n1, n2⟩ := originKey3_beq ha hb h.1
    exact (o2 a b ⟨ha.1, ha.2.1, ha.2.2, n1⟩ ⟨hb.1, hb.2.1, hb.2.2, n2⟩).2.1.2 e
  · simp only [Box2D.beq, Bool.and_eq_true] at h
    obtain ⟨e, n1, n2⟩ := originKey2_beq ha hb h.1.1
    exact (o3 a b ⟨ha.1, ha.2, n1⟩ ⟨hb.1, hb.2, n2⟩).2.1.2 e
  · simp only [Box3D.beq, Bool.and_eq_true] at h
    obtain ⟨e, n1, n2⟩ := originKey3_beq ha hb h.1.1.1
    exact (o4 a b ⟨ha.1, ha.2.1, ha.2.2, n1⟩ ⟨hb.1, hb.2.1, hb.2.2, n2⟩).2.1.2 e

/-- all numbers are representable and none is zero -/
def Spec.NonZeroWords (l : List F64) : Prop := ∀ x ∈ l, F64.Rep x ∧ ¬ isZero x

theorem F64.eq_of_beq' {x y : F64} (hx : F64.Rep x ∧ ¬ isZero x) (hy : F64.Rep y) (h : Scalar.eq x y = true) : x = y := by
  rcases F64.eq_of_beq hx.1 hy h with e | ⟨s, t, rfl, -⟩
  · exact e
  · exact absurd ⟨by cases s <;> simp [F64.key, F64.val], F64.noConfusion⟩ hx.2

/-- **C95** (partial: missing are shapes with a coordinate 0, see `c95_violated_hash`) equal shapes feed the same words to the hasher -/
theorem c95_hash_partial :
    (∀ a b : Circle F64, NonZeroWords a.hashWords → (∀ x ∈ b.hashWords, F64.Rep x) → a.beq b = true → a.hashWords = b.hashWords) ∧
    (∀ a b : Sphere F64, NonZeroWords a.hashWords → (∀ x ∈ b.hashWords, F64.Rep x) → a.beq b = true → a.hashWords = b.hashWords) ∧
    (∀ a b : Box2D F64, NonZeroWords a.hashWords → (∀ x ∈ b.hashWords, F64.Rep x) → a.beq b = true → a.hashWords = b.hashWords) ∧
    (∀ a b : Box3D F64, NonZeroWords a.hashWords → (∀ x ∈ b.hashWords, F64.Rep x) → a.beq b = true → a.hashWords = b.hashWords) := by
  refine ⟨fun a b ha hb h => ?_, fun a b ha hb h => ?_, fun a b ha hb h => ?_, fun a b ha hb h => ?_⟩
  · simp only [Circle.beq, Point2D.beq, Bool.and_eq_true, Circle.hashWords, Point2D.hashWords, NonZeroWords, List.cons_append, List.nil_append,
      List.forall_mem_cons] at *
    rw [F64.eq_of_beq' ha.1 hb.1 h.1.1, F64.eq_of_beq' ha.2.1 hb.2.1 h.1.2, F64.eq_of_beq' ha.2.2.1 hb.2.2.1 h.2]
  · simp only [Sphere.beq, Point3D.beq, Bool.and_eq_true, Sphere.hashWords, Point3D.hashWords, NonZeroWords, List.cons_append, List.nil_append,
      List.forall_mem_cons] at *
    rw [F64.eq_of_beq' ha.1 hb.1 h.1.1.1, F64.eq_of_beq' ha.2.1 hb.2.1 h.1.1.2, F64.eq_of_beq' ha.2.2.1 hb.2.2.1 h.1.2,
      F64.eq_of_beq' ha.2.2.2.1 hb.2.2.2.1 h.2]
  · simp only [Box2D.beq, Point2D.beq, Bool.and_eq_true, Box2D.hashWords, Point2D.hashWords, NonZeroWords, List.cons_append, List.nil_append,
      List.forall_mem_cons] at *
    rw [F64.eq_of_beq' ha.1 hb.1 h.1.1.1, F64.eq_of_beq' ha.2.1 hb.2.1 h.1.1.2, F64.eq_of_beq' ha.2.2.1 hb.2.2.1 h.1.2,
      F64.eq_of_beq' ha.2.2.2.1 hb.2.2.2.1 h.2]
  · simp only [Box3D.beq, Point3D.beq, Bool.and_eq_true, Box3D.hashWords, Point3D.hashWords, NonZeroWords, List.cons_append, List.nil_append,
      List.forall_mem_cons] at *
    rw [F64.eq_of_beq' ha.1 hb.1 h.1.1.1.1.1, F64.eq_of_beq' ha.2.1 hb.2.1 h.1.1.1.1.2, F64.eq_of_beq' ha.2.2.1 hb.2.2.1 h.1.1.1.2,
      F64.eq_of_beq' ha.2.2.2.1 hb.2.2.2.1 h.1.1.2, F64.eq_of_beq' ha.2.2.2.2.1 hb.2.2.2.2.1 h.1.2,
      F64.eq_of_beq' ha.2.2.2.2.2.1 hb.2.2.2.2.2.1 h.2]

/-- **C95** violated: circles, spheres and boxes which differ only in size compare as `Equal` and are not equal, an ordered set keeps one
of them; and the derived `partial_cmp` contradicts `cmp`. -/
theorem c95_violated_ord :
    (∃ a b : Circle F64, a.center = b.center ∧ a.cmp b = .eq ∧ a.beq b = false ∧ a.partialCmpDerived b = some .lt) ∧
    (∃ a b : Sphere F64, a.center = b.center ∧ a.cmp b = .eq ∧ a.beq b = false ∧ a.partialCmpDerived b = some .lt) ∧
    (∃ a b : Box2D F64, a.center = b.center ∧ a.cmp b = .eq ∧ a.beq b = false) ∧
    (∃ a b : Box3D F64, a.center = b.center ∧ a.cmp b = .eq ∧ a.beq b = false) ∧
    (∃ a b : Circle F64, a.partialCmpDerived b = some .lt ∧ a.cmp b = .gt) :=
  ⟨⟨⟨⟨.ofRat 1, .ofRat 2⟩, ⟨.ofRat 1⟩⟩, ⟨⟨.ofRat 1, .ofRat 2⟩, ⟨.ofRat 2⟩⟩, by decide +kernel, by decide +kernel, by decide +kernel, by decide +kernel⟩,
   ⟨⟨⟨.ofRat 1, .ofRat 2, .ofRat 3⟩, ⟨.ofRat 1⟩⟩, ⟨⟨.ofRat 1, .ofRat 2, .ofRat 3⟩, ⟨.ofRat 2⟩⟩, by decide +kernel, by decide +kernel, by decide +kernel, by decide +kernel⟩,
   ⟨⟨⟨.ofRat 1, .ofRat 2⟩, ⟨.ofRat 1⟩, ⟨.ofRat 1⟩⟩, ⟨⟨.ofRat 1, .ofRat 2⟩, ⟨.ofRat 2⟩, ⟨.ofRat 1⟩⟩, by decide +kernel, by decide +kernel, by decide +kernel⟩,
   ⟨⟨⟨.ofRat 1, .ofRat 2, .ofRat 3⟩, ⟨.ofRat 1⟩, ⟨.ofRat 1⟩, ⟨.ofRat 1⟩⟩, ⟨⟨.ofRat 1, .ofRat 2, .ofRat 3⟩, ⟨.ofRat 1⟩, ⟨.ofRat 1⟩, ⟨.ofRat 2⟩⟩, by decide +kernel, by decide +kernel, by decide +kernel⟩,
   ⟨⟨⟨.ofRat 0, .ofRat 5⟩, ⟨.ofRat 1⟩⟩, ⟨⟨.ofRat 1, .ofRat 0⟩, ⟨.ofRat 1⟩⟩, by decide +kernel, by decide +kernel⟩⟩

/-- **C95** violated: circles at (0, 1) and (-0, 1) are equal but hashed differently -/
theorem c95_violated_hash : ∃ a b : Circle F64, a.beq b = true ∧ a.hashWords ≠ b.hashWords :=
  ⟨⟨⟨.fin false 0, .ofRat 1⟩, ⟨.ofRat 1⟩⟩, ⟨⟨.fin true 0, .ofRat 1⟩, ⟨.ofRat 1⟩⟩, by decide +kernel, by decide +kernel⟩

/-- **C95** violated with NaN: `cmp` is not transitive, a < n < b but not a < b for a small circle far away, a circle at NaN and a large
circle at the origin -/
theorem c95_violated_nan : ∃ a n b : Circle F64, a.cmp n = .lt ∧ n.cmp b = .lt ∧ a.cmp b = .gt :=
  ⟨⟨⟨.ofRat 9, .ofRat 0⟩, ⟨.ofRat 1⟩⟩, ⟨⟨.nan, .ofRat 0⟩, ⟨.ofRat 2⟩⟩, ⟨⟨.ofRat 0, .ofRat 0⟩, ⟨.ofRat 3⟩⟩, by decide +kernel, by decide +kernel,
    by decide +kernel⟩

/-- non-vacuity: two circles at different distances, and one which can be hashed -/
example : (⟨⟨.ofRat 3, .ofRat 1⟩, ⟨.ofRat 1⟩⟩ : Circle F64).cmp ⟨⟨.ofRat 2, .ofRat 2⟩, ⟨.ofRat 7⟩⟩ = .gt ∧
    Valid2 ⟨.ofRat 3, .ofRat 1⟩ :=
  ⟨by decide +kernel, F64.ofRat_rep 3, F64.ofRat_rep 1, by decide +kernel, by decide +kernel⟩

end R3D

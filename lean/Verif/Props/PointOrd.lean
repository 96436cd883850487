import Verif.Model.PointOrd
import Verif.Lemmas.F64
import Verif.Spec.Geom
/-!
C54: equality, ordering and hashing of points (and norms, same code) are coherent. Violated; the parts which
hold are proved.
-/
namespace R3D
open Scalar LawfulScalar Spec

/-- `x == 0.0` -/
def Spec.isZero (x : F64) : Prop := F64.key x = 0 ∧ F64.ok x

theorem F64.eq_of_beq {x y : F64} (hx : F64.Rep x) (hy : F64.Rep y) (h : F64.eq x y = true) :
    x = y ∨ (∃ s t, x = .fin s 0 ∧ y = .fin t 0) := by
  cases x with
  | nan => simp [F64.eq] at h
  | inf s =>
    cases y with
    | nan => simp [F64.eq] at h
    | inf t => left; simpa [F64.eq] using h
    | fin t n => simp [F64.eq] at h
  | fin s m =>
    cases y with
    | nan => simp [F64.eq] at h
    | inf t => simp [F64.eq] at h
    | fin t n =>
      have hm : 0 ≤ m := hx.1
      have hn : 0 ≤ n := hy.1
      have h' : F64.val s m = F64.val t n := by simpa [F64.eq] using h
      by_cases h0 : m = 0
      · right
        subst h0
        have : n = 0 := by
          cases s <;> cases t <;> simp [F64.val] at h' <;> linarith
        subst this
        exact ⟨s, t, rfl, rfl⟩
      · left
        have hm' : 0 < m := lt_of_le_of_ne hm (Ne.symm h0)
        cases s <;> cases t <;> simp [F64.val] at h' ⊢ <;> linarith

theorem F64.sub_zero_beq {x y : F64} (hx : F64.Rep x) (hy : F64.Rep y) (h : F64.eq x y = true) :
    F64.sub (.fin false 0) x = F64.sub (.fin false 0) y := by
  rcases F64.eq_of_beq hx hy h with rfl | ⟨s, t, rfl, rfl⟩
  · rfl
  · cases s <;> cases t <;> simp [F64.sub, F64.neg, F64.add, F64.val]

theorem F64.zero_eq : (Scalar.zero : F64) = .fin false 0 := by decide +kernel

section
variable {α : Type} [Scalar α] [LawfulScalar α]

theorem unwrap_self (x : α) : unwrapEq (partialCmp x x) = .eq := by
  unfold partialCmp
  have h : ¬ Scalar.lt x x = true := by
    rw [lt_iff]
    exact fun h => lt_irrefl _ h.2.2
  rw [if_neg h]
  split
  · rfl
  · simp [h, unwrapEq]

theorem unwrap_ok {x y : α} (hx : ok x) (hy : ok y) :
    (unwrapEq (partialCmp x y) = .lt ↔ key x < key y) ∧ (unwrapEq (partialCmp x y) = .eq ↔ key x = key y) ∧
    (unwrapEq (partialCmp x y) = .gt ↔ key y < key x) := by
  unfold partialCmp
  rcases lt_trichotomy (key x) (key y) with h | h | h
  · have h1 := (lt_of_ok hx hy).2 h
    simp [h1, unwrapEq, h, h.ne, h.not_gt, h.le]
  · have h1 : ¬ Scalar.lt x y = true := by rw [lt_of_ok hx hy]; exact h.not_lt
    have h2 := (eq_of_ok hx hy).2 h
    simp [h1, h2, unwrapEq, h]
  · have h1 : ¬ Scalar.lt x y = true := by rw [lt_of_ok hx hy]; exact h.not_gt
    have h2 : ¬ Scalar.eq x y = true := by rw [eq_of_ok hx hy]; exact h.ne'
    have h3 := (lt_of_ok hy hx).2 h
    simp [h1, h2, h3, unwrapEq, h, h.ne', h.le]
end


/-- **C54** (partial: coordinates which are representable and not zero; missing are the two zeros, see
`c54_violated_hash`) equal points feed the same words to the hasher. Conversely points without NaN which
feed the same words are equal. -/
theorem c54_hash_2d_partial (a b : Point2D F64) (ha : ∀ d, F64.Rep (at2 a d)) (hb : ∀ d, F64.Rep (at2 b d)) :
    ((∀ d, ¬ isZero (at2 a d)) → a.beq b = true → a.hashWords = b.hashWords) ∧
    ((∀ d, ok (at2 a d)) → a.hashWords = b.hashWords → a.beq b = true) := by
  constructor
  · intro hz h
    have h' : ∀ d, Scalar.eq (at2 a d) (at2 b d) = true := by
      rw [Fin.forall_fin_two]
      simpa [Point2D.beq, and_assoc] using h
    have e : ∀ d, at2 a d = at2 b d := by
      intro d
      rcases F64.eq_of_beq (ha d) (hb d) (h' d) with e | ⟨s, t, e, -⟩
      · exact e
      · exact absurd ⟨by rw [e]; cases s <;> simp [F64.key, F64.val], by rw [e]; simp [F64.ok]⟩ (hz d)
    rw [ext2 e]
  · intro ho h
    have e : a = b := by
      cases a
      cases b
      simpa [Point2D.hashWords] using h
    subst e
    rw [Fin.forall_fin_two] at ho
    have r : ∀ x : F64, ok x → Scalar.eq x x = true := fun x hx => (eq_of_ok hx hx).2 rfl
    simp only [Point2D.beq, Bool.and_eq_true]
    exact ⟨r _ ho.1, r _ ho.2⟩

/-- **C54** (partial) equal points compare as `Equal`; on points whose squared distance to the origin is not NaN
`cmp` is a consistent comparison: swapping the arguments swaps the result and it is transitive. Missing:
`Equal` for equal points only, see `c54_violated_ord`. -/
theorem c54_cmp_2d_partial (a b c : Point2D F64) (ha : ∀ d, F64.Rep (at2 a d)) (hb : ∀ d, F64.Rep (at2 b d)) :
    (a.beq b = true → a.cmp b = .eq) ∧
    (ok ((Point2D.default : Point2D F64).sqrDist a) → ok ((Point2D.default : Point2D F64).sqrDist b) →
      b.cmp a = (a.cmp b).swap ∧
      (ok ((Point2D.default : Point2D F64).sqrDist c) →
        (a.cmp b ≠ .gt → b.cmp c ≠ .gt → a.cmp c ≠ .gt) ∧ (a.cmp b = .lt → b.cmp c = .lt → a.cmp c = .lt))) := by
  constructor
  · intro h
    have h' : ∀ d, Scalar.eq (at2 a d) (at2 b d) = true := by
      rw [Fin.forall_fin_two]
      simpa [Point2D.beq, and_assoc] using h
    have hs : ∀ d, F64.sub (.fin false 0) (at2 a d) = F64.sub (.fin false 0) (at2 b d) := fun d =>
      F64.sub_zero_beq (ha d) (hb d) (h' d)
    rw [Fin.forall_fin_two] at hs
    have e : (Point2D.default : Point2D F64).sqrDist a = (Point2D.default : Point2D F64).sqrDist b := by
      have hsub : ∀ x y : F64, x - y = F64.sub x y := fun _ _ => rfl
      simp only [Point2D.sqrDist, Point2D.default, F64.zero_eq, hsub]
      rw [show F64.sub _ a.x = _ from hs.1, show F64.sub _ a.y = _ from hs.2]
      rfl
    rw [Point2D.cmp, e, unwrap_self]
  · intro oa ob
    simp only [Point2D.cmp]
    generalize (Point2D.default : Point2D F64).sqrDist a = x at *
    generalize (Point2D.default : Point2D F64).sqrDist b = y at *
    generalize (Point2D.default : Point2D F64).sqrDist c = z at *
    obtain ⟨l1, e1, g1⟩ := unwrap_ok oa ob
    obtain ⟨l2, e2, g2⟩ := unwrap_ok ob oa
    constructor
    · rcases lt_trichotomy (key x) (key y) with h | h | h
      · rw [l1.2 h, g2.2 h]; rfl
      · rw [e1.2 h, e2.2 h.symm]; rfl
      · rw [g1.2 h, l2.2 h]; rfl
    · intro oc
      obtain ⟨l3, e3, g3⟩ := unwrap_ok ob oc
      obtain ⟨l4, e4, g4⟩ := unwrap_ok oa oc
      rw [ne_eq, ne_eq, ne_eq, g1, g3, g4, l1, l3, l4, not_lt, not_lt, not_lt]
      exact ⟨le_trans, lt_trans⟩

/-- **C54** (partial: coordinates which are representable and not zero; missing are the two zeros, see
`c54_violated_hash`) equal points feed the same words to the hasher. Conversely points without NaN which
feed the same words are equal. -/
theorem c54_hash_3d_partial (a b : Point3D F64) (ha : ∀ d, F64.Rep (at3 a d)) (hb : ∀ d, F64.Rep (at3 b d)) :
    ((∀ d, ¬ isZero (at3 a d)) → a.beq b = true → a.hashWords = b.hashWords) ∧
    ((∀ d, ok (at3 a d)) → a.hashWords = b.hashWords → a.beq b = true) := by
  constructor
  · intro hz h
    have h' : ∀ d, Scalar.eq (at3 a d) (at3 b d) = true := by
      rw [forall_fin3]
      simpa [Point3D.beq, and_assoc] using h
    have e : ∀ d, at3 a d = at3 b d := by
      intro d
      rcases F64.eq_of_beq (ha d) (hb d) (h' d) with e | ⟨s, t, e, -⟩
      · exact e
      · exact absurd ⟨by rw [e]; cases s <;> simp [F64.key, F64.val], by rw [e]; simp [F64.ok]⟩ (hz d)
    rw [ext3 e]
  · intro ho h
    have e : a = b := by
      cases a
      cases b
      simpa [Point3D.hashWords] using h
    subst e
    rw [forall_fin3] at ho
    have r : ∀ x : F64, ok x → Scalar.eq x x = true := fun x hx => (eq_of_ok hx hx).2 rfl
    simp only [Point3D.beq, Bool.and_eq_true]
    exact ⟨⟨r _ ho.1, r _ ho.2.1⟩, r _ ho.2.2⟩

/-- **C54** (partial) equal points compare as `Equal`; on points whose squared distance to the origin is not NaN
`cmp` is a consistent comparison: swapping the arguments swaps the result and it is transitive. Missing:
`Equal` for equal points only, see `c54_violated_ord`. -/
theorem c54_cmp_3d_partial (a b c : Point3D F64) (ha : ∀ d, F64.Rep (at3 a d)) (hb : ∀ d, F64.Rep (at3 b d)) :
    (a.beq b = true → a.cmp b = .eq) ∧
    (ok ((Point3D.default : Point3D F64).sqrDist a) → ok ((Point3D.default : Point3D F64).sqrDist b) →
      b.cmp a = (a.cmp b).swap ∧
      (ok ((Point3D.default : Point3D F64).sqrDist c) →
        (a.cmp b ≠ .gt → b.cmp c ≠ .gt → a.cmp c ≠ .gt) ∧ (a.cmp b = .lt → b.cmp c = .lt → a.cmp c = .lt))) := by
  constructor
  · intro h
    have h' : ∀ d, Scalar.eq (at3 a d) (at3 b d) = true := by
      rw [forall_fin3]
      simpa [Point3D.beq, and_assoc] using h
    have hs : ∀ d, F64.sub (.fin false 0) (at3 a d) = F64.sub (.fin false 0) (at3 b d) := fun d =>
      F64.sub_zero_beq (ha d) (hb d) (h' d)
    rw [forall_fin3] at hs
    have e : (Point3D.default : Point3D F64).sqrDist a = (Point3D.default : Point3D F64).sqrDist b := by
      have hsub : ∀ x y : F64, x - y = F64.sub x y := fun _ _ => rfl
      simp only [Point3D.sqrDist, Point3D.default, F64.zero_eq, hsub]
      rw [show F64.sub _ a.x = _ from hs.1, show F64.sub _ a.y = _ from hs.2.1, show F64.sub _ a.z = _ from hs.2.2]
      rfl
    rw [Point3D.cmp, e, unwrap_self]
  · intro oa ob
    simp only [Point3D.cmp]
    generalize (Point3D.default : Point3D F64).sqrDist a = x at *
    generalize (Point3D.default : Point3D F64).sqrDist b = y at *
    generalize (Point3D.default : Point3D F64).sqrDist c = z at *
    obtain ⟨l1, e1, g1⟩ := unwrap_ok oa ob
    obtain ⟨l2, e2, g2⟩ := unwrap_ok ob oa
    constructor
    · rcases lt_trichotomy (key x) (key y) with h | h | h
      · rw [l1.2 h, g2.2 h]; rfl
      · rw [e1.2 h, e2.2 h.symm]; rfl
      · rw [g1.2 h, l2.2 h]; rfl
    · intro oc
      obtain ⟨l3, e3, g3⟩ := unwrap_ok ob oc
      obtain ⟨l4, e4, g4⟩ := unwrap_ok oa oc
      rw [ne_eq, ne_eq, ne_eq, g1, g3, g4, l1, l3, l4, not_lt, not_lt, not_lt]
      exact ⟨le_trans, lt_trans⟩

/-- **C54 violated** the points (0, 1) and (-0, 1) are equal but feed different words to the hasher, so that a
hash map can hold both. The same holds for norms: (0, 1) and (-0, 1) have length one. -/
theorem c54_violated_hash :
    (∃ a b : Point2D F64, a.beq b = true ∧ a.hashWords ≠ b.hashWords) ∧
    ∃ a b : Point3D F64, a.beq b = true ∧ a.hashWords ≠ b.hashWords :=
  ⟨⟨⟨.fin false 0, .ofRat 1⟩, ⟨.fin true 0, .ofRat 1⟩, by decide +kernel, by decide +kernel⟩,
   ⟨⟨.fin false 0, .ofRat 1, .ofRat 0⟩, ⟨.fin true 0, .ofRat 1, .ofRat 0⟩, by decide +kernel, by decide +kernel⟩⟩

/-- **C54 violated** `cmp` returns `Equal` for points which are not equal: (1, 0) and (0, 1), as for any two
norms of length one; an ordered map keeps only one of them. `cmp` also contradicts the derived
`partial_cmp`: (0, 5) is `Less` than (1, 0) for one and `Greater` for the other. -/
theorem c54_violated_ord :
    (∃ a b : Point2D F64, a.cmp b = .eq ∧ a.beq b = false) ∧
    (∃ a b : Point3D F64, a.cmp b = .eq ∧ a.beq b = false) ∧
    (∃ a b : Point2D F64, a.partialCmpDerived b = some .lt ∧ a.cmp b = .gt) ∧
    ∃ a b : Point3D F64, a.partialCmpDerived b = some .lt ∧ a.cmp b = .gt :=
  ⟨⟨⟨.ofRat 1, .ofRat 0⟩, ⟨.ofRat 0, .ofRat 1⟩, by decide +kernel, by decide +kernel⟩,
   ⟨⟨.ofRat 1, .ofRat 0, .ofRat 0⟩, ⟨.ofRat 0, .ofRat 1, .ofRat 0⟩, by decide +kernel, by decide +kernel⟩,
   ⟨⟨.ofRat 0, .ofRat 5⟩, ⟨.ofRat 1, .ofRat 0⟩, by decide +kernel, by decide +kernel⟩,
   ⟨⟨.ofRat 0, .ofRat 5, .ofRat 0⟩, ⟨.ofRat 1, .ofRat 0, .ofRat 0⟩, by decide +kernel, by decide +kernel⟩⟩

/-- **C54 violated** with NaN: a point is not equal to itself although `Eq` promises reflexivity, and `cmp` is
not transitive: (1,0) ≤ NaN ≤ (0,0) but not (1,0) ≤ (0,0). -/
theorem c54_violated_nan : ∃ a n b : Point2D F64, n.beq n = false ∧
    a.cmp n = .eq ∧ n.cmp b = .eq ∧ a.cmp b = .gt :=
  ⟨⟨.ofRat 1, .ofRat 0⟩, ⟨.nan, .ofRat 0⟩, ⟨.ofRat 0, .ofRat 0⟩, by decide +kernel, by decide +kernel,
    by decide +kernel, by decide +kernel⟩

/-- points with representable coordinates other than zero -/
example : (∀ d, F64.Rep (at2 (⟨.ofRat 1, .ofRat 3⟩ : Point2D F64) d)) ∧
    (⟨.ofRat 1, .ofRat 3⟩ : Point2D F64).cmp ⟨.ofRat 2, .ofRat 1⟩ = .gt :=
  ⟨Fin.forall_fin_two.2 ⟨F64.ofRat_rep 1, F64.ofRat_rep 3⟩, by decide +kernel⟩

/-- the same in three dimensions, with a third point that can be compared -/
example : (∀ d, F64.Rep (at3 (⟨.ofRat 1, .ofRat 3, .ofRat (1/10)⟩ : Point3D F64) d)) ∧
    (∀ d, ¬ isZero (at3 (⟨.ofRat 1, .ofRat 3, .ofRat (1/10)⟩ : Point3D F64) d)) ∧
    ok ((Point3D.default : Point3D F64).sqrDist ⟨.ofRat 1, .ofRat 3, .ofRat (1/10)⟩) ∧
    (⟨.ofRat 1, .ofRat 3, .ofRat (1/10)⟩ : Point3D F64).cmp ⟨.ofRat 2, .ofRat 4, .ofRat 0⟩ = .lt := by
  refine ⟨forall_fin3.2 ⟨F64.ofRat_rep 1, F64.ofRat_rep 3, F64.ofRat_rep (1/10)⟩, ?_, ?_, by decide +kernel⟩
  · have h : ∀ x : F64, F64.lt (.ofRat 0) x = true → ¬ isZero x := by
      intro x hx hz
      have h1 := ((F64.lt_iff _ _).1 hx).2.2
      rw [hz.1] at h1
      rw [show F64.ofRat 0 = .fin false 0 by decide +kernel] at h1
      simp [F64.key, F64.val] at h1
    exact forall_fin3.2 ⟨h _ (by decide +kernel), h _ (by decide +kernel), h _ (by decide +kernel)⟩
  · show F64.ok _
    unfold F64.ok
    decide +kernel

end R3D

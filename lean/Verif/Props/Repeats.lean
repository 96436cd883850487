import Verif.Props.AABBTree
import Mathlib.Data.Multiset.Filter
/-!
# C125: how often the queries of the box trees report an element
-/
namespace R3D
open Scalar LawfulScalar Spec

/-- `r` lists exactly the elements of `data` that satisfy `p`, each of them at least as often as `data` does and at most
`k` times as often -/
def Spec.ListsUpTo {β : Type} (k : Nat) (data : List β) (p : β → Bool) (r : List β) : Prop :=
  (data.filter p).Subperm r ∧ r.Subperm (List.replicate k (data.filter p)).flatten

theorem subperm_filter_split {β : Type} (a b : β → Bool) : ∀ l : List β, (∀ x ∈ l, a x = true ∨ b x = true) →
    l.Subperm (l.filter a ++ l.filter b)
  | [], _ => List.Subperm.refl _
  | x :: l, h => by
    have ih := subperm_filter_split a b l fun y hy => h y (List.mem_cons_of_mem _ hy)
    by_cases ha : a x = true
    · rw [List.filter_cons_of_pos ha, List.cons_append]
      refine List.Subperm.trans ((List.subperm_cons x).2 ih) ((List.subperm_cons x).2 ?_)
      exact (List.Sublist.append (List.Sublist.refl _) ((List.sublist_cons_self x l).filter b)).subperm
    · have hb := (h x (by simp)).resolve_left ha
      rw [List.filter_cons_of_neg ha, List.filter_cons_of_pos hb]
      exact ((List.subperm_cons x).2 ih).trans List.perm_middle.symm.subperm

theorem flatten_replicate_mono {β : Type} {l l' : List β} (h : l.Sublist l') : ∀ {k k' : Nat}, k ≤ k' →
    (List.replicate k l).flatten.Sublist (List.replicate k' l').flatten
  | 0, k', _ => by simp
  | k + 1, 0, hk => absurd hk (by omega)
  | k + 1, k' + 1, hk => by
    rw [List.replicate_succ, List.replicate_succ, List.flatten_cons, List.flatten_cons]
    exact h.append (flatten_replicate_mono h (by omega))

namespace AABBTree
variable {B P HB : Type} {ops : BoxOps B P} {V : B → Prop} {E : B → B → Prop} {bb : HB → B}

theorem visitData_eq {test : B → Panics Bool} {p : HB → Bool} : ∀ data : List HB, (∀ x ∈ data, test (bb x) = some (p x)) →
    visitData bb test data = some (data.filter p)
  | [], _ => rfl
  | x :: l, h => by
    have hx := h x (by simp)
    rw [visitData, hx, visitData_eq l fun y hy => h y (List.mem_cons_of_mem _ hy)]
    cases hp : p x
    · rw [List.filter_cons_of_neg (by simp [hp])]; rfl
    · rw [List.filter_cons_of_pos hp]; rfl

theorem newRec_visit (h : LawfulBoxOps ops V E) {test : B → Panics Bool} (ht : ∀ b, V b → ∃ r, test b = some r)
    (hm : ∀ a b, V a → V b → E a b → test b = some true → test a = some true) (bucket : Nat) :
    ∀ (rem depth : Nat) (data : List HB) (p : HB → Bool), (∀ x ∈ data, V (bb x)) → (∀ x ∈ data, test (bb x) = some (p x)) →
    ∃ t, newRec ops bb bucket rem depth data = some t ∧ ∃ r, t.visit bb test = some r ∧
      ListsUpTo (if data.length ≤ bucket then 1 else 2 ^ rem) data p r := by
  have none_of : ∀ (b : B) (data : List HB) (p : HB → Bool), V b → (∀ x ∈ data, V (bb x)) → (∀ x ∈ data, E b (bb x)) →
      (∀ x ∈ data, test (bb x) = some (p x)) → test b = some false → data.filter p = [] := by
    intro b data p hb hV hE hp hf
    rw [List.filter_eq_nil_iff]
    intro x hx hpx
    have := hm b (bb x) hb (hV x hx) (hE x hx) (by rw [hp x hx, hpx])
    rw [hf] at this
    simp at this
  have leafCase : ∀ (data : List HB) (p : HB → Bool) (k : Nat), 1 ≤ k → data ≠ [] → (∀ x ∈ data, V (bb x)) →
      (∀ x ∈ data, test (bb x) = some (p x)) →
      ∃ b, bbOf ops bb data = some b ∧ V b ∧ (∀ x ∈ data, E b (bb x)) ∧
        ∃ r, (AABBTree.leaf data b).visit bb test = some r ∧ ListsUpTo k data p r := by
    intro data p k hk hne hV hp
    obtain ⟨b, h1, h2, h3⟩ := bbOf_spec h data hne hV
    refine ⟨b, h1, h2, h3, ?_⟩
    obtain ⟨v, hv⟩ := ht b h2
    cases v
    · refine ⟨[], by simp [visit, hv], ?_⟩
      rw [ListsUpTo, none_of b data p h2 hV h3 hp hv]
      exact ⟨List.Subperm.refl _, List.nil_subperm⟩
    · refine ⟨data.filter p, by simp [visit, hv, visitData_eq data hp], List.Subperm.refl _, ?_⟩
      have := flatten_replicate_mono (List.Sublist.refl (data.filter p)) hk
      simpa using this.subperm
  intro rem
  induction rem with
  | zero =>
    intro depth data p hV hp
    simp only [pow_zero, ite_self]
    match data with
    | [] => exact ⟨.empty, by simp [newRec], [], rfl, by simp [ListsUpTo]⟩
    | [d] =>
      obtain ⟨b, h1, _, _, r, h2, h3⟩ := leafCase [d] p 1 le_rfl (by simp) hV hp
      exact ⟨_, by simp only [newRec, h1]; rfl, r, h2, h3⟩
    | d :: e :: ds =>
      obtain ⟨b, h1, _, _, r, h2, h3⟩ := leafCase (d :: e :: ds) p 1 le_rfl (by simp) hV hp
      exact ⟨_, by simp only [newRec, h1]; rfl, r, h2, h3⟩
  | succ rem ih =>
    intro depth data p hV hp
    have hk : 1 ≤ (if data.length ≤ bucket then 1 else 2 ^ (rem + 1)) := by
      split
      · exact le_rfl
      · exact Nat.one_le_two_pow
    match data with
    | [] => exact ⟨.empty, by simp [newRec], [], rfl, by simp [ListsUpTo]⟩
    | [d] =>
      obtain ⟨b, h1, _, _, r, h2, h3⟩ := leafCase [d] p _ hk (by simp) hV hp
      exact ⟨_, by simp only [newRec, h1]; rfl, r, h2, h3⟩
    | d :: e :: ds =>
      obtain ⟨b, h1, hVb, hE, r, h2, h3⟩ := leafCase (d :: e :: ds) p _ hk (by simp) hV hp
      rw [newRec]
      · simp only [h1, Option.bind_eq_bind, Option.bind_some, Option.pure_def]
        generalize d :: e :: ds = data at *
        split
        · rename_i hb
          exact ⟨_, rfl, r, h2, by rwa [if_pos hb] at h3⟩
        · rename_i hb
          rw [if_neg hb] at h3
          split
          · exact ⟨_, rfl, r, h2, h3⟩
          · obtain ⟨l, hl1, rl, hl2, hl3, hl4⟩ := ih (depth + 1) (data.filter (fun x => ops.isLeftOf depth (bb x) (ops.center b))) p
              (fun x hx => hV x (List.mem_of_mem_filter hx)) (fun x hx => hp x (List.mem_of_mem_filter hx))
            obtain ⟨r', hr1, rr, hr2, hr3, hr4⟩ := ih (depth + 1) (data.filter (fun x => ops.isRightOf depth (bb x) (ops.center b))) p
              (fun x hx => hV x (List.mem_of_mem_filter hx)) (fun x hx => hp x (List.mem_of_mem_filter hx))
            rw [hl1, hr1]
            refine ⟨_, rfl, ?_⟩
            obtain ⟨v, hv⟩ := ht b hVb
            cases v
            · refine ⟨[], by simp [visit, hv], ?_⟩
              rw [ListsUpTo, none_of b data p hVb hV hE hp hv]
              exact ⟨List.Subperm.refl _, List.nil_subperm⟩
            · refine ⟨rl ++ rr, by simp [visit, hv, hl2, hr2], ?_, ?_⟩
              · have hs := subperm_filter_split (fun x => ops.isLeftOf depth (bb x) (ops.center b))
                  (fun x => ops.isRightOf depth (bb x) (ops.center b)) data
                  (fun x hx => h.split depth b (bb x) hVb (hV x hx) (hE x hx))
                have hs' := hs.filter p
                rw [List.filter_append] at hs'
                exact hs'.trans (hl3.append hr3)
              · have le2 : ∀ n : Nat, (if n ≤ bucket then 1 else 2 ^ rem) ≤ 2 ^ rem := fun n => by
                  split
                  · exact Nat.one_le_two_pow
                  · exact le_rfl
                have hl5 := hl4.trans (flatten_replicate_mono ((List.filter_sublist (l := data)).filter p) (le2 _)).subperm
                have hr5 := hr4.trans (flatten_replicate_mono ((List.filter_sublist (l := data)).filter p) (le2 _)).subperm
                refine (hl5.append hr5).trans (List.Perm.subperm (.of_eq ?_))
                rw [pow_succ, Nat.mul_two, ← List.replicate_append_replicate, List.flatten_append]
      · simp
      · simp

end AABBTree

/-- C125 (2D), for reals and for binary64: the crossing queries append every element whose own box crosses the value at least
once, at most `2^maxdepth` times and exactly once if all elements fit into one bucket or the tree may not branch -/
theorem c125_crossing_2d_partial {α HB : Type} [Scalar α] [FiniteScalar α] (bb : HB → BoundingBox2D α)
    (data : List HB) (maxdepth bucket : Nat) (hV : ∀ x ∈ data, ValidFin2 (bb x)) :
    ∃ t, AABBTree2D.new bb data maxdepth bucket = some t ∧
      ∀ (v : α) (res : List HB), (∃ r, AABBTree2D.bbCrossingXValue bb t v res = some (res ++ r) ∧
        ListsUpTo (if data.length ≤ bucket then 1 else 2 ^ maxdepth) data (fun x => (bb x).crossingXValue v) r) ∧
      (∃ r, AABBTree2D.bbCrossingYValue bb t v res = some (res ++ r) ∧
        ListsUpTo (if data.length ≤ bucket then 1 else 2 ^ maxdepth) data (fun x => (bb x).crossingYValue v) r) := by
  obtain ⟨t, h1, -⟩ := AABBTree.newRec_inv (bb := bb) (lawfulBoxOps2 (α := α)) bucket maxdepth 0 data hV
  refine ⟨t, h1, fun v res => ⟨?_, ?_⟩⟩
  · obtain ⟨t', h1', r, hr, hr'⟩ := AABBTree.newRec_visit (bb := bb) (lawfulBoxOps2 (α := α))
      (test := fun b => some (b.crossingXValue v)) (fun b _ => ⟨_, rfl⟩) (by
        intro a b ha hb he h
        have ha' := ha.1.1
        simp only [Option.some.injEq, BoundingBox2D.crossingXValue, Bool.and_eq_true, lt_iff] at h ⊢
        simp only [Box.Ok, Box.Encloses, Fin.forall_fin_two, at2_zero, at2_one, box2] at ha' he
        exact ⟨⟨ha'.1.1, h.1.2.1, lt_of_le_of_lt he.1.1 h.1.2.2⟩,
          ⟨h.1.2.1, ha'.1.2, lt_of_lt_of_le h.2.2.2 he.1.2⟩⟩) bucket maxdepth 0 data _ hV (fun x _ => rfl)
    cases h1.symm.trans h1'
    exact ⟨r, by simp only [AABBTree2D.bbCrossingXValue, hr, Option.map_some], hr'⟩
  · obtain ⟨t', h1', r, hr, hr'⟩ := AABBTree.newRec_visit (bb := bb) (lawfulBoxOps2 (α := α))
      (test := fun b => some (b.crossingYValue v)) (fun b _ => ⟨_, rfl⟩) (by
        intro a b ha hb he h
        have ha' := ha.1.1
        simp only [Option.some.injEq, BoundingBox2D.crossingYValue, Bool.and_eq_true, lt_iff] at h ⊢
        simp only [Box.Ok, Box.Encloses, Fin.forall_fin_two, at2_zero, at2_one, box2] at ha' he
        exact ⟨⟨ha'.2.1, h.1.2.1, lt_of_le_of_lt he.2.1 h.1.2.2⟩,
          ⟨h.1.2.1, ha'.2.2, lt_of_lt_of_le h.2.2.2 he.2.2⟩⟩) bucket maxdepth 0 data _ hV (fun x _ => rfl)
    cases h1.symm.trans h1'
    exact ⟨r, by simp only [AABBTree2D.bbCrossingYValue, hr, Option.map_some], hr'⟩

/-- C125 (3D), for reals and for binary64, see `c125_crossing_2d_partial` -/
theorem c125_crossing_3d_partial {α HB : Type} [Scalar α] [FiniteScalar α] (bb : HB → BoundingBox3D α)
    (data : List HB) (maxdepth bucket : Nat) (hV : ∀ x ∈ data, ValidFin3 (bb x)) :
    ∃ t, AABBTree3D.new bb data maxdepth bucket = some t ∧
      ∀ (v : α) (res : List HB), (∃ r, AABBTree3D.bbCrossingXValue bb t v res = some (res ++ r) ∧
        ListsUpTo (if data.length ≤ bucket then 1 else 2 ^ maxdepth) data (fun x => (bb x).crossingXValue v) r) ∧
      (∃ r, AABBTree3D.bbCrossingYValue bb t v res = some (res ++ r) ∧
        ListsUpTo (if data.length ≤ bucket then 1 else 2 ^ maxdepth) data (fun x => (bb x).crossingYValue v) r) ∧
      (∃ r, AABBTree3D.bbCrossingZValue bb t v res = some (res ++ r) ∧
        ListsUpTo (if data.length ≤ bucket then 1 else 2 ^ maxdepth) data (fun x => (bb x).crossingZValue v) r) := by
  obtain ⟨t, h1, -⟩ := AABBTree.newRec_inv (bb := bb) (lawfulBoxOps3 (α := α)) bucket maxdepth 0 data hV
  refine ⟨t, h1, fun v res => ⟨?_, ?_, ?_⟩⟩
  · obtain ⟨t', h1', r, hr, hr'⟩ := AABBTree.newRec_visit (bb := bb) (lawfulBoxOps3 (α := α))
      (test := fun b => some (b.crossingXValue v)) (fun b _ => ⟨_, rfl⟩) (by
        intro a b ha hb he h
        have ha' := ha.1.1
        simp only [Option.some.injEq, BoundingBox3D.crossingXValue, Bool.and_eq_true, lt_iff] at h ⊢
        simp only [Box.Ok, Box.Encloses, forall_fin3, at3_zero, at3_one, at3_two, box3] at ha' he
        exact ⟨⟨ha'.1.1, h.1.2.1, lt_of_le_of_lt he.1.1 h.1.2.2⟩,
          ⟨h.1.2.1, ha'.1.2, lt_of_lt_of_le h.2.2.2 he.1.2⟩⟩) bucket maxdepth 0 data _ hV (fun x _ => rfl)
    cases h1.symm.trans h1'
    exact ⟨r, by simp only [AABBTree3D.bbCrossingXValue, hr, Option.map_some], hr'⟩
  · obtain ⟨t', h1', r, hr, hr'⟩ := AABBTree.newRec_visit (bb := bb) (lawfulBoxOps3 (α := α))
      (test := fun b => some (b.crossingYValue v)) (fun b _ => ⟨_, rfl⟩) (by
        intro a b ha hb he h
        have ha' := ha.1.1
        simp only [Option.some.injEq, BoundingBox3D.crossingYValue, Bool.and_eq_true, lt_iff] at h ⊢
        simp only [Box.Ok, Box.Encloses, forall_fin3, at3_zero, at3_one, at3_two, box3] at ha' he
        exact ⟨⟨ha'.2.1.1, h.1.2.1, lt_of_le_of_lt he.2.1.1 h.1.2.2⟩,
          ⟨h.1.2.1, ha'.2.1.2, lt_of_lt_of_le h.2.2.2 he.2.1.2⟩⟩) bucket maxdepth 0 data _ hV (fun x _ => rfl)
    cases h1.symm.trans h1'
    exact ⟨r, by simp only [AABBTree3D.bbCrossingYValue, hr, Option.map_some], hr'⟩
  · obtain ⟨t', h1', r, hr, hr'⟩ := AABBTree.newRec_visit (bb := bb) (lawfulBoxOps3 (α := α))
      (test := fun b => some (b.crossingZValue v)) (fun b _ => ⟨_, rfl⟩) (by
        intro a b ha hb he h
        have ha' := ha.1.1
        simp only [Option.some.injEq, BoundingBox3D.crossingZValue, Bool.and_eq_true, lt_iff] at h ⊢
        simp only [Box.Ok, Box.Encloses, forall_fin3, at3_zero, at3_one, at3_two, box3] at ha' he
        exact ⟨⟨ha'.2.2.1, h.1.2.1, lt_of_le_of_lt he.2.2.1 h.1.2.2⟩,
          ⟨h.1.2.1, ha'.2.2.2, lt_of_lt_of_le h.2.2.2 he.2.2.2⟩⟩) bucket maxdepth 0 data _ hV (fun x _ => rfl)
    cases h1.symm.trans h1'
    exact ⟨r, by simp only [AABBTree3D.bbCrossingZValue, hr, Option.map_some], hr'⟩

/-- C125, exact arithmetic: the collision queries report every element whose own box overlaps the query at least once, at
most `2^maxdepth` times and exactly once if all elements fit into one bucket or the tree may not branch -/
theorem c125_collision_partial {HB : Type} (bb2 : HB → BoundingBox2D ℝ) (bb3 : HB → BoundingBox3D ℝ) (data : List HB)
    (maxdepth bucket : Nat) (hV2 : ∀ x ∈ data, (box2 (bb2 x)).Valid) (hV3 : ∀ x ∈ data, (box3 (bb3 x)).Valid) :
    (∃ t, AABBTree2D.new bb2 data maxdepth bucket = some t ∧ ∀ (q : BoundingBox2D ℝ), (box2 q).Valid →
      ∃ r, AABBTree2D.forEachCollisionCandidate bb2 t q = some r ∧ (∀ res, AABBTree2D.bbColliding bb2 t q res = some (res ++ r)) ∧
        ∀ p : HB → Bool, (∀ x ∈ data, p x = true ↔ ∃ y, (box2 (bb2 x)).MemInt y ∧ (box2 q).MemInt y) →
          ListsUpTo (if data.length ≤ bucket then 1 else 2 ^ maxdepth) data p r) ∧
    (∃ t, AABBTree3D.new bb3 data maxdepth bucket = some t ∧ ∀ (q : BoundingBox3D ℝ), (box3 q).Valid →
      ∃ r, AABBTree3D.forEachCollisionCandidate bb3 t q = some r ∧ (∀ res, AABBTree3D.bbColliding bb3 t q res = some (res ++ r)) ∧
        ∀ p : HB → Bool, (∀ x ∈ data, p x = true ↔ ∃ y, (box3 (bb3 x)).MemInt y ∧ (box3 q).MemInt y) →
          ListsUpTo (if data.length ≤ bucket then 1 else 2 ^ maxdepth) data p r) := by
  constructor
  · have hV' : ∀ x ∈ data, ValidFin2 (bb2 x) := fun x hx => ⟨hV2 x hx, fun _ => ⟨trivial, trivial⟩⟩
    obtain ⟨t, h1, -⟩ := AABBTree.newRec_inv (bb := bb2) (lawfulBoxOps2 (α := ℝ)) bucket maxdepth 0 data hV'
    refine ⟨t, h1, fun q hq => ?_⟩
    have main : ∀ p : HB → Bool, (∀ x ∈ data, p x = true ↔ ∃ y, (box2 (bb2 x)).MemInt y ∧ (box2 q).MemInt y) →
        ∃ r, AABBTree2D.forEachCollisionCandidate bb2 t q = some r ∧ ListsUpTo (if data.length ≤ bucket then 1 else 2 ^ maxdepth) data p r := by
      intro p hp
      obtain ⟨t', h1', r, hr, hr'⟩ := AABBTree.newRec_visit (bb := bb2) (lawfulBoxOps2 (α := ℝ))
        (test := fun b => b.collidesWith q) (fun b hb => (c18_collides_2d b q hb.1 hq).imp fun _ h => h.1) (by
          intro a b ha hb he h
          exact (c18_collides_relation_2d b q hb.1 hq).2.2 a q ha.1 hq he (fun _ => ⟨le_rfl, le_rfl⟩) h)
        bucket maxdepth 0 data p hV' (fun x hx => by
          obtain ⟨v, e1, e2⟩ := c18_collides_2d (bb2 x) q (hV2 x hx) hq
          rw [e1, Bool.eq_iff_iff.2 (e2.trans (hp x hx).symm)])
      cases h1.symm.trans h1'
      exact ⟨r, hr, hr'⟩
    obtain ⟨r, hr, -⟩ : ∃ r, AABBTree2D.forEachCollisionCandidate bb2 t q = some r ∧ True := by
      classical
      obtain ⟨r, hr, -⟩ := main (fun x => decide (∃ y, (box2 (bb2 x)).MemInt y ∧ (box2 q).MemInt y)) (fun x _ => decide_eq_true_iff)
      exact ⟨r, hr, trivial⟩
    refine ⟨r, hr, fun res => ?_, fun p hp => ?_⟩
    · have : t.visit bb2 (fun x => x.collidesWith q) = some r := hr
      simp only [AABBTree2D.bbColliding, this, Option.map_some]
    · obtain ⟨r', hr', h⟩ := main p hp
      cases hr.symm.trans hr'
      exact h
  · have hV' : ∀ x ∈ data, ValidFin3 (bb3 x) := fun x hx => ⟨hV3 x hx, fun _ => ⟨trivial, trivial⟩⟩
    obtain ⟨t, h1, -⟩ := AABBTree.newRec_inv (bb := bb3) (lawfulBoxOps3 (α := ℝ)) bucket maxdepth 0 data hV'
    refine ⟨t, h1, fun q hq => ?_⟩
    have main : ∀ p : HB → Bool, (∀ x ∈ data, p x = true ↔ ∃ y, (box3 (bb3 x)).MemInt y ∧ (box3 q).MemInt y) →
        ∃ r, AABBTree3D.forEachCollisionCandidate bb3 t q = some r ∧ ListsUpTo (if data.length ≤ bucket then 1 else 2 ^ maxdepth) data p r := by
      intro p hp
      obtain ⟨t', h1', r, hr, hr'⟩ := AABBTree.newRec_visit (bb := bb3) (lawfulBoxOps3 (α := ℝ))
        (test := fun b => b.collidesWith q) (fun b hb => (c18_collides_3d b q hb.1 hq).imp fun _ h => h.1) (by
          intro a b ha hb he h
          exact (c18_collides_relation_3d b q hb.1 hq).2.2 a q ha.1 hq he (fun _ => ⟨le_rfl, le_rfl⟩) h)
        bucket maxdepth 0 data p hV' (fun x hx => by
          obtain ⟨v, e1, e2⟩ := c18_collides_3d (bb3 x) q (hV3 x hx) hq
          rw [e1, Bool.eq_iff_iff.2 (e2.trans (hp x hx).symm)])
      cases h1.symm.trans h1'
      exact ⟨r, hr, hr'⟩
    obtain ⟨r, hr, -⟩ : ∃ r, AABBTree3D.forEachCollisionCandidate bb3 t q = some r ∧ True := by
      classical
      obtain ⟨r, hr, -⟩ := main (fun x => decide (∃ y, (box3 (bb3 x)).MemInt y ∧ (box3 q).MemInt y)) (fun x _ => decide_eq_true_iff)
      exact ⟨r, hr, trivial⟩
    refine ⟨r, hr, fun res => ?_, fun p hp => ?_⟩
    · have : t.visit bb3 (fun x => x.collidesWith q) = some r := hr
      simp only [AABBTree3D.bbColliding, this, Option.map_some]
    · obtain ⟨r', hr', h⟩ := main p hp
      cases hr.symm.trans hr'
      exact h

/-- boxes meeting the hypotheses of C124 and C125 -/
example : ∃ l : List (BoundingBox2D ℝ), 2 ≤ l.length ∧ ∀ b ∈ l, (box2 b).Valid :=
  ⟨[⟨⟨0, 0⟩, ⟨10, 10⟩⟩, ⟨⟨0, 0⟩, ⟨1, 1⟩⟩], by simp, by simp [valid_real_2d]⟩
example : ∃ l : List (BoundingBox3D ℝ), 2 ≤ l.length ∧ ∀ b ∈ l, (box3 b).Valid :=
  ⟨[⟨⟨0, 0, 0⟩, ⟨10, 10, 10⟩⟩, ⟨⟨0, 0, 0⟩, ⟨1, 1, 1⟩⟩], by simp, by simp [valid_real_3d]⟩

/-- an element that matches is reported exactly once when nothing is repeated by the tree -/
theorem Spec.ListsUpTo.once {β : Type} {data : List β} {p : β → Bool} {r : List β} (h : ListsUpTo 1 data p r) : r.Perm (data.filter p) := by
  obtain ⟨h1, h2⟩ := h
  simp only [List.replicate_one, List.flatten_cons, List.flatten_nil, List.append_nil] at h2
  exact h2.antisymm h1

/-- C125 violated: a box in the middle is stored on both sides of every split. Of two boxes one is reported once and the
other eleven times in a tree of depth ten; the same in 3D. -/
theorem c125_violated : (∃ (a b : BoundingBox2D F64) (t : AABBTree2D F64 (BoundingBox2D F64)), AABBTree2D.new id [a, b] 10 1 = some t ∧
      AABBTree2D.forEachCollisionCandidate id t a = some (a :: b :: List.replicate 10 a)) ∧
    ∃ (a b : BoundingBox3D F64) (t : AABBTree3D F64 (BoundingBox3D F64)), AABBTree3D.new id [a, b] 10 1 = some t ∧
      AABBTree3D.forEachCollisionCandidate id t a = some (a :: b :: List.replicate 10 a) := by
  refine ⟨⟨⟨⟨f 0, f 0⟩, ⟨f 10, f 10⟩⟩, ⟨⟨f 0, f 0⟩, ⟨f 1, f 1⟩⟩, (AABBTree2D.new id _ 10 1).get ?_, (Option.some_get _).symm, ?_⟩,
    ⟨⟨f 0, f 0, f 0⟩, ⟨f 10, f 10, f 10⟩⟩, ⟨⟨f 0, f 0, f 0⟩, ⟨f 1, f 1, f 1⟩⟩, (AABBTree3D.new id _ 10 1).get ?_, (Option.some_get _).symm, ?_⟩
  all_goals decide +kernel

end R3D

import Verif.Lemmas.AABBTree
import Verif.Props.BoundingBoxReal
/-
C22 / C23: queries of the AABB trees agree with a linear scan.
-/
namespace R3D
open Scalar LawfulScalar Spec

/-! ## 2D -/

/-- a box with finite ordered corners (what `new` accepts from finite points) -/
def ValidFin2 {α : Type} [Scalar α] [FiniteScalar α] (b : BoundingBox2D α) : Prop :=
  (box2 b).Valid ∧ ∀ d, FiniteScalar.fin ((box2 b).lo d) ∧ FiniteScalar.fin ((box2 b).hi d)

theorem lawfulBoxOps2 {α : Type} [Scalar α] [FiniteScalar α] :
    LawfulBoxOps (boxOps2 : BoxOps (BoundingBox2D α) (Point2D α)) ValidFin2
      (fun a b => (box2 a).Encloses (box2 b)) where
  refl a d := ⟨le_rfl, le_rfl⟩
  trans a b c h1 h2 d := ⟨(h1 d).1.trans (h2 d).1, (h2 d).2.trans (h1 d).2⟩
  valid a b ha hb := by
    have h := c17_combine_2d a b ha.1 hb.1
    refine ⟨by show (box2 (a.consume b)).Valid; rw [h.2.2.2.2.1]; exact h.1, ?_⟩
    have fmn : ∀ u v : α, FiniteScalar.fin u → FiniteScalar.fin v → FiniteScalar.fin (mn u v) := by
      intro u v hu hv
      rcases mn_mem u v with e | e <;> rw [e] <;> assumption
    have fmx : ∀ u v : α, FiniteScalar.fin u → FiniteScalar.fin v → FiniteScalar.fin (mx u v) := by
      intro u v hu hv
      rcases mx_mem u v with e | e <;> rw [e] <;> assumption
    have ha2 := ha.2
    have hb2 := hb.2
    show ∀ d, FiniteScalar.fin ((box2 (a.combine b)).lo d) ∧ FiniteScalar.fin ((box2 (a.combine b)).hi d)
    simp only [BoundingBox2D.combine_eq, Fin.forall_fin_two, at2_zero, at2_one, box2] at ha2 hb2 ⊢
    exact ⟨⟨fmn _ _ ha2.1.1 hb2.1.1, fmx _ _ ha2.1.2 hb2.1.2⟩, ⟨fmn _ _ ha2.2.1 hb2.2.1, fmx _ _ ha2.2.2 hb2.2.2⟩⟩
  left a b ha hb := (c17_combine_2d a b ha.1 hb.1).2.1
  right a b ha hb := (c17_combine_2d a b ha.1 hb.1).2.2.1
  split depth n b hn hb _ := by
    have key : ∀ lo hi nlo nhi : α, FiniteScalar.fin lo → FiniteScalar.fin hi → key lo < key hi →
        FiniteScalar.fin nlo → FiniteScalar.fin nhi →
        (lo <. nlo + (nhi - nlo) / lit 2) = true ∨ (hi >=. nlo + (nhi - nlo) / lit 2) = true := by
      intro lo hi nlo nhi h1 h2 h3 h4 h5
      have hm := FiniteScalar.mid_ok nlo nhi h4 h5
      rw [lt_of_ok (FiniteScalar.fin_ok _ h1) hm, le_of_ok hm (FiniteScalar.fin_ok _ h2)]
      rcases lt_or_ge (LawfulScalar.key lo) (LawfulScalar.key (nlo + (nhi - nlo) / lit 2)) with h | h
      · exact .inl h
      · exact .inr (h.trans h3.le)
    obtain ⟨⟨_, hlt⟩, hbf⟩ := hb
    obtain ⟨_, hnf⟩ := hn
    simp only [Fin.forall_fin_two, at2_zero, at2_one, box2] at hlt hbf hnf
    simp only [boxOps2, BoundingBox2D.centerBB]
    split
    · exact key _ _ _ _ hbf.1.1 hbf.1.2 hlt.1 hnf.1.1 hnf.1.2
    · exact key _ _ _ _ hbf.2.1 hbf.2.2 hlt.2 hnf.2.1 hnf.2.2

/-- C22 (2D), for reals and for binary64: construction succeeds, `any` is existence over the
elements and the crossing queries append exactly the elements whose own box crosses the value. -/
theorem c22_any_crossing {α HB : Type} [Scalar α] [FiniteScalar α] (bb : HB → BoundingBox2D α)
    (data : List HB) (maxdepth bucket : Nat) (hV : ∀ x ∈ data, ValidFin2 (bb x)) :
    ∃ t, AABBTree2D.new bb data maxdepth bucket = some t ∧
      (∀ f, t.any f = true ↔ ∃ x ∈ data, f x = true) ∧
      ∀ (v : α) (res : List HB), (∃ r, AABBTree2D.bbCrossingXValue bb t v res = some (res ++ r) ∧
        ∀ x, x ∈ r ↔ x ∈ data ∧ (bb x).crossingXValue v = true) ∧
      (∃ r, AABBTree2D.bbCrossingYValue bb t v res = some (res ++ r) ∧
        ∀ x, x ∈ r ↔ x ∈ data ∧ (bb x).crossingYValue v = true) := by
  obtain ⟨t, h1, hi⟩ := AABBTree.newRec_inv (bb := bb) (lawfulBoxOps2 (α := α)) bucket maxdepth 0 data hV
  refine ⟨t, h1, fun f => AABBTree.any_spec f hi, fun v res => ⟨?_, ?_⟩⟩
  · obtain ⟨r, hr, hr'⟩ := AABBTree.visit_spec (test := fun b => some (b.crossingXValue v))
      (fun b _ => ⟨_, rfl⟩) (by
        intro a b ha hb he h
        have ha' := ha.1.1
        simp only [Option.some.injEq, BoundingBox2D.crossingXValue, Bool.and_eq_true, lt_iff] at h ⊢
        simp only [Box.Ok, Box.Encloses, Fin.forall_fin_two, at2_zero, at2_one, box2] at ha' he
        exact ⟨⟨ha'.1.1, h.1.2.1, lt_of_le_of_lt he.1.1 h.1.2.2⟩,
          h.2.1, ha'.1.2, lt_of_lt_of_le h.2.2.2 he.1.2⟩) hi
    refine ⟨r, by simp only [AABBTree2D.bbCrossingXValue, hr, Option.map_some], fun x => ?_⟩
    rw [hr']
    simp
  · obtain ⟨r, hr, hr'⟩ := AABBTree.visit_spec (test := fun b => some (b.crossingYValue v))
      (fun b _ => ⟨_, rfl⟩) (by
        intro a b ha hb he h
        have ha' := ha.1.1
        simp only [Option.some.injEq, BoundingBox2D.crossingYValue, Bool.and_eq_true, lt_iff] at h ⊢
        simp only [Box.Ok, Box.Encloses, Fin.forall_fin_two, at2_zero, at2_one, box2] at ha' he
        exact ⟨⟨ha'.2.1, h.1.2.1, lt_of_le_of_lt he.2.1 h.1.2.2⟩,
          h.2.1, ha'.2.2, lt_of_lt_of_le h.2.2.2 he.2.2⟩) hi
    refine ⟨r, by simp only [AABBTree2D.bbCrossingYValue, hr, Option.map_some], fun x => ?_⟩
    rw [hr']
    simp

/-- C22 (2D), exact arithmetic: the collision queries report exactly the elements whose own
box overlaps the query box. -/
theorem c22_collision {HB : Type} (bb : HB → BoundingBox2D ℝ) (data : List HB) (maxdepth bucket : Nat)
    (hV : ∀ x ∈ data, (box2 (bb x)).Valid) :
    ∃ t, AABBTree2D.new bb data maxdepth bucket = some t ∧
      ∀ (q : BoundingBox2D ℝ), (box2 q).Valid → ∃ r, AABBTree2D.forEachCollisionCandidate bb t q = some r ∧
        (∀ res, AABBTree2D.bbColliding bb t q res = some (res ++ r)) ∧
        ∀ x, x ∈ r ↔ x ∈ data ∧ ∃ p, (box2 (bb x)).MemInt p ∧ (box2 q).MemInt p := by
  obtain ⟨t, h1, hi⟩ := AABBTree.newRec_inv (bb := bb) (lawfulBoxOps2 (α := ℝ)) bucket maxdepth 0 data
    (fun x hx => ⟨hV x hx, fun _ => ⟨trivial, trivial⟩⟩)
  refine ⟨t, h1, fun q hq => ?_⟩
  obtain ⟨r, hr, hr'⟩ := AABBTree.visit_spec (test := fun b => b.collidesWith q)
      (fun b hb => (c18_collides_2d b q hb.1 hq).imp fun _ h => h.1) (by
        intro a b ha hb he h
        exact (c18_collides_relation_2d b q hb.1 hq).2.2 a q ha.1 hq he (fun _ => ⟨le_rfl, le_rfl⟩) h) hi
  refine ⟨r, hr, fun res => by simp only [AABBTree2D.bbColliding, hr, Option.map_some], fun x => ?_⟩
  rw [hr']
  refine and_congr_right fun hx => ?_
  obtain ⟨v, e1, e2⟩ := c18_collides_2d (bb x) q (hV x hx) hq
  rw [e1, ← e2]
  simp

/-! ## 3D -/

/-- a box with finite ordered corners (what `new` accepts from finite points) -/
def ValidFin3 {α : Type} [Scalar α] [FiniteScalar α] (b : BoundingBox3D α) : Prop :=
  (box3 b).Valid ∧ ∀ d, FiniteScalar.fin ((box3 b).lo d) ∧ FiniteScalar.fin ((box3 b).hi d)

theorem lawfulBoxOps3 {α : Type} [Scalar α] [FiniteScalar α] :
    LawfulBoxOps (boxOps3 : BoxOps (BoundingBox3D α) (Point3D α)) ValidFin3
      (fun a b => (box3 a).Encloses (box3 b)) where
  refl a d := ⟨le_rfl, le_rfl⟩
  trans a b c h1 h2 d := ⟨(h1 d).1.trans (h2 d).1, (h2 d).2.trans (h1 d).2⟩
  valid a b ha hb := by
    have h := c17_combine_3d a b ha.1 hb.1
    refine ⟨by show (box3 (a.consume b)).Valid; rw [h.2.2.2.2.1]; exact h.1, ?_⟩
    have fmn : ∀ u v : α, FiniteScalar.fin u → FiniteScalar.fin v → FiniteScalar.fin (mn u v) := by
      intro u v hu hv
      rcases mn_mem u v with e | e <;> rw [e] <;> assumption
    have fmx : ∀ u v : α, FiniteScalar.fin u → FiniteScalar.fin v → FiniteScalar.fin (mx u v) := by
      intro u v hu hv
      rcases mx_mem u v with e | e <;> rw [e] <;> assumption
    have ha2 := ha.2
    have hb2 := hb.2
    show ∀ d, FiniteScalar.fin ((box3 (a.combine b)).lo d) ∧ FiniteScalar.fin ((box3 (a.combine b)).hi d)
    simp only [BoundingBox3D.combine_eq, forall_fin3, at3_zero, at3_one, at3_two, box3] at ha2 hb2 ⊢
    exact ⟨⟨fmn _ _ ha2.1.1 hb2.1.1, fmx _ _ ha2.1.2 hb2.1.2⟩, ⟨fmn _ _ ha2.2.1.1 hb2.2.1.1, fmx _ _ ha2.2.1.2 hb2.2.1.2⟩, ⟨fmn _ _ ha2.2.2.1 hb2.2.2.1, fmx _ _ ha2.2.2.2 hb2.2.2.2⟩⟩
  left a b ha hb := (c17_combine_3d a b ha.1 hb.1).2.1
  right a b ha hb := (c17_combine_3d a b ha.1 hb.1).2.2.1
  split depth n b hn hb _ := by
    have key : ∀ lo hi nlo nhi : α, FiniteScalar.fin lo → FiniteScalar.fin hi → key lo < key hi →
        FiniteScalar.fin nlo → FiniteScalar.fin nhi →
        (lo <. nlo + (nhi - nlo) / lit 2) = true ∨ (hi >=. nlo + (nhi - nlo) / lit 2) = true := by
      intro lo hi nlo nhi h1 h2 h3 h4 h5
      have hm := FiniteScalar.mid_ok nlo nhi h4 h5
      rw [lt_of_ok (FiniteScalar.fin_ok _ h1) hm, le_of_ok hm (FiniteScalar.fin_ok _ h2)]
      rcases lt_or_ge (LawfulScalar.key lo) (LawfulScalar.key (nlo + (nhi - nlo) / lit 2)) with h | h
      · exact .inl h
      · exact .inr (h.trans h3.le)
    obtain ⟨⟨_, hlt⟩, hbf⟩ := hb
    obtain ⟨_, hnf⟩ := hn
    simp only [forall_fin3, at3_zero, at3_one, at3_two, box3] at hlt hbf hnf
    simp only [boxOps3, BoundingBox3D.centerBB]
    split
    · exact key _ _ _ _ hbf.1.1 hbf.1.2 hlt.1 hnf.1.1 hnf.1.2
    · exact key _ _ _ _ hbf.2.1.1 hbf.2.1.2 hlt.2.1 hnf.2.1.1 hnf.2.1.2
    · exact key _ _ _ _ hbf.2.2.1 hbf.2.2.2 hlt.2.2 hnf.2.2.1 hnf.2.2.2

/-- C23 (3D), for reals and for binary64: construction succeeds, `any` is existence over the
elements and the crossing queries append exactly the elements whose own box crosses the value. -/
theorem c23_any_crossing {α HB : Type} [Scalar α] [FiniteScalar α] (bb : HB → BoundingBox3D α)
    (data : List HB) (maxdepth bucket : Nat) (hV : ∀ x ∈ data, ValidFin3 (bb x)) :
    ∃ t, AABBTree3D.new bb data maxdepth bucket = some t ∧
      (∀ f, t.any f = true ↔ ∃ x ∈ data, f x = true) ∧
      ∀ (v : α) (res : List HB), (∃ r, AABBTree3D.bbCrossingXValue bb t v res = some (res ++ r) ∧
        ∀ x, x ∈ r ↔ x ∈ data ∧ (bb x).crossingXValue v = true) ∧
      (∃ r, AABBTree3D.bbCrossingYValue bb t v res = some (res ++ r) ∧
        ∀ x, x ∈ r ↔ x ∈ data ∧ (bb x).crossingYValue v = true) ∧
      (∃ r, AABBTree3D.bbCrossingZValue bb t v res = some (res ++ r) ∧
        ∀ x, x ∈ r ↔ x ∈ data ∧ (bb x).crossingZValue v = true) := by
  obtain ⟨t, h1, hi⟩ := AABBTree.newRec_inv (bb := bb) (lawfulBoxOps3 (α := α)) bucket maxdepth 0 data hV
  refine ⟨t, h1, fun f => AABBTree.any_spec f hi, fun v res => ⟨?_, ?_, ?_⟩⟩
  · obtain ⟨r, hr, hr'⟩ := AABBTree.visit_spec (test := fun b => some (b.crossingXValue v))
      (fun b _ => ⟨_, rfl⟩) (by
        intro a b ha hb he h
        have ha' := ha.1.1
        simp only [Option.some.injEq, BoundingBox3D.crossingXValue, Bool.and_eq_true, lt_iff] at h ⊢
        simp only [Box.Ok, Box.Encloses, forall_fin3, at3_zero, at3_one, at3_two, box3] at ha' he
        exact ⟨⟨ha'.1.1, h.1.2.1, lt_of_le_of_lt he.1.1 h.1.2.2⟩,
          h.2.1, ha'.1.2, lt_of_lt_of_le h.2.2.2 he.1.2⟩) hi
    refine ⟨r, by simp only [AABBTree3D.bbCrossingXValue, hr, Option.map_some], fun x => ?_⟩
    rw [hr']
    simp
  · obtain ⟨r, hr, hr'⟩ := AABBTree.visit_spec (test := fun b => some (b.crossingYValue v))
      (fun b _ => ⟨_, rfl⟩) (by
        intro a b ha hb he h
        have ha' := ha.1.1
        simp only [Option.some.injEq, BoundingBox3D.crossingYValue, Bool.and_eq_true, lt_iff] at h ⊢
        simp only [Box.Ok, Box.Encloses, forall_fin3, at3_zero, at3_one, at3_two, box3] at ha' he
        exact ⟨⟨ha'.2.1.1, h.1.2.1, lt_of_le_of_lt he.2.1.1 h.1.2.2⟩,
          h.2.1, ha'.2.1.2, lt_of_lt_of_le h.2.2.2 he.2.1.2⟩) hi
    refine ⟨r, by simp only [AABBTree3D.bbCrossingYValue, hr, Option.map_some], fun x => ?_⟩
    rw [hr']
    simp
  · obtain ⟨r, hr, hr'⟩ := AABBTree.visit_spec (test := fun b => some (b.crossingZValue v))
      (fun b _ => ⟨_, rfl⟩) (by
        intro a b ha hb he h
        have ha' := ha.1.1
        simp only [Option.some.injEq, BoundingBox3D.crossingZValue, Bool.and_eq_true, lt_iff] at h ⊢
        simp only [Box.Ok, Box.Encloses, forall_fin3, at3_zero, at3_one, at3_two, box3] at ha' he
        exact ⟨⟨ha'.2.2.1, h.1.2.1, lt_of_le_of_lt he.2.2.1 h.1.2.2⟩,
          h.2.1, ha'.2.2.2, lt_of_lt_of_le h.2.2.2 he.2.2.2⟩) hi
    refine ⟨r, by simp only [AABBTree3D.bbCrossingZValue, hr, Option.map_some], fun x => ?_⟩
    rw [hr']
    simp

/-- C23 (3D), exact arithmetic: the collision queries report exactly the elements whose own
box overlaps the query box. -/
theorem c23_collision {HB : Type} (bb : HB → BoundingBox3D ℝ) (data : List HB) (maxdepth bucket : Nat)
    (hV : ∀ x ∈ data, (box3 (bb x)).Valid) :
    ∃ t, AABBTree3D.new bb data maxdepth bucket = some t ∧
      ∀ (q : BoundingBox3D ℝ), (box3 q).Valid → ∃ r, AABBTree3D.forEachCollisionCandidate bb t q = some r ∧
        (∀ res, AABBTree3D.bbColliding bb t q res = some (res ++ r)) ∧
        ∀ x, x ∈ r ↔ x ∈ data ∧ ∃ p, (box3 (bb x)).MemInt p ∧ (box3 q).MemInt p := by
  obtain ⟨t, h1, hi⟩ := AABBTree.newRec_inv (bb := bb) (lawfulBoxOps3 (α := ℝ)) bucket maxdepth 0 data
    (fun x hx => ⟨hV x hx, fun _ => ⟨trivial, trivial⟩⟩)
  refine ⟨t, h1, fun q hq => ?_⟩
  obtain ⟨r, hr, hr'⟩ := AABBTree.visit_spec (test := fun b => b.collidesWith q)
      (fun b hb => (c18_collides_3d b q hb.1 hq).imp fun _ h => h.1) (by
        intro a b ha hb he h
        exact (c18_collides_relation_3d b q hb.1 hq).2.2 a q ha.1 hq he (fun _ => ⟨le_rfl, le_rfl⟩) h) hi
  refine ⟨r, hr, fun res => by simp only [AABBTree3D.bbColliding, hr, Option.map_some], fun x => ?_⟩
  rw [hr']
  refine and_congr_right fun hx => ?_
  obtain ⟨v, e1, e2⟩ := c18_collides_3d (bb x) q (hV x hx) hq
  rw [e1, ← e2]
  simp

/-- C23: `any_element_collides_with_bounding` and `..._with_collider` over the candidates. -/
theorem c23_any_element {HB : Type} (bb : HB → BoundingBox3D ℝ) (data : List HB) (maxdepth bucket : Nat)
    (hV : ∀ x ∈ data, (box3 (bb x)).Valid) :
    ∃ t, AABBTree3D.new bb data maxdepth bucket = some t ∧
      ∀ (q : BoundingBox3D ℝ), (box3 q).Valid →
        (∃ v, AABBTree3D.anyElementCollidesWithBounding bb t q = some v ∧
          (v = true ↔ ∃ x ∈ data, ∃ p, (box3 (bb x)).MemInt p ∧ (box3 q).MemInt p)) ∧
        ∀ collides, ∃ v, AABBTree3D.anyElementCollidesWithCollider bb collides t q = some v ∧
          (v = true ↔ ∃ x ∈ data, (∃ p, (box3 (bb x)).MemInt p ∧ (box3 q).MemInt p) ∧
            collides x = true) := by
  obtain ⟨t, h1, h2⟩ := c23_collision bb data maxdepth bucket hV
  refine ⟨t, h1, fun q hq => ?_⟩
  obtain ⟨r, hr, _, hr'⟩ := h2 q hq
  have hf : ∀ (collides : HB → Bool) (l : List HB) (acc : Bool),
      l.foldl (fun acc c => if !acc then collides c else acc) acc = (acc || l.any collides) := by
    intro collides l
    induction l with
    | nil => simp
    | cons c l ih => intro acc; rw [List.foldl_cons, ih]; cases acc <;> simp
  refine ⟨⟨!r.isEmpty, by simp only [AABBTree3D.anyElementCollidesWithBounding, hr, Option.map_some], ?_⟩,
    fun collides => ⟨r.any collides, ?_, ?_⟩⟩
  · rw [Bool.not_eq_true', List.isEmpty_eq_false_iff_exists_mem]
    simp only [hr']
  · simp only [AABBTree3D.anyElementCollidesWithCollider, hr, Option.map_some, hf, Bool.false_or]
  · simp only [List.any_eq_true, hr']
    constructor
    · rintro ⟨x, ⟨a, b⟩, c⟩; exact ⟨x, a, b, c⟩
    · rintro ⟨x, a, b, c⟩; exact ⟨x, ⟨a, b⟩, c⟩

theorem min64_real (a b : ℝ) : AABBTree3D.min64 a b = min a b := by
  unfold AABBTree3D.min64
  rcases lt_or_ge a b with h | h
  · simp [h, h.le]
  · simp [not_lt.2 h, h]

theorem max64_real (a b : ℝ) : AABBTree3D.max64 a b = max a b := by
  unfold AABBTree3D.max64
  rcases lt_or_ge b a with h | h
  · simp [h, h.le]
  · simp [not_lt.2 h, h]

theorem slab_mono {lo hi lo' hi' a i : ℝ} (h1 : lo' ≤ lo) (h2 : hi ≤ hi') (h3 : lo ≤ hi) :
    (AABBTree3D.slab lo' hi' a i).1 ≤ (AABBTree3D.slab lo hi a i).1 ∧
    (AABBTree3D.slab lo hi a i).2 ≤ (AABBTree3D.slab lo' hi' a i).2 := by
  simp only [AABBTree3D.slab, min64_real, max64_real]
  rcases le_total 0 i with hi0 | hi0
  · have e1 : (lo' - a) * i ≤ (lo - a) * i := mul_le_mul_of_nonneg_right (by linarith) hi0
    have e2 : (hi - a) * i ≤ (hi' - a) * i := mul_le_mul_of_nonneg_right (by linarith) hi0
    have e3 : (lo - a) * i ≤ (hi - a) * i := mul_le_mul_of_nonneg_right (by linarith) hi0
    rw [min_eq_left e3, max_eq_right e3]
    exact ⟨(min_le_left _ _).trans e1, e2.trans (le_max_right _ _)⟩
  · have e1 : (lo - a) * i ≤ (lo' - a) * i := mul_le_mul_of_nonpos_right (by linarith) hi0
    have e2 : (hi' - a) * i ≤ (hi - a) * i := mul_le_mul_of_nonpos_right (by linarith) hi0
    have e3 : (hi - a) * i ≤ (lo - a) * i := mul_le_mul_of_nonpos_right (by linarith) hi0
    rw [min_eq_right e3, max_eq_left e3]
    exact ⟨(min_le_right _ _).trans e2, e1.trans (le_max_left _ _)⟩

/-- C23, exact arithmetic, line without a zero direction component: the line query reports exactly the
elements whose own box passes the library's line test. Missing for the full statement: zero direction
components (division by zero gives infinities and NaN in binary64), where it is false
(`c23_line_violated`). -/
theorem c23_line_partial {HB : Type} (bb : HB → BoundingBox3D ℝ) (data : List HB) (maxdepth bucket : Nat)
    (hV : ∀ x ∈ data, (box3 (bb x)).Valid) :
    ∃ t, AABBTree3D.new bb data maxdepth bucket = some t ∧
      ∀ (anchor dir : Point3D ℝ), (∀ d, at3 dir d ≠ 0) →
        ∃ r, AABBTree3D.forEachIntersectionCandidate bb t anchor dir = some r ∧
        ∀ x, x ∈ r ↔ x ∈ data ∧ (AABBTree3D.lineIntersection anchor dir (bb x)).isSome = true := by
  obtain ⟨t, h1, hi⟩ := AABBTree.newRec_inv (bb := bb) (lawfulBoxOps3 (α := ℝ)) bucket maxdepth 0 data
    (fun x hx => ⟨hV x hx, fun _ => ⟨trivial, trivial⟩⟩)
  refine ⟨t, h1, fun anchor dir _ => ?_⟩
  obtain ⟨r, hr, hr'⟩ := AABBTree.visit_spec
      (test := fun b => some (AABBTree3D.lineIntersection anchor dir b).isSome)
      (fun b _ => ⟨_, rfl⟩) (by
        intro a b ha hb he h
        have hb' := (valid_real_3d b).1 hb.1
        simp only [Box.Encloses, forall_fin3, at3_zero, at3_one, at3_two, box3, Real.key_le] at he
        have mx := slab_mono (a := anchor.x) (i := 1 / dir.x) he.1.1 he.1.2 hb'.1.le
        have my := slab_mono (a := anchor.y) (i := 1 / dir.y) he.2.1.1 he.2.1.2 hb'.2.1.le
        have mz := slab_mono (a := anchor.z) (i := 1 / dir.z) he.2.2.1 he.2.2.2 hb'.2.2.le
        simp only [AABBTree3D.lineIntersection, min64_real, max64_real, Real.scalar_le, Real.scalar_lit,
          Real.scalar_zero, Rat.cast_one, Option.some.injEq] at h ⊢
        split at h
        · rename_i hc
          rw [if_pos]
          · rfl
          · simp only [Bool.and_eq_true, decide_eq_true_eq, max_le_iff, le_min_iff] at hc ⊢
            obtain ⟨⟨⟨⟨⟨c1, c2⟩, c3⟩, ⟨c4, c5⟩, c6⟩, ⟨c7, c8⟩, c9⟩, ⟨c10, c11⟩, c12⟩ := hc
            refine ⟨⟨⟨⟨⟨?_, ?_⟩, ?_⟩, ⟨?_, ?_⟩, ?_⟩, ⟨?_, ?_⟩, ?_⟩, ⟨?_, ?_⟩, ?_⟩ <;> linarith
        · simp at h) hi
  refine ⟨r, hr, fun x => ?_⟩
  rw [hr']
  simp

/-! ### binary64 witnesses -/

/-- small literals of the witnesses -/
def f (q : ℚ) : F64 := F64.ofRat q

/-- C22 / C23 in binary64: pruning with rounded arithmetic can lose an element a linear scan reports.
The element `[0,2]²` collides with the query `[-1,1]²`, but the tree over it and `[2^60 - 2^30, 2^60]²`
prunes at the root. -/
theorem c22_float_miss : ∃ (e1 e2 q : BoundingBox2D F64) (t : AABBTree2D F64 (BoundingBox2D F64)),
    AABBTree2D.new id [e1, e2] 10 1 = some t ∧ e1.collidesWith q = some true ∧
    AABBTree2D.bbColliding id t q [] = some [] := by
  refine ⟨⟨⟨f 0, f 0⟩, ⟨f 2, f 2⟩⟩, ⟨⟨f (2^60 - 2^30), f (2^60 - 2^30)⟩, ⟨f (2^60), f (2^60)⟩⟩,
    ⟨⟨f (-1), f (-1)⟩, ⟨f 1, f 1⟩⟩, (AABBTree2D.new id _ 10 1).get ?_, (Option.some_get _).symm, ?_, ?_⟩
  all_goals decide +kernel

/-- C23 line query violated in binary64: for a line parallel to two axes whose anchor lies on the top
y face of an element the library's own line test accepts the element (a NaN drops the x test), but the
enclosing node is pruned, so the tree query misses an element the linear scan reports. -/
theorem c23_line_violated : ∃ (e1 e2 : BoundingBox3D F64) (anchor dir : Point3D F64)
    (t : AABBTree3D F64 (BoundingBox3D F64)),
    AABBTree3D.new id [e1, e2] 10 1 = some t ∧
    (AABBTree3D.lineIntersection anchor dir e1).isSome = true ∧
    AABBTree3D.forEachIntersectionCandidate id t anchor dir = some [] := by
  refine ⟨⟨⟨f 0, f 0, f 0⟩, ⟨f 1, f 1, f 1⟩⟩, ⟨⟨f 0, f 2, f 0⟩, ⟨f 1, f 3, f 1⟩⟩,
    ⟨f 5, f 1, f (-1)⟩, ⟨f 0, f 0, f 1⟩, (AABBTree3D.new id _ 10 1).get ?_, (Option.some_get _).symm, ?_, ?_⟩
  all_goals decide +kernel

/-- C22: a box with infinite corners (accepted by `BoundingBox2D::new`) makes the split position NaN and
all elements are lost, even for `any`. -/
theorem c22_infinite_lost : ∃ (e1 e2 : BoundingBox2D F64) (t : AABBTree2D F64 (BoundingBox2D F64)),
    BoundingBox2D.new e1.min e1.max = .ok e1 ∧ BoundingBox2D.new e2.min e2.max = .ok e2 ∧
    AABBTree2D.new id [e1, e2] 10 1 = some t ∧ t.any (fun _ => true) = false := by
  refine ⟨⟨⟨.inf true, .inf true⟩, ⟨.inf false, .inf false⟩⟩, ⟨⟨f 0, f 0⟩, ⟨f 1, f 1⟩⟩,
    (AABBTree2D.new id _ 10 1).get ?_, ?_, ?_, (Option.some_get _).symm, ?_⟩
  all_goals decide +kernel

/-- hypotheses of the crossing theorem are met in binary64 -/
example : ValidFin2 (⟨⟨f 0, f 0⟩, ⟨f 1, f (1/10)⟩⟩ : BoundingBox2D F64) := by
  have e0 : f 0 = .fin false 0 := by decide +kernel
  have e1 : f 1 = .fin false 1 := by decide +kernel
  have e2 : f (1/10) = .fin false (3602879701896397 / 36028797018963968) := by decide +kernel
  refine ⟨⟨?_, ?_⟩, ?_⟩
  · simp only [Box.Ok, Fin.forall_fin_two, box2, at2_zero, at2_one, e0, e1, e2]
    simp [LawfulScalar.ok, F64.ok]
  · simp only [Fin.forall_fin_two, box2, at2_zero, at2_one, e0, e1, e2]
    simp [LawfulScalar.key, F64.key, F64.val]
  · simp only [Fin.forall_fin_two, box2, at2_zero, at2_one, e0, e1, e2]
    exact ⟨⟨⟨_, _, rfl⟩, ⟨_, _, rfl⟩⟩, ⟨_, _, rfl⟩, ⟨_, _, rfl⟩⟩

/-- hypotheses of the collision and line theorems are met by two overlapping boxes -/
example : ∀ x ∈ [(⟨⟨0, 0, 0⟩, ⟨2, 2, 2⟩⟩ : BoundingBox3D ℝ), ⟨⟨1, 1, 1⟩, ⟨3, 4, 5⟩⟩], (box3 x).Valid := by
  intro x hx
  rw [valid_real_3d]
  simp only [List.mem_cons, List.not_mem_nil, or_false] at hx
  rcases hx with rfl | rfl <;> norm_num

example : ∀ x ∈ [(⟨⟨0, 0⟩, ⟨2, 2⟩⟩ : BoundingBox2D ℝ), ⟨⟨1, 1⟩, ⟨3, 4⟩⟩], (box2 x).Valid := by
  intro x hx
  rw [valid_real_2d]
  simp only [List.mem_cons, List.not_mem_nil, or_false] at hx
  rcases hx with rfl | rfl <;> norm_num

example : ∀ d, at3 (⟨1, -2, 3⟩ : Point3D ℝ) d ≠ 0 := by
  rw [forall_fin3]; norm_num [at3_zero, at3_one, at3_two]

end R3D

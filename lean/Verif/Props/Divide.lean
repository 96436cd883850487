import Verif.Props.Monotone
import Verif.Props.Closest
import Verif.Props.KdGrid
import Verif.Props.MeshAlgo
import Verif.Props.Order
/-!
# C138: data divided into parts

Results for the whole data follow from the results for its parts.
-/
namespace R3D
open Scalar LawfulScalar Spec KdTree MeshAlgoSpec

section
variable {α : Type} [Scalar α] [LawfulScalar α]

/-! ### bounding boxes -/

/-- **C138** for bounding boxes, for any numbers but NaN: the box of all points is the combination of the boxes of the parts (equal as numbers), and consuming
the one into the other gives it as well. -/
theorem c138_bounding_box_2d (l m : List (Point2D α)) (hok : ∀ p ∈ l ++ m, ∀ d, ok (at2 p d)) (a b : BoundingBox2D α)
    (ha : BoundingBox2D.fromIterator l = .ok a) (hb : BoundingBox2D.fromIterator m = .ok b) :
    ∃ c, BoundingBox2D.fromIterator (l ++ m) = .ok c ∧ (box2 c).NumEq (box2 (a.combine b)) ∧ (box2 c).NumEq (box2 (a.consume b)) := by
  have key : ∀ (n : List (Point2D α)) (u : BoundingBox2D α), (∀ p ∈ n, ∀ d, ok (at2 p d)) → BoundingBox2D.fromIterator n = .ok u →
      (box2 u).Valid ∧ (∀ p ∈ n, (box2 u).Mem (at2 p)) ∧ ∀ c : Box 2 α, (∀ p ∈ n, c.Mem (at2 p)) → c.Encloses (box2 u) := by
    intro n u ho h
    obtain ⟨a1, a2, a3⟩ := c16_from_iterator_2d n ho
    have l2 : 2 ≤ n.length := by
      by_contra hc
      rw [a1 (by omega)] at h
      cases h
    have hd : ∀ d, ∃ p ∈ n, ∃ q ∈ n, LawfulScalar.key (at2 p d) ≠ LawfulScalar.key (at2 q d) := by
      by_contra hc
      push Not at hc
      rw [a2 l2 hc] at h
      cases h
    obtain ⟨c, hc, h1, h2, -, h4⟩ := a3 l2 hd
    cases h.symm.trans hc
    exact ⟨h1, h2, h4⟩
  obtain ⟨va, ma, ea⟩ := key l a (fun p h => hok p (by simp [h])) ha
  obtain ⟨vb, mb, eb⟩ := key m b (fun p h => hok p (by simp [h])) hb
  obtain ⟨c, hc, -⟩ := c131_bounding_box l (l ++ m) (by simp +contextual) (by simp) hok a ha
  obtain ⟨vc, mc, ec⟩ := key (l ++ m) c hok hc
  obtain ⟨-, c1, c2, c3, c4, -⟩ := c17_combine_2d a b va vb
  have e1 : (box2 c).Encloses (box2 (a.combine b)) := c3 _ (ea _ fun p h => mc p (by simp [h])) (eb _ fun p h => mc p (by simp [h]))
  have e2 : (box2 (a.combine b)).Encloses (box2 c) := ec _ fun p h => by
    rcases List.mem_append.1 h with h | h
    · exact fun d => ⟨(c1 d).1.trans (ma p h d).1, (ma p h d).2.trans (c1 d).2⟩
    · exact fun d => ⟨(c2 d).1.trans (mb p h d).1, (mb p h d).2.trans (c2 d).2⟩
  have e3 : (box2 c).NumEq (box2 (a.combine b)) := fun d => ⟨le_antisymm (e1 d).1 (e2 d).1, le_antisymm (e2 d).2 (e1 d).2⟩
  exact ⟨c, hc, e3, by rw [c4]; exact e3⟩

/-- **C138** for bounding boxes in three dimensions -/
theorem c138_bounding_box_3d (l m : List (Point3D α)) (hok : ∀ p ∈ l ++ m, ∀ d, ok (at3 p d)) (a b : BoundingBox3D α)
    (ha : BoundingBox3D.fromIterator l = .ok a) (hb : BoundingBox3D.fromIterator m = .ok b) :
    ∃ c, BoundingBox3D.fromIterator (l ++ m) = .ok c ∧ (box3 c).NumEq (box3 (a.combine b)) ∧ (box3 c).NumEq (box3 (a.consume b)) := by
  have key : ∀ (n : List (Point3D α)) (u : BoundingBox3D α), (∀ p ∈ n, ∀ d, ok (at3 p d)) → BoundingBox3D.fromIterator n = .ok u →
      (box3 u).Valid ∧ (∀ p ∈ n, (box3 u).Mem (at3 p)) ∧ ∀ c : Box 3 α, (∀ p ∈ n, c.Mem (at3 p)) → c.Encloses (box3 u) := by
    intro n u ho h
    obtain ⟨a1, a2, a3⟩ := c16_from_iterator_3d n ho
    have l2 : 2 ≤ n.length := by
      by_contra hc
      rw [a1 (by omega)] at h
      cases h
    have hd : ∀ d, ∃ p ∈ n, ∃ q ∈ n, LawfulScalar.key (at3 p d) ≠ LawfulScalar.key (at3 q d) := by
      by_contra hc
      push Not at hc
      rw [a2 l2 hc] at h
      cases h
    obtain ⟨c, hc, h1, h2, -, h4⟩ := a3 l2 hd
    cases h.symm.trans hc
    exact ⟨h1, h2, h4⟩
  obtain ⟨va, ma, ea⟩ := key l a (fun p h => hok p (by simp [h])) ha
  obtain ⟨vb, mb, eb⟩ := key m b (fun p h => hok p (by simp [h])) hb
  obtain ⟨c, hc, -⟩ := c131_bounding_box_3d l (l ++ m) (by simp +contextual) (by simp) hok a ha
  obtain ⟨vc, mc, ec⟩ := key (l ++ m) c hok hc
  obtain ⟨-, c1, c2, c3, c4, -⟩ := c17_combine_3d a b va vb
  have e1 : (box3 c).Encloses (box3 (a.combine b)) := c3 _ (ea _ fun p h => mc p (by simp [h])) (eb _ fun p h => mc p (by simp [h]))
  have e2 : (box3 (a.combine b)).Encloses (box3 c) := ec _ fun p h => by
    rcases List.mem_append.1 h with h | h
    · exact fun d => ⟨(c1 d).1.trans (ma p h d).1, (ma p h d).2.trans (c1 d).2⟩
    · exact fun d => ⟨(c2 d).1.trans (mb p h d).1, (mb p h d).2.trans (c2 d).2⟩
  have e3 : (box3 c).NumEq (box3 (a.combine b)) := fun d => ⟨le_antisymm (e1 d).1 (e2 d).1, le_antisymm (e2 d).2 (e1 d).2⟩
  exact ⟨c, hc, e3, by rw [c4]; exact e3⟩

/-- the hypotheses are met -/
example : ∃ a b : BoundingBox3D F64, BoundingBox3D.fromIterator [⟨f 0, f 0, f 0⟩, ⟨f 1, f 2, f 3⟩] = .ok a ∧
    BoundingBox3D.fromIterator [⟨f 5, f 5, f 5⟩, ⟨f 0, f 1, f 7⟩] = .ok b ∧
    BoundingBox3D.fromIterator ([⟨f 0, f 0, f 0⟩, ⟨f 1, f 2, f 3⟩] ++ [⟨f 5, f 5, f 5⟩, ⟨f 0, f 1, f 7⟩]) = .ok (a.combine b) :=
  ⟨⟨⟨f 0, f 0, f 0⟩, ⟨f 1, f 2, f 3⟩⟩, ⟨⟨f 0, f 1, f 5⟩, ⟨f 5, f 5, f 7⟩⟩, by decide +kernel, by decide +kernel, by decide +kernel⟩
example : ∃ a b : BoundingBox2D F64, BoundingBox2D.fromIterator [⟨f 0, f 0⟩, ⟨f 1, f 2⟩] = .ok a ∧
    BoundingBox2D.fromIterator [⟨f 5, f 5⟩, ⟨f 0, f 1⟩] = .ok b :=
  ⟨⟨⟨f 0, f 0⟩, ⟨f 1, f 2⟩⟩, ⟨⟨f 0, f 1⟩, ⟨f 5, f 5⟩⟩, by decide +kernel, by decide +kernel⟩

/-! ### rays -/

variable {HB : Type}

/-- of two hits the one nearer to the anchor, the first if they are equally near -/
def Spec.nearerHit (anchor : Point3D α) : Option (Point3D α × HB) → Option (Point3D α × HB) → Option (Point3D α × HB)
  | none, b => b
  | some a, none => some a
  | some a, some b => if anchor.sqrDist b.1 <. anchor.sqrDist a.1 then some b else some a

omit [LawfulScalar α] in
theorem closest_reports (bb : HB → Option (BoundingBox3D α)) (anchor dir : Point3D α) (l : List HB) :
    ∀ p x, closestIntersecting bb anchor dir l = some (p, x) → x ∈ l ∧ Reports bb anchor dir x p := by
  induction l using List.reverseRecOn with
  | nil => intro p x h; cases h
  | append_singleton l y ih =>
    intro p x h
    rw [closest_snoc] at h
    have ih' := ih p x
    rcases eb : bb y with _ | b
    · rw [eb] at h
      exact ⟨by simp [(ih' h).1], (ih' h).2⟩
    · rw [eb] at h
      simp only at h
      rcases ei : AABBTree3D.lineIntersection anchor dir b with _ | i
      · rw [ei] at h
        exact ⟨by simp [(ih' h).1], (ih' h).2⟩
      · rw [ei] at h
        simp only at h
        rcases er : closestIntersecting bb anchor dir l with _ | r
        · rw [er] at h
          simp only [Option.some.injEq, Prod.mk.injEq] at h
          obtain ⟨rfl, rfl⟩ := h
          exact ⟨by simp, b, eb, ei⟩
        · rw [er] at h ih'
          simp only at h
          split at h
          · simp only [Option.some.injEq, Prod.mk.injEq] at h
            obtain ⟨rfl, rfl⟩ := h
            exact ⟨by simp, b, eb, ei⟩
          · exact ⟨by simp [(ih' h).1], (ih' h).2⟩

/-- **C138** for rays, for any numbers as long as no computed distance is NaN: the closest hit of all elements is the nearer of the closest hits
of the parts, and the hits of all elements are the hits of the parts one after the other. -/
theorem c138_closest (bb : HB → Option (BoundingBox3D α)) (anchor dir : Point3D α) (l m : List HB)
    (hok : ∀ hb ∈ l ++ m, ∀ p, Reports bb anchor dir hb p → ok (anchor.sqrDist p)) :
    closestIntersecting bb anchor dir (l ++ m) =
      nearerHit anchor (closestIntersecting bb anchor dir l) (closestIntersecting bb anchor dir m) ∧
    forEachIntersecting bb anchor dir (l ++ m) = forEachIntersecting bb anchor dir l ++ forEachIntersecting bb anchor dir m := by
  refine ⟨?_, (c47_for_each bb anchor dir l).2.2 m⟩
  induction m using List.reverseRecOn with
  | nil =>
    rw [List.append_nil]
    show _ = nearerHit anchor _ none
    cases closestIntersecting bb anchor dir l <;> rfl
  | append_singleton m x ih =>
    have ih' := ih fun hb h p => hok hb (by
      rcases List.mem_append.1 h with h | h <;> simp [h]) p
    rw [← List.append_assoc, closest_snoc, closest_snoc bb anchor dir m, ih']
    rcases eb : bb x with _ | b
    · rfl
    simp only
    rcases ei : AABBTree3D.lineIntersection anchor dir b with _ | i
    · rfl
    simp only
    have oi : ok (anchor.sqrDist i) := hok x (by simp) i ⟨b, eb, ei⟩
    rcases ea : closestIntersecting bb anchor dir l with _ | ⟨p, u⟩
    · rfl
    have op : ok (anchor.sqrDist p) := by
      obtain ⟨h1, h2⟩ := closest_reports bb anchor dir l p u ea
      exact hok u (by simp [h1]) p h2
    rcases em : closestIntersecting bb anchor dir m with _ | ⟨q, v⟩
    · rfl
    have oq : ok (anchor.sqrDist q) := by
      obtain ⟨h1, h2⟩ := closest_reports bb anchor dir m q v em
      exact hok v (by simp [h1]) q h2
    have e1 := lt_iff (anchor.sqrDist q) (anchor.sqrDist p)
    have e2 := lt_iff (anchor.sqrDist i) (anchor.sqrDist q)
    have e3 := lt_iff (anchor.sqrDist i) (anchor.sqrDist p)
    simp only [oi, op, oq, true_and] at e1 e2 e3
    by_cases h1 : (anchor.sqrDist q <. anchor.sqrDist p) = true <;> by_cases h2 : (anchor.sqrDist i <. anchor.sqrDist q) = true
    · have h3 := e3.2 ((e2.1 h2).trans (e1.1 h1))
      simp only [nearerHit, h1, h2, h3, if_true]
    · simp only [nearerHit, h1, h2, if_true, if_false, Bool.false_eq_true]
    · simp only [nearerHit, h1, h2, if_true, if_false, Bool.false_eq_true]
    · have h3 : ¬ (anchor.sqrDist i <. anchor.sqrDist p) = true := fun h =>
        ((not_lt.1 fun c => h1 (e1.2 c)).trans (not_lt.1 fun c => h2 (e2.2 c))).not_gt (e3.1 h)
      simp only [nearerHit, h1, h2, h3, if_false, Bool.false_eq_true]

/-- the hypotheses are met: in exact arithmetic no distance is NaN; of two boxes ahead of a ray of doubles the nearer one is found in whichever part it is -/
example (bb : HB → Option (BoundingBox3D ℝ)) (anchor dir : Point3D ℝ) (l m : List HB) :
    ∀ hb ∈ l ++ m, ∀ p, Reports bb anchor dir hb p → ok (anchor.sqrDist p) := fun _ _ _ _ => trivial
example : ∃ (a b : BoundingBox3D F64) (p q : Point3D F64), closestIntersecting some ⟨f 0, f 0, f 0⟩ Norm3D.normX [a] = some (p, a) ∧
    closestIntersecting some ⟨f 0, f 0, f 0⟩ Norm3D.normX [b] = some (q, b) ∧
    closestIntersecting some ⟨f 0, f 0, f 0⟩ Norm3D.normX ([b] ++ [a]) = some (p, a) :=
  ⟨⟨⟨f 2, f (-1), f (-1)⟩, ⟨f 3, f 1, f 1⟩⟩, ⟨⟨f 5, f (-1), f (-1)⟩, ⟨f 6, f 1, f 1⟩⟩, ⟨f 2, f 0, f 0⟩, ⟨f 5, f 0, f 0⟩,
    by decide +kernel, by decide +kernel, by decide +kernel⟩

end

/-! ### searches for points -/

section
variable {P : Type}

theorem perm_parts {l m r r1 r2 : List P} {Q : P → Prop} (h : ∀ p : P → Bool, (∀ x, p x = true ↔ Q x) → r.Perm ((l ++ m).filter p))
    (h1 : ∀ p : P → Bool, (∀ x, p x = true ↔ Q x) → r1.Perm (l.filter p))
    (h2 : ∀ p : P → Bool, (∀ x, p x = true ↔ Q x) → r2.Perm (m.filter p)) : r.Perm (r1 ++ r2) := by
  classical
  have hp : ∀ x, decide (Q x) = true ↔ Q x := fun x => decide_eq_true_iff
  refine (h _ hp).trans ?_
  rw [List.filter_append]
  exact ((h1 _ hp).append (h2 _ hp)).symm

/-- **C138** for searches, exact arithmetic: searching the trees of the parts one after the other, into the same list, finds the same points as searching the tree of
all points, each as often. -/
theorem c138_range (pos : P → Point3D ℝ) (l m : List P) (t u v : KdTree P) (ht : Built pos (l ++ m) t) (hu : Built pos l u) (hv : Built pos m v) :
    (∀ s : Sphere ℝ, 0 < s.radius.val → ∀ res, (t.inSphere pos s res).Perm (v.inSphere pos s (u.inSphere pos s res))) ∧
    ∀ (b : Box3D ℝ) (res : List P), (t.inBox pos b res).Perm (v.inBox pos b (u.inBox pos b res)) := by
  constructor
  · intro s hs res
    obtain ⟨r1, e1, p1⟩ := c27_in_sphere pos _ t ht s hs res
    obtain ⟨r2, e2, p2⟩ := c27_in_sphere pos _ u hu s hs res
    obtain ⟨r3, e3, p3⟩ := c27_in_sphere pos _ v hv s hs (res ++ r2)
    rw [e1, e2, e3, List.append_assoc]
    exact List.Perm.append_left _ (perm_parts p1 p2 p3)
  · intro b res
    obtain ⟨r1, e1, p1⟩ := c27_in_box pos _ t ht b res
    obtain ⟨r2, e2, p2⟩ := c27_in_box pos _ u hu b res
    obtain ⟨r3, e3, p3⟩ := c27_in_box pos _ v hv b (res ++ r2)
    rw [e1, e2, e3, List.append_assoc]
    exact List.Perm.append_left _ (perm_parts p1 p2 p3)

/-- **C138** for searches, doubles on a common grid: the same -/
theorem c138_range_grid (e : ℤ) (he : -500 ≤ e) (he' : e ≤ 400) (pos : P → Point3D F64) (l m : List P) (t u v : KdTree P)
    (ht : Built pos (l ++ m) t) (hu : Built pos l u) (hv : Built pos m v) (hg : ∀ x ∈ l ++ m, Grid3 e (pos x))
    (s : Sphere F64) (hc : Grid3 e s.center) (hr : F64.Num s.radius.val)
    (n : ℤ) (h1 : 1 ≤ n) (hn : n ≤ 2 ^ 24) (hR : F64.toR s.radius.val = n * 2 ^ e) (res : List P) :
    (t.inSphere pos s res).Perm (v.inSphere pos s (u.inSphere pos s res)) := by
  obtain ⟨r1, e1, p1⟩ := c102_in_sphere e he he' pos _ t ht hg s hc hr n h1 hn hR res
  obtain ⟨r2, e2, p2⟩ := c102_in_sphere e he he' pos _ u hu (fun x h => hg x (by simp [h])) s hc hr n h1 hn hR res
  obtain ⟨r3, e3, p3⟩ := c102_in_sphere e he he' pos _ v hv (fun x h => hg x (by simp [h])) s hc hr n h1 hn hR (res ++ r2)
  rw [e1, e2, e3, List.append_assoc]
  exact List.Perm.append_left _ (perm_parts p1 p2 p3)

/-- C138 violated for searches of arbitrary doubles: the parts' trees find a point on the border that the tree of all points does not -/
theorem c138_violated_range : ∃ (s : Sphere F64) (t u v : KdTree (Point3D F64)), Built id ([px 1, px 1] ++ [px 1]) t ∧ Built id [px 1, px 1] u ∧
    Built id [px 1] v ∧ (t.inSphere id s []).length = 2 ∧ (v.inSphere id s (u.inSphere id s [])).length = 3 := by
  refine ⟨⟨px (-3 / 2 ^ 55), ⟨F64.ofRat 1⟩⟩, newNode id 3 0 [px 1, px 1, px 1], newNode id 2 0 [px 1, px 1], newNode id 1 0 [px 1], rfl, rfl, rfl, ?_, ?_⟩
  all_goals decide +kernel

/-- **C138** for the nearest point, doubles: the nearer one of the parts' nearest points is as near as the nearest of all points -/
theorem c138_nearest (pos : P → Point3D F64) (l m : List P) (t u v : KdTree P) (ht : Built pos (l ++ m) t) (hu : Built pos l u) (hv : Built pos m v)
    (hnum : ∀ x ∈ l ++ m, (pos x).Num) (q : Point3D F64) (hq : q.Num) :
    ∃ a b c, t.nearest pos q = some (some c) ∧ u.nearest pos q = some (some a) ∧ v.nearest pos q = some (some b) ∧
      ((q.dist (pos c) ==. q.dist (pos a)) = true ∧ (q.dist (pos a) <=. q.dist (pos b)) = true ∨
        (q.dist (pos c) ==. q.dist (pos b)) = true ∧ (q.dist (pos b) <=. q.dist (pos a)) = true) := by
  obtain ⟨c, hc, ec, nc⟩ := c25_nearest_f64 pos _ t ht hnum q hq
  obtain ⟨a, ha, ea, na⟩ := c25_nearest_f64 pos _ u hu (fun x h => hnum x (by simp [h])) q hq
  obtain ⟨b, hb, eb, nb⟩ := c25_nearest_f64 pos _ v hv (fun x h => hnum x (by simp [h])) q hq
  refine ⟨a, b, c, ec, ea, eb, ?_⟩
  have ca := (le_iff _ _).1 (nc a (by simp [ha]))
  have cb := (le_iff _ _).1 (nc b (by simp [hb]))
  rcases List.mem_append.1 hc with h | h
  · have ac := (le_iff _ _).1 (na c h)
    exact .inl ⟨(eq_iff _ _).2 ⟨ca.1, ca.2.1, le_antisymm ca.2.2 ac.2.2⟩, (le_iff _ _).2 ⟨ca.2.1, cb.2.1, ac.2.2.trans cb.2.2⟩⟩
  · have bc := (le_iff _ _).1 (nb c h)
    exact .inr ⟨(eq_iff _ _).2 ⟨cb.1, cb.2.1, le_antisymm cb.2.2 bc.2.2⟩, (le_iff _ _).2 ⟨cb.2.1, ca.2.1, bc.2.2.trans ca.2.2⟩⟩

/-- the hypotheses are met: every list of points that is not empty has a tree, and whole numbers lie on a grid -/
example (pos : P → Point3D ℝ) (a : P) (l : List P) (b : P) (m : List P) : ∃ t u v, Built pos ((a :: l) ++ (b :: m)) t ∧ Built pos (a :: l) u ∧ Built pos (b :: m) v :=
  ⟨_, _, _, rfl, rfl, rfl⟩
example : ∃ (l m : List (Point3D F64)) (t u v : KdTree (Point3D F64)), l = [⟨f ((3:ℤ)), f ((4:ℤ)), f ((0:ℤ))⟩] ∧ m = [⟨f ((0:ℤ)), f ((0:ℤ)), f ((5:ℤ))⟩] ∧
    Built id (l ++ m) t ∧ Built id l u ∧ Built id m v ∧ (∀ x ∈ l ++ m, Grid3 0 (id x)) ∧ ∀ x ∈ l ++ m, (id x).Num := by
  refine ⟨_, _, _, _, _, rfl, rfl, rfl, rfl, rfl, ?_, ?_⟩
  · simp only [List.cons_append, List.nil_append, List.mem_cons, List.not_mem_nil, or_false, forall_eq_or_imp, forall_eq, id_eq]
    exact ⟨grid3_whole (by norm_num) (by norm_num) (by norm_num), grid3_whole (by norm_num) (by norm_num) (by norm_num)⟩
  · simp only [List.cons_append, List.nil_append, List.mem_cons, List.not_mem_nil, or_false, forall_eq_or_imp, forall_eq, id_eq]
    exact ⟨(grid3_whole (a := 3) (b := 4) (c := 0) (by norm_num) (by norm_num) (by norm_num)).1, (grid3_whole (a := 0) (b := 0) (c := 5) (by norm_num) (by norm_num) (by norm_num)).1⟩

end

/-! ### trees of boxes -/

/-- **C138** for trees of boxes, exact arithmetic: the tree of all elements reports the elements the trees of the parts report, whatever depth and bucket size each
tree was given. -/
theorem c138_box_tree_2d {HB : Type} (bb : HB → BoundingBox2D ℝ) (l m : List HB) (d d1 d2 k k1 k2 : Nat) (hV : ∀ x ∈ l ++ m, (box2 (bb x)).Valid) :
    ∃ t u v, AABBTree2D.new bb (l ++ m) d k = some t ∧ AABBTree2D.new bb l d1 k1 = some u ∧ AABBTree2D.new bb m d2 k2 = some v ∧
      (∀ f, t.any f = (u.any f || v.any f)) ∧
      (∀ q res, (box2 q).Valid → ∃ r s w, AABBTree2D.bbColliding bb t q res = some r ∧ AABBTree2D.bbColliding bb u q res = some s ∧
        AABBTree2D.bbColliding bb v q s = some w ∧ ∀ x, x ∈ r ↔ x ∈ w) ∧
      ∀ c res, ∃ r s w, AABBTree2D.bbCrossingXValue bb t c res = some r ∧ AABBTree2D.bbCrossingXValue bb u c res = some s ∧
        AABBTree2D.bbCrossingXValue bb v c s = some w ∧ ∀ x, x ∈ r ↔ x ∈ w := by
  have key : ∀ (n : List HB) (d k : Nat), (∀ x ∈ n, (box2 (bb x)).Valid) → ∃ t, AABBTree2D.new bb n d k = some t ∧
      (∀ f, t.any f = true ↔ ∃ x ∈ n, f x = true) ∧
      (∀ (q : BoundingBox2D ℝ), (box2 q).Valid → ∀ res, ∃ r, AABBTree2D.bbColliding bb t q res = some (res ++ r) ∧
        ∀ x, x ∈ r ↔ x ∈ n ∧ ∃ p, (box2 (bb x)).MemInt p ∧ (box2 q).MemInt p) ∧
      ∀ v res, ∃ r, AABBTree2D.bbCrossingXValue bb t v res = some (res ++ r) ∧ ∀ x, x ∈ r ↔ x ∈ n ∧ (bb x).crossingXValue v = true := by
    intro n d k h
    obtain ⟨t, e, h1⟩ := c22_collision bb n d k h
    obtain ⟨t', e', h2, h3⟩ := c22_any_crossing bb n d k fun x hx => ⟨h x hx, fun _ => ⟨trivial, trivial⟩⟩
    cases e.symm.trans e'
    refine ⟨t, e, h2, fun q hq res => ?_, fun v res => (h3 v res).1⟩
    obtain ⟨r, -, a, b⟩ := h1 q hq
    exact ⟨r, a res, b⟩
  obtain ⟨t, et, t1, t2, t3⟩ := key (l ++ m) d k hV
  obtain ⟨u, eu, u1, u2, u3⟩ := key l d1 k1 fun x h => hV x (by simp [h])
  obtain ⟨v, ev, v1, v2, v3⟩ := key m d2 k2 fun x h => hV x (by simp [h])
  refine ⟨t, u, v, et, eu, ev, fun f => ?_, fun q res hq => ?_, fun c res => ?_⟩
  · rw [Bool.eq_iff_iff, Bool.or_eq_true, t1, u1, v1]
    simp only [List.mem_append, or_and_right, exists_or]
  · obtain ⟨r, er, hr⟩ := t2 q hq res
    obtain ⟨s, es, hs⟩ := u2 q hq res
    obtain ⟨w, ew, hw⟩ := v2 q hq (res ++ s)
    refine ⟨_, _, _, er, es, ew, fun x => ?_⟩
    simp only [List.mem_append, hr, hs, hw]
    rw [or_and_right, or_assoc]
  · obtain ⟨r, er, hr⟩ := t3 c res
    obtain ⟨s, es, hs⟩ := u3 c res
    obtain ⟨w, ew, hw⟩ := v3 c (res ++ s)
    refine ⟨_, _, _, er, es, ew, fun x => ?_⟩
    simp only [List.mem_append, hr, hs, hw]
    rw [or_and_right, or_assoc]

/-- **C138** for trees of boxes in three dimensions -/
theorem c138_box_tree_3d {HB : Type} (bb : HB → BoundingBox3D ℝ) (l m : List HB) (d d1 d2 k k1 k2 : Nat) (hV : ∀ x ∈ l ++ m, (box3 (bb x)).Valid) :
    ∃ t u v, AABBTree3D.new bb (l ++ m) d k = some t ∧ AABBTree3D.new bb l d1 k1 = some u ∧ AABBTree3D.new bb m d2 k2 = some v ∧
      (∀ f, t.any f = (u.any f || v.any f)) ∧
      (∀ q res, (box3 q).Valid → ∃ r s w, AABBTree3D.bbColliding bb t q res = some r ∧ AABBTree3D.bbColliding bb u q res = some s ∧
        AABBTree3D.bbColliding bb v q s = some w ∧ ∀ x, x ∈ r ↔ x ∈ w) ∧
      ∀ c res, ∃ r s w, AABBTree3D.bbCrossingXValue bb t c res = some r ∧ AABBTree3D.bbCrossingXValue bb u c res = some s ∧
        AABBTree3D.bbCrossingXValue bb v c s = some w ∧ ∀ x, x ∈ r ↔ x ∈ w := by
  have key : ∀ (n : List HB) (d k : Nat), (∀ x ∈ n, (box3 (bb x)).Valid) → ∃ t, AABBTree3D.new bb n d k = some t ∧
      (∀ f, t.any f = true ↔ ∃ x ∈ n, f x = true) ∧
      (∀ (q : BoundingBox3D ℝ), (box3 q).Valid → ∀ res, ∃ r, AABBTree3D.bbColliding bb t q res = some (res ++ r) ∧
        ∀ x, x ∈ r ↔ x ∈ n ∧ ∃ p, (box3 (bb x)).MemInt p ∧ (box3 q).MemInt p) ∧
      ∀ v res, ∃ r, AABBTree3D.bbCrossingXValue bb t v res = some (res ++ r) ∧ ∀ x, x ∈ r ↔ x ∈ n ∧ (bb x).crossingXValue v = true := by
    intro n d k h
    obtain ⟨t, e, h1⟩ := c23_collision bb n d k h
    obtain ⟨t', e', h2, h3⟩ := c23_any_crossing bb n d k fun x hx => ⟨h x hx, fun _ => ⟨trivial, trivial⟩⟩
    cases e.symm.trans e'
    refine ⟨t, e, h2, fun q hq res => ?_, fun v res => (h3 v res).1⟩
    obtain ⟨r, -, a, b⟩ := h1 q hq
    exact ⟨r, a res, b⟩
  obtain ⟨t, et, t1, t2, t3⟩ := key (l ++ m) d k hV
  obtain ⟨u, eu, u1, u2, u3⟩ := key l d1 k1 fun x h => hV x (by simp [h])
  obtain ⟨v, ev, v1, v2, v3⟩ := key m d2 k2 fun x h => hV x (by simp [h])
  refine ⟨t, u, v, et, eu, ev, fun f => ?_, fun q res hq => ?_, fun c res => ?_⟩
  · rw [Bool.eq_iff_iff, Bool.or_eq_true, t1, u1, v1]
    simp only [List.mem_append, or_and_right, exists_or]
  · obtain ⟨r, er, hr⟩ := t2 q hq res
    obtain ⟨s, es, hs⟩ := u2 q hq res
    obtain ⟨w, ew, hw⟩ := v2 q hq (res ++ s)
    refine ⟨_, _, _, er, es, ew, fun x => ?_⟩
    simp only [List.mem_append, hr, hs, hw]
    rw [or_and_right, or_assoc]
  · obtain ⟨r, er, hr⟩ := t3 c res
    obtain ⟨s, es, hs⟩ := u3 c res
    obtain ⟨w, ew, hw⟩ := v3 c (res ++ s)
    refine ⟨_, _, _, er, es, ew, fun x => ?_⟩
    simp only [List.mem_append, hr, hs, hw]
    rw [or_and_right, or_assoc]

/-- the hypotheses are met -/
example : ∃ (bb : Bool → BoundingBox2D ℝ) (cc : Bool → BoundingBox3D ℝ), bb true ≠ bb false ∧ cc true ≠ cc false ∧
    (∀ x ∈ [true] ++ [false, true], (box2 (bb x)).Valid) ∧ ∀ x ∈ [true] ++ [false, true], (box3 (cc x)).Valid := by
  refine ⟨fun x => if x then ⟨⟨0, 0⟩, ⟨1, 1⟩⟩ else ⟨⟨2, 2⟩, ⟨4, 3⟩⟩, fun x => if x then ⟨⟨0, 0, 0⟩, ⟨1, 1, 1⟩⟩ else ⟨⟨2, 2, 2⟩, ⟨4, 3, 3⟩⟩, by simp, by simp, ?_, ?_⟩
  · intro x _
    rw [valid_real_2d]
    cases x <;> norm_num
  · intro x _
    rw [valid_real_3d]
    cases x <;> norm_num

/-! ### centers and lengths -/

/-- **C138** for the center of gravity, exact arithmetic: the center of all points is the mean of the centers of the parts, weighted by the numbers of points -/
theorem c138_center (l m : List (Point3D ℝ)) (hl : l ≠ []) (hm : m ≠ []) :
    ∃ a b c, PointCloud3D.centerOfGravity ⟨l⟩ = some a ∧ PointCloud3D.centerOfGravity ⟨m⟩ = some b ∧
      PointCloud3D.centerOfGravity ⟨l ++ m⟩ = some c ∧
      ∀ d, at3 c d = (l.length * at3 a d + m.length * at3 b d) / (l.length + m.length : ℝ) := by
  obtain ⟨a, ea, ha⟩ := (c76_center_of_gravity_3d l).2 hl
  obtain ⟨b, eb, hb⟩ := (c76_center_of_gravity_3d m).2 hm
  obtain ⟨c, ec, hc⟩ := (c76_center_of_gravity_3d (l ++ m)).2 (by simp [hl])
  refine ⟨a, b, c, ea, eb, ec, fun d => ?_⟩
  have h1 : (l.length : ℝ) ≠ 0 := by simpa using hl
  have h2 : (m.length : ℝ) ≠ 0 := by simpa using hm
  rw [ha, hb, hc, mean3, mean3, mean3, mul_div_cancel₀ _ h1, mul_div_cancel₀ _ h2]
  simp

/-- **C138** for the center of gravity, exact arithmetic: the center of all points is the mean of the centers of the parts, weighted by the numbers of points -/
theorem c138_center_2d (l m : List (Point2D ℝ)) (hl : l ≠ []) (hm : m ≠ []) :
    ∃ a b c, PointCloud2D.centerOfGravity ⟨l⟩ = some a ∧ PointCloud2D.centerOfGravity ⟨m⟩ = some b ∧
      PointCloud2D.centerOfGravity ⟨l ++ m⟩ = some c ∧
      ∀ d, at2 c d = (l.length * at2 a d + m.length * at2 b d) / (l.length + m.length : ℝ) := by
  obtain ⟨a, ea, ha⟩ := (c76_center_of_gravity_2d l).2 hl
  obtain ⟨b, eb, hb⟩ := (c76_center_of_gravity_2d m).2 hm
  obtain ⟨c, ec, hc⟩ := (c76_center_of_gravity_2d (l ++ m)).2 (by simp [hl])
  refine ⟨a, b, c, ea, eb, ec, fun d => ?_⟩
  have h1 : (l.length : ℝ) ≠ 0 := by simpa using hl
  have h2 : (m.length : ℝ) ≠ 0 := by simpa using hm
  rw [ha, hb, hc, mean2, mean2, mean2, mul_div_cancel₀ _ h1, mul_div_cancel₀ _ h2]
  simp

/-- C138 violated for the center of gravity of doubles: the sum of all points is rounded differently from the sums of the parts -/
theorem c138_violated_center : ∃ (l m : List (Point2D F64)) (a b c : Point2D F64), PointCloud2D.centerOfGravity ⟨l⟩ = some a ∧
    PointCloud2D.centerOfGravity ⟨m⟩ = some b ∧ PointCloud2D.centerOfGravity ⟨l ++ m⟩ = some c ∧ l.length = 1 ∧ m.length = 3 ∧
    (c.x <. (f 1 * a.x + f 3 * b.x) / f 4) = true := by
  refine ⟨[⟨f (2 ^ 53), f 0⟩], [⟨f 1, f 0⟩, ⟨f 1, f 0⟩, ⟨f 0, f 0⟩], _, _, _, rfl, rfl, rfl, rfl, rfl, ?_⟩
  decide +kernel

/-- **C138** for lengths, exact arithmetic: cutting a line at one of its points cuts its length -/
theorem c138_length (l m : List (Point3D ℝ)) (p : Point3D ℝ) :
    PointCloud3D.length ⟨l ++ p :: m⟩ = PointCloud3D.length ⟨l ++ [p]⟩ + PointCloud3D.length ⟨p :: m⟩ := by
  have key : ∀ n : List (Point3D ℝ), PointCloud3D.length ⟨n⟩ = pairSum segLen3 n := by
    intro n
    unfold PointCloud3D.length
    split
    · rename_i h
      match n, h with
      | [], _ => simp [pairSum]
      | [_], _ => simp [pairSum]
    · rw [lengthLoop_3d]; simp
  rw [key, key, key]
  induction l with
  | nil => simp [pairSum]
  | cons a l ih =>
    cases l with
    | nil => simp [pairSum]
    | cons b l =>
      simp only [List.cons_append, pairSum] at ih ⊢
      rw [ih, add_assoc]

/-- **C138** for lengths, exact arithmetic: cutting a line at one of its points cuts its length -/
theorem c138_length_2d (l m : List (Point2D ℝ)) (p : Point2D ℝ) :
    PointCloud2D.length ⟨l ++ p :: m⟩ = PointCloud2D.length ⟨l ++ [p]⟩ + PointCloud2D.length ⟨p :: m⟩ := by
  have key : ∀ n : List (Point2D ℝ), PointCloud2D.length ⟨n⟩ = pairSum segLen2 n := by
    intro n
    unfold PointCloud2D.length
    split
    · rename_i h
      match n, h with
      | [], _ => simp [pairSum]
      | [_], _ => simp [pairSum]
    · rw [lengthLoop_2d]; simp
  rw [key, key, key]
  induction l with
  | nil => simp [pairSum]
  | cons a l ih =>
    cases l with
    | nil => simp [pairSum]
    | cons b l =>
      simp only [List.cons_append, pairSum] at ih ⊢
      rw [ih, add_assoc]

/-! ### equal points -/

/-- **C138** for removing duplicates: removing them in the parts first does not change the points that remain -/
theorem c138_pack_dupes {T : Type} [DecidableEq T] (l m : List T) :
    (packDupesIndexed ((packDupesIndexed l).1 ++ (packDupesIndexed m).1)).1 = (packDupesIndexed (l ++ m)).1 := by
  have key : ∀ n : List T, (packDupesIndexed n).1 = firsts n := fun n => (c10_pack_dupes n).1
  simp only [key]
  have hf : ∀ (n : List T) (p : T → Bool), firsts (n.filter p) = (firsts n).filter p := by
    intro n p
    induction n with
    | nil => rfl
    | cons x n ih =>
      rw [firsts, List.filter_cons]
      by_cases h : p x = true
      · rw [if_pos h, firsts, ih, List.filter_cons, if_pos h, List.filter_filter, List.filter_filter]
        simp only [Bool.and_comm]
      · rw [if_neg h, ih, List.filter_cons, if_neg h, List.filter_filter]
        refine List.filter_congr fun y _ => ?_
        by_cases hy : y = x
        · subst hy; simp [h]
        · simp [hy]
  have hff : ∀ n : List T, firsts (firsts n) = firsts n := by
    intro n
    induction n with
    | nil => rfl
    | cons x n ih => rw [firsts, firsts, hf, ih, List.filter_filter]; simp
  induction l with
  | nil => simpa [firsts] using hff m
  | cons x l ih =>
    simp only [firsts, List.cons_append]
    congr 1
    have e : ((firsts l).filter (fun y => decide (y ≠ x)) ++ firsts m).filter (fun y => decide (y ≠ x)) =
        (firsts l ++ firsts m).filter fun y => decide (y ≠ x) := by
      rw [List.filter_append, List.filter_append, List.filter_filter]
      simp
    rw [← ih, ← hf, e, hf]

/-! ### the convex hull -/

/-- C138 (partial) for the convex hull, exact arithmetic: the hull of the parts' hulls spans the same region as the hull of all points. Missing: different points
above each other, for which the hull itself goes wrong (C43). -/
theorem c138_hull_partial (l m : List (Point2D ℝ)) (hl : 2 ≤ l.length) (hm : 2 ≤ m.length)
    (hx : ∀ p ∈ l ++ m, ∀ q ∈ l ++ m, p.x = q.x → p = q) :
    convexHull ℝ ((fun q : Point2D ℝ => (q.x, q.y)) '' {q | q ∈ convexHull2D (convexHull2D l ++ convexHull2D m)}) =
      convexHull ℝ ((fun q : Point2D ℝ => (q.x, q.y)) '' {q | q ∈ convexHull2D (l ++ m)}) := by
  have hord : ∀ n : List (Point2D ℝ), (∀ p ∈ n, p ∈ l ++ m) → n.Pairwise fun p q => p.x = q.x → p.y ≤ q.y := by
    intro n h
    refine List.pairwise_iff_forall_sublist.2 fun {p q} hs e => ?_
    rw [hx p (h p (hs.subset (by simp))) q (h q (hs.subset (by simp))) e]
  have key : ∀ n : List (Point2D ℝ), 2 ≤ n.length → (∀ p ∈ n, p ∈ l ++ m) →
      (∀ p ∈ convexHull2D n, p ∈ n) ∧ convexHull ℝ ((fun q : Point2D ℝ => (q.x, q.y)) '' {q | q ∈ convexHull2D n}) =
        convexHull ℝ ((fun q : Point2D ℝ => (q.x, q.y)) '' {q | q ∈ n}) := by
    intro n h2 h
    obtain ⟨h1, -, h3, -⟩ := c43_hull_partial n h2 (hord n h)
    refine ⟨h1, subset_antisymm (convexHull_mono (Set.image_mono h1)) (convexHull_min ?_ (convex_convexHull ℝ _))⟩
    rintro _ ⟨p, hp, rfl⟩
    exact h3 p hp
  have pos : ∀ n : List (Point2D ℝ), 2 ≤ n.length → (∀ p ∈ n, p ∈ l ++ m) → 1 ≤ (convexHull2D n).length := by
    intro n h2 h
    obtain ⟨-, e⟩ := key n h2 h
    rcases hn : convexHull2D n with _ | ⟨a, r⟩
    · exfalso
      match n, h2 with
      | p :: n, _ =>
        have : (p.x, p.y) ∈ convexHull ℝ ((fun q : Point2D ℝ => (q.x, q.y)) '' {q | q ∈ p :: n}) :=
          subset_convexHull ℝ _ ⟨p, by simp, rfl⟩
        rw [← e, hn] at this
        simp at this
    · simp
  have kl := key l hl (by simp +contextual)
  have km := key m hm (by simp +contextual)
  have pl := pos l hl (by simp +contextual)
  have pm := pos m hm (by simp +contextual)
  have hin : ∀ p ∈ convexHull2D l ++ convexHull2D m, p ∈ l ++ m := by
    intro p h
    rcases List.mem_append.1 h with h | h
    · simp [kl.1 p h]
    · simp [km.1 p h]
  rw [(key (convexHull2D l ++ convexHull2D m) (by rw [List.length_append]; omega) hin).2,
    (key (l ++ m) (by rw [List.length_append]; omega) fun p h => h).2]
  have split : ∀ a b : List (Point2D ℝ), ((fun q : Point2D ℝ => (q.x, q.y)) '' {q | q ∈ a ++ b}) =
      ((fun q : Point2D ℝ => (q.x, q.y)) '' {q | q ∈ a}) ∪ ((fun q : Point2D ℝ => (q.x, q.y)) '' {q | q ∈ b}) := by
    intro a b
    rw [← Set.image_union]
    congr 1
    ext q
    simp
  rw [split, split]
  apply subset_antisymm
  · exact convexHull_mono (Set.union_subset_union (Set.image_mono kl.1) (Set.image_mono km.1))
  · refine convexHull_min (Set.union_subset ?_ ?_) (convex_convexHull ℝ _)
    · refine (subset_convexHull ℝ _).trans ?_
      rw [← kl.2]
      exact convexHull_mono Set.subset_union_left
    · refine (subset_convexHull ℝ _).trans ?_
      rw [← km.2]
      exact convexHull_mono Set.subset_union_right

/-- the hypotheses are met -/
example : ∃ l m : List (Point2D ℝ), 2 ≤ l.length ∧ 2 ≤ m.length ∧ (∀ p ∈ l ++ m, ∀ q ∈ l ++ m, p.x = q.x → p = q) ∧ ¬ Collinear2 (l ++ m) := by
  refine ⟨[⟨0, 0⟩, ⟨1, 3⟩], [⟨2, 1⟩, ⟨3, 0⟩], by simp, by simp, ?_, ?_⟩
  · intro p hp q hq
    simp only [List.cons_append, List.nil_append, List.mem_cons, List.not_mem_nil, or_false] at hp hq
    rcases hp with rfl | rfl | rfl | rfl <;> rcases hq with rfl | rfl | rfl | rfl <;> norm_num
  · intro h
    have := h ⟨0, 0⟩ (by simp) ⟨1, 3⟩ (by simp) ⟨3, 0⟩ (by simp)
    norm_num [turn] at this

end R3D

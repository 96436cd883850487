import Verif.Props.LineBox
/-!
C47: the closest intersecting element.
-/
namespace R3D
open Scalar Spec LawfulScalar

section
variable {α : Type} [Scalar α] {HB : Type}

/-- the library's line test reports the point `p` for the box of the element -/
def Spec.Reports (bb : HB → Option (BoundingBox3D α)) (anchor dir : Point3D α) (hb : HB) (p : Point3D α) : Prop :=
  ∃ b, bb hb = some b ∧ AABBTree3D.lineIntersection anchor dir b = some p

/-- `p`, reported for the `k`-th element, is the first reported point of least distance to the anchor -/
def Spec.FirstClosest [LawfulScalar α] (bb : HB → Option (BoundingBox3D α)) (anchor dir : Point3D α) (hbs : List HB)
    (p : Point3D α) (k : Nat) : Prop :=
  (∃ hb, hbs[k]? = some hb ∧ Reports bb anchor dir hb p) ∧
  ∀ (j : Nat) (hb' : HB) p', hbs[j]? = some hb' → Reports bb anchor dir hb' p' →
    key (anchor.sqrDist p) ≤ key (anchor.sqrDist p') ∧ (j < k → key (anchor.sqrDist p) < key (anchor.sqrDist p'))

variable (bb : HB → Option (BoundingBox3D α)) (anchor dir : Point3D α)

theorem indexClosest_length (hbs : List HB) : (hbs.foldl (indexClosestStep bb anchor dir) (0, none)).1 = hbs.length := by
  induction hbs using List.reverseRecOn with
  | nil => rfl
  | append_singleton l x ih => rw [List.foldl_append]; simp [indexClosestStep, ih]

theorem indexClosest_snoc (l : List HB) (x : HB) : indexClosestIntersecting bb anchor dir (l ++ [x]) =
    match bb x with
    | none => indexClosestIntersecting bb anchor dir l
    | some b =>
      match AABBTree3D.lineIntersection anchor dir b with
      | none => indexClosestIntersecting bb anchor dir l
      | some i =>
        match indexClosestIntersecting bb anchor dir l with
        | some r => if anchor.sqrDist i <. anchor.sqrDist r.1 then some (i, l.length) else some r
        | none => some (i, l.length) := by
  unfold indexClosestIntersecting
  rw [List.foldl_append]
  simp only [List.foldl_cons, List.foldl_nil]
  rw [indexClosestStep, indexClosest_length]
  simp only
  cases bb x with
  | none => rfl
  | some b =>
    simp only
    cases AABBTree3D.lineIntersection anchor dir b with
    | none => rfl
    | some i =>
      simp only
      cases h : (List.foldl (indexClosestStep bb anchor dir) (0, none) l).2 <;> simp

theorem closest_snoc (l : List HB) (x : HB) : closestIntersecting bb anchor dir (l ++ [x]) =
    match bb x with
    | none => closestIntersecting bb anchor dir l
    | some b =>
      match AABBTree3D.lineIntersection anchor dir b with
      | none => closestIntersecting bb anchor dir l
      | some i =>
        match closestIntersecting bb anchor dir l with
        | some r => if anchor.sqrDist i <. anchor.sqrDist r.1 then some (i, x) else some r
        | none => some (i, x) := by
  unfold closestIntersecting
  rw [List.foldl_append]
  simp only [List.foldl_cons, List.foldl_nil]
  rw [closestStep]
  cases bb x with
  | none => rfl
  | some b =>
    simp only
    cases AABBTree3D.lineIntersection anchor dir b with
    | none => rfl
    | some i =>
      simp only
      cases h : List.foldl (closestStep bb anchor dir) none l <;> simp

/-- C47, any arithmetic: `closest_intersecting` returns the point of `index_closest_intersecting` together
with the element at its index. -/
theorem c47_index_agrees (hbs : List HB) :
    (∀ p k, indexClosestIntersecting bb anchor dir hbs = some (p, k) →
      ∃ hb, hbs[k]? = some hb ∧ closestIntersecting bb anchor dir hbs = some (p, hb)) ∧
    (indexClosestIntersecting bb anchor dir hbs = none ↔ closestIntersecting bb anchor dir hbs = none) := by
  induction hbs using List.reverseRecOn with
  | nil => simp [indexClosestIntersecting, closestIntersecting]
  | append_singleton l x ih =>
    rw [indexClosest_snoc, closest_snoc]
    have keep : ∀ p k, indexClosestIntersecting bb anchor dir l = some (p, k) →
      ∃ hb, (l ++ [x])[k]? = some hb ∧ closestIntersecting bb anchor dir l = some (p, hb) := by
      intro p k h
      obtain ⟨hb, h1, h2⟩ := ih.1 p k h
      refine ⟨hb, ?_, h2⟩
      rw [List.getElem?_append_left (List.getElem?_eq_some_iff.1 h1).1]
      exact h1
    cases bb x with
    | none => exact ⟨keep, ih.2⟩
    | some b =>
      simp only
      cases AABBTree3D.lineIntersection anchor dir b with
      | none => exact ⟨keep, ih.2⟩
      | some i =>
        simp only
        cases hl : indexClosestIntersecting bb anchor dir l with
        | none =>
          rw [ih.2.1 hl]
          refine ⟨fun p k h => ?_, by simp⟩
          simp only [Option.some.injEq, Prod.mk.injEq] at h
          obtain ⟨rfl, rfl⟩ := h
          exact ⟨x, by simp, rfl⟩
        | some r =>
          obtain ⟨rp, rk⟩ := r
          obtain ⟨hb, h1, h2⟩ := keep rp rk hl
          rw [h2]
          simp only
          by_cases hc : (anchor.sqrDist i <. anchor.sqrDist rp) = true
          · rw [if_pos hc, if_pos hc]
            refine ⟨fun p k h => ?_, by simp⟩
            simp only [Option.some.injEq, Prod.mk.injEq] at h
            obtain ⟨rfl, rfl⟩ := h
            exact ⟨x, by simp, rfl⟩
          · rw [if_neg hc, if_neg hc]
            refine ⟨fun p k h => ?_, by simp⟩
            simp only [Option.some.injEq, Prod.mk.injEq] at h
            obtain ⟨rfl, rfl⟩ := h
            exact ⟨hb, h1, rfl⟩

/-- C47, any arithmetic: `for_each_intersecting` visits exactly the elements the line test reports, in
order, each with its reported point. -/
theorem c47_for_each (hbs : List HB) :
    List.Sublist ((forEachIntersecting bb anchor dir hbs).map Prod.snd) hbs ∧
    (∀ p hb, (p, hb) ∈ forEachIntersecting bb anchor dir hbs ↔ hb ∈ hbs ∧ Reports bb anchor dir hb p) ∧
    ∀ hbs', forEachIntersecting bb anchor dir (hbs ++ hbs') =
      forEachIntersecting bb anchor dir hbs ++ forEachIntersecting bb anchor dir hbs' := by
  refine ⟨?_, fun p hb => ?_, fun hbs' => by simp [forEachIntersecting]⟩
  · induction hbs with
    | nil => simp [forEachIntersecting]
    | cons x l ih =>
      unfold forEachIntersecting at ih ⊢
      rw [List.filterMap_cons]
      cases hx : (do
        let b ← bb x
        let i ← AABBTree3D.lineIntersection anchor dir b
        return (i, x) : Option (Point3D α × HB)) with
      | none => exact ih.trans (List.sublist_cons_self _ _)
      | some y =>
        have hy : y.2 = x := by
          simp only [Option.bind_eq_bind, Option.bind_eq_some_iff, Option.pure_def, Option.some.injEq] at hx
          obtain ⟨b, -, i, -, rfl⟩ := hx
          rfl
        rw [List.map_cons, hy]
        exact ih.cons_cons x
  · simp only [forEachIntersecting, List.mem_filterMap, Option.bind_eq_bind, Option.bind_eq_some_iff,
      Option.pure_def, Option.some.injEq, Prod.mk.injEq, Reports]
    constructor
    · rintro ⟨x, hx, b, hb, i, hi, rfl, rfl⟩
      exact ⟨hx, b, hb, hi⟩
    · rintro ⟨hx, b, hbb, hi⟩
      exact ⟨hb, hx, b, hbb, p, hi, rfl, rfl⟩

end

section
variable {α : Type} [Scalar α] [LawfulScalar α] {HB : Type}
variable (bb : HB → Option (BoundingBox3D α)) (anchor dir : Point3D α)

/-- C47, real and binary64 arithmetic, as long as no distance to a reported point is NaN:
`None` exactly when the line test reports nothing, otherwise the first reported point of least distance
to the anchor, with its index. Missing for the full statement: the reported point is where the whole line
enters the box, so an element that encloses the anchor can lose against one further away
(`c47_violated`); NaN points win over everything (`c47_nan`). -/
theorem c47_closest_partial (hbs : List HB)
    (hok : ∀ hb ∈ hbs, ∀ p, Reports bb anchor dir hb p → ok (anchor.sqrDist p)) :
    (indexClosestIntersecting bb anchor dir hbs = none ↔ ∀ hb ∈ hbs, ∀ p, ¬Reports bb anchor dir hb p) ∧
    ∀ p k, indexClosestIntersecting bb anchor dir hbs = some (p, k) ↔ FirstClosest bb anchor dir hbs p k := by
  have uniq : ∀ l : List HB, ∀ p k p' k', FirstClosest bb anchor dir l p k → FirstClosest bb anchor dir l p' k' →
      (p', k') = (p, k) := by
    rintro l p k p' k' ⟨⟨hb, h1, h2⟩, h3⟩ ⟨⟨hb', h1', h2'⟩, h3'⟩
    have a := h3 k' hb' p' h1' h2'
    have b := h3' k hb p h1 h2
    have hk : k = k' := by
      rcases lt_trichotomy k k' with h | h | h
      · exact absurd (b.2 h) (not_lt.2 a.1)
      · exact h
      · exact absurd (a.2 h) (not_lt.2 b.1)
    subst hk
    rw [h1] at h1'
    cases h1'
    obtain ⟨c, c1, c2⟩ := h2
    obtain ⟨c', c1', c2'⟩ := h2'
    rw [c1] at c1'
    cases c1'
    rw [c2] at c2'
    cases c2'
    rfl
  have main : ∀ l : List HB, (∀ hb ∈ l, ∀ p, Reports bb anchor dir hb p → ok (anchor.sqrDist p)) →
      (indexClosestIntersecting bb anchor dir l = none → ∀ hb ∈ l, ∀ p, ¬Reports bb anchor dir hb p) ∧
      ∀ p k, indexClosestIntersecting bb anchor dir l = some (p, k) → FirstClosest bb anchor dir l p k := by
    intro l
    induction l using List.reverseRecOn with
    | nil => intro _; simp [indexClosestIntersecting]
    | append_singleton l x ih =>
      intro hok
      obtain ⟨ih1, ih2⟩ := ih (fun hb h => hok hb (List.mem_append_left _ h))
      rw [indexClosest_snoc]
      -- a new element that reports nothing
      have skip : (∀ p, ¬Reports bb anchor dir x p) →
          (indexClosestIntersecting bb anchor dir l = none → ∀ hb ∈ l ++ [x], ∀ p, ¬Reports bb anchor dir hb p) ∧
          ∀ p k, indexClosestIntersecting bb anchor dir l = some (p, k) → FirstClosest bb anchor dir (l ++ [x]) p k := by
        intro hx
        refine ⟨fun h hb hm p => ?_, fun p k h => ?_⟩
        · rcases List.mem_append.1 hm with hm | hm
          · exact ih1 h hb hm p
          · rw [List.mem_singleton] at hm; subst hm; exact hx p
        · obtain ⟨⟨hb, h1, h2⟩, h3⟩ := ih2 p k h
          have hk := (List.getElem?_eq_some_iff.1 h1).1
          refine ⟨⟨hb, by rw [List.getElem?_append_left hk]; exact h1, h2⟩, fun j hb' p' hj hr => ?_⟩
          by_cases hjl : j < l.length
          · rw [List.getElem?_append_left hjl] at hj
            exact h3 j hb' p' hj hr
          · rw [List.getElem?_append_right (not_lt.1 hjl)] at hj
            have : hb' = x := by
              rcases Nat.eq_zero_or_pos (j - l.length) with h | h
              · rw [h] at hj; simpa using hj.symm
              · rw [List.getElem?_eq_none (by simp; omega)] at hj; simp at hj
            subst this
            exact absurd hr (hx p')
      cases hbx : bb x with
      | none => exact skip (fun p ⟨b, h, _⟩ => by rw [hbx] at h; cases h)
      | some b =>
        simp only
        cases hli : AABBTree3D.lineIntersection anchor dir b with
        | none => exact skip (fun p ⟨b', h, h'⟩ => by rw [hbx] at h; cases h; rw [hli] at h'; cases h')
        | some i =>
          have hrx : ∀ p, Reports bb anchor dir x p ↔ p = i := by
            intro p
            constructor
            · rintro ⟨b', h, h'⟩
              rw [hbx] at h; cases h; rw [hli] at h'; cases h'; rfl
            · rintro rfl; exact ⟨b, hbx, hli⟩
          have oki : ok (anchor.sqrDist i) := hok x (by simp) i ((hrx i).2 rfl)
          have hlast : (l ++ [x])[l.length]? = some x := by simp
          have split : ∀ (j : Nat) (hb' : HB), (l ++ [x])[j]? = some hb' → (l[j]? = some hb' ∧ j < l.length) ∨ (hb' = x ∧ j = l.length) := by
            intro j hb' hj
            by_cases hjl : j < l.length
            · rw [List.getElem?_append_left hjl] at hj
              exact .inl ⟨hj, hjl⟩
            · have hlt := (List.getElem?_eq_some_iff.1 hj).1
              simp at hlt
              have : j = l.length := by omega
              subst this
              rw [hlast] at hj
              cases hj
              exact .inr ⟨rfl, rfl⟩
          simp only
          cases hl : indexClosestIntersecting bb anchor dir l with
          | none =>
            refine ⟨by simp, fun p k h => ?_⟩
            simp only [Option.some.injEq, Prod.mk.injEq] at h
            obtain ⟨rfl, rfl⟩ := h
            refine ⟨⟨x, hlast, (hrx _).2 rfl⟩, fun j hb' p' hj hr => ?_⟩
            rcases split j hb' hj with ⟨hj, -⟩ | ⟨rfl, rfl⟩
            · exact absurd hr (ih1 hl hb' (List.mem_of_getElem? hj) p')
            · rw [hrx] at hr; subst hr
              exact ⟨le_refl _, fun h => absurd h (lt_irrefl _)⟩
          | some r =>
            obtain ⟨rp, rk⟩ := r
            obtain ⟨⟨hb, h1, h2⟩, h3⟩ := ih2 rp rk hl
            have okr : ok (anchor.sqrDist rp) := hok hb (List.mem_append_left _ (List.mem_of_getElem? h1)) rp h2
            simp only
            by_cases hc : (anchor.sqrDist i <. anchor.sqrDist rp) = true
            · rw [if_pos hc]
              rw [lt_of_ok oki okr] at hc
              refine ⟨by simp, fun p k h => ?_⟩
              simp only [Option.some.injEq, Prod.mk.injEq] at h
              obtain ⟨rfl, rfl⟩ := h
              refine ⟨⟨x, hlast, (hrx _).2 rfl⟩, fun j hb' p' hj hr => ?_⟩
              rcases split j hb' hj with ⟨hj, -⟩ | ⟨rfl, rfl⟩
              · have := (h3 j hb' p' hj hr).1
                exact ⟨(hc.trans_le this).le, fun _ => hc.trans_le this⟩
              · rw [hrx] at hr; subst hr
                exact ⟨le_refl _, fun h => absurd h (lt_irrefl _)⟩
            · rw [if_neg hc]
              rw [lt_of_ok oki okr, not_lt] at hc
              refine ⟨by simp, fun p k h => ?_⟩
              simp only [Option.some.injEq, Prod.mk.injEq] at h
              obtain ⟨rfl, rfl⟩ := h
              have hk := (List.getElem?_eq_some_iff.1 h1).1
              refine ⟨⟨hb, by rw [List.getElem?_append_left hk]; exact h1, h2⟩, fun j hb' p' hj hr => ?_⟩
              rcases split j hb' hj with ⟨hj, -⟩ | ⟨rfl, rfl⟩
              · exact h3 j hb' p' hj hr
              · rw [hrx] at hr; subst hr
                exact ⟨hc, fun h => by omega⟩
  obtain ⟨m1, m2⟩ := main hbs hok
  refine ⟨⟨m1, fun h => ?_⟩, fun p k => ⟨m2 p k, fun h => ?_⟩⟩
  · cases hc : indexClosestIntersecting bb anchor dir hbs with
    | none => rfl
    | some r =>
      obtain ⟨⟨hb, h1, h2⟩, -⟩ := m2 r.1 r.2 hc
      exact absurd h2 (h hb (List.mem_of_getElem? h1) _)
  · cases hc : indexClosestIntersecting bb anchor dir hbs with
    | none =>
      obtain ⟨⟨hb, h1, h2⟩, -⟩ := h
      exact absurd h2 (m1 hc hb (List.mem_of_getElem? h1) _)
    | some r => exact congrArg some (uniq hbs p k r.1 r.2 h (m2 r.1 r.2 hc))
end

/-- C47, exact arithmetic, no zero direction component, the anchor in none of the boxes: the chosen
element is hit by the half line, and no point of the half line in any other element is closer to the
anchor than the returned point. -/
theorem c47_closest_real_partial {HB : Type} (bb : HB → Option (BoundingBox3D ℝ)) (anchor dir : Point3D ℝ) (hbs : List HB)
    (hd : ∀ d, at3 dir d ≠ 0) (hv : ∀ hb ∈ hbs, ∀ b, bb hb = some b → (box3 b).Valid)
    (hout : ∀ hb ∈ hbs, ∀ b, bb hb = some b → ¬LineInBox anchor dir b 0) :
    (closestIntersecting bb anchor dir hbs = none ↔
      ∀ hb ∈ hbs, ∀ b, bb hb = some b → ∀ t, 0 ≤ t → ¬LineInBox anchor dir b t) ∧
    ∀ p hb, closestIntersecting bb anchor dir hbs = some (p, hb) → hb ∈ hbs ∧
      ∃ b t, bb hb = some b ∧ 0 < t ∧ LineInBox anchor dir b t ∧
        (∀ d, at3 p d = at3 anchor d + t * at3 dir d) ∧
        ∀ hb' ∈ hbs, ∀ b', bb hb' = some b' → ∀ u, 0 ≤ u → LineInBox anchor dir b' u → t ≤ u := by
  have hrep : ∀ hb ∈ hbs, ∀ b, bb hb = some b → ((∃ p, Reports bb anchor dir hb p) ↔ ∃ t, 0 ≤ t ∧ LineInBox anchor dir b t) := by
    intro hb hm b hb'
    rw [← (c48_line_box_partial anchor dir b (hv hb hm b hb') hd).2]
    constructor
    · rintro ⟨p, c, h1, h2⟩
      rw [hb'] at h1; cases h1
      exact ⟨p, h2⟩
    · rintro ⟨p, h⟩
      exact ⟨p, b, hb', h⟩
  obtain ⟨n1, n2⟩ := c47_closest_partial bb anchor dir hbs (fun _ _ _ _ => trivial)
  obtain ⟨a1, a2⟩ := c47_index_agrees bb anchor dir hbs
  refine ⟨?_, fun p hb h => ?_⟩
  · rw [← a2, n1]
    constructor
    · intro h hb hm b hb' t ht hl
      obtain ⟨p, hp⟩ := (hrep hb hm b hb').2 ⟨t, ht, hl⟩
      exact h hb hm p hp
    · intro h hb hm p hp
      obtain ⟨b, hb', -⟩ := id hp
      obtain ⟨t, ht, hl⟩ := (hrep hb hm b hb').1 ⟨p, hp⟩
      exact h hb hm b hb' t ht hl
  · cases hi : indexClosestIntersecting bb anchor dir hbs with
    | none => rw [a2.1 hi] at h; cases h
    | some r =>
      obtain ⟨rp, rk⟩ := r
      obtain ⟨hb1, g1, g2⟩ := a1 rp rk hi
      rw [h] at g2
      cases g2
      obtain ⟨⟨hb2, f1, b, f2, f3⟩, fmin⟩ := (n2 p rk).1 hi
      rw [g1] at f1
      cases f1
      have hm := List.mem_of_getElem? g1
      obtain ⟨t, ⟨ht1, ht2⟩, hp⟩ := (c48_line_box_partial anchor dir b (hv hb hm b f2) hd).1 p f3
      -- the entry parameter of a hit box that does not contain the anchor is positive
      have pos : ∀ hb' ∈ hbs, ∀ b', bb hb' = some b' → ∀ t', EntersAt anchor dir b' t' → (∃ u, 0 ≤ u ∧ LineInBox anchor dir b' u) → 0 < t' := by
        intro hb' hm' b' hbb t' ⟨e1, e2⟩ ⟨u, hu, hlu⟩
        by_contra hc
        have hc := not_lt.1 hc
        refine hout hb' hm' b' hbb (fun d => ?_)
        have h1 := e1 d
        have h2 := hlu d
        rcases le_total 0 (at3 dir d) with h0 | h0
        · have q1 : t' * at3 dir d ≤ 0 * at3 dir d := mul_le_mul_of_nonneg_right hc h0
          have q2 : 0 * at3 dir d ≤ u * at3 dir d := mul_le_mul_of_nonneg_right hu h0
          constructor <;> linarith [h1.1, h2.2]
        · have q1 : 0 * at3 dir d ≤ t' * at3 dir d := mul_le_mul_of_nonpos_right hc h0
          have q2 : u * at3 dir d ≤ 0 * at3 dir d := mul_le_mul_of_nonpos_right hu h0
          constructor <;> linarith [h1.2, h2.1]
      have htpos : 0 < t := pos hb hm b f2 t ⟨ht1, ht2⟩ ((hrep hb hm b f2).1 ⟨p, b, f2, f3⟩)
      refine ⟨hm, b, t, f2, htpos, ht1, hp, fun hb' hm' b' hbb u hu hlu => ?_⟩
      obtain ⟨p', hp'⟩ := (hrep hb' hm' b' hbb).2 ⟨u, hu, hlu⟩
      obtain ⟨j, hj⟩ := List.mem_iff_getElem?.1 hm'
      have hmin := (fmin j hb' p' hj hp').1
      obtain ⟨b'', hbb', hli⟩ := hp'
      rw [hbb] at hbb'
      cases hbb'
      obtain ⟨t', ⟨hent, hlow⟩, hq⟩ := (c48_line_box_partial anchor dir b' (hv hb' hm' b' hbb) hd).1 p' hli
      have ht'pos := pos hb' hm' b' hbb t' ⟨hent, hlow⟩ ⟨u, hu, hlu⟩
      rw [Real.key_le] at hmin
      have dist : ∀ (q : Point3D ℝ) (v : ℝ), (∀ d, at3 q d = at3 anchor d + v * at3 dir d) →
          anchor.sqrDist q = v ^ 2 * (dir.x ^ 2 + dir.y ^ 2 + dir.z ^ 2) := by
        intro q v hq
        rw [forall_fin3] at hq
        simp only [at3_zero, at3_one, at3_two] at hq
        simp only [Point3D.sqrDist, Scalar.sq]
        rw [hq.1, hq.2.1, hq.2.2]
        ring
      rw [dist p t hp, dist p' t' hq] at hmin
      have hD : 0 < dir.x ^ 2 + dir.y ^ 2 + dir.z ^ 2 := by
        have : dir.x ≠ 0 := hd 0
        positivity
      have hsq : t ^ 2 ≤ t' ^ 2 := le_of_mul_le_mul_right hmin hD
      have : t ≤ t' := by
        by_contra hc
        nlinarith [not_le.1 hc]
      exact this.trans (hlow u hlu)

/-- two boxes in front of the anchor -/
example : ∃ (bb : Bool → Option (BoundingBox3D ℝ)) (anchor dir : Point3D ℝ) (hbs : List Bool),
    bb = (fun x => if x then some ⟨⟨4, 4, 4⟩, ⟨5, 5, 5⟩⟩ else some ⟨⟨1, 1, 1⟩, ⟨2, 2, 2⟩⟩) ∧ hbs = [true, false] ∧
    (∀ d, at3 dir d ≠ 0) ∧ (∀ hb ∈ hbs, ∀ b, bb hb = some b → (box3 b).Valid) ∧
    (∀ hb ∈ hbs, ∀ b, bb hb = some b → ¬LineInBox anchor dir b 0) ∧
    ∃ b, bb true = some b ∧ LineInBox anchor dir b 4 := by
  refine ⟨_, ⟨0, 0, 0⟩, ⟨1, 1, 1⟩, _, rfl, rfl, ?_, ?_, ?_, ?_⟩
  · rw [forall_fin3]; norm_num
  · intro hb _ b hb'
    rw [valid_real_3d]
    cases hb <;> simp at hb' <;> subst hb' <;> norm_num
  · intro hb _ b hb'
    cases hb <;> simp at hb' <;> subst hb' <;> intro h <;> have := (h 0).1 <;> norm_num at this
  · refine ⟨_, rfl, ?_⟩
    rw [LineInBox, forall_fin3]; norm_num

/-- C47 violated: the ray starts inside the first box (distance 0), but the second box, three units
ahead, is returned as the closest. -/
theorem c47_violated : ∃ (anchor dir : Point3D F64) (b1 b2 : BoundingBox3D F64),
    anchor = ⟨f 0, f 0, f 0⟩ ∧ dir = Norm3D.normX ∧
    b1 = ⟨⟨f (-10), f (-1), f (-1)⟩, ⟨f 1, f 1, f 1⟩⟩ ∧ b2 = ⟨⟨f 3, f (-1), f (-1)⟩, ⟨f 4, f 1, f 1⟩⟩ ∧
    b1.contains anchor = true ∧
    closestIntersecting some anchor dir [b1, b2] = some (⟨f 3, f 0, f 0⟩, b2) := by
  refine ⟨_, _, _, _, rfl, rfl, rfl, rfl, ?_, ?_⟩ <;> decide +kernel

/-- C47 violated: a phantom hit with NaN coordinates (`c48_phantom`) is kept, although a box ahead of the
ray is hit. -/
theorem c47_nan : ∃ (anchor dir : Point3D F64) (b1 b2 : BoundingBox3D F64),
    anchor = ⟨f 5, f 1, f (1/2)⟩ ∧ dir = Norm3D.normX ∧
    b1 = ⟨⟨f 0, f 0, f 0⟩, ⟨f 1, f 1, f 1⟩⟩ ∧ b2 = ⟨⟨f 6, f 0, f 0⟩, ⟨f 7, f 2, f 1⟩⟩ ∧
    AABBTree3D.lineIntersection anchor dir b2 = some ⟨f 6, f 1, f (1/2)⟩ ∧
    closestIntersecting some anchor dir [b1, b2] = some (⟨.inf true, .nan, .nan⟩, b1) := by
  refine ⟨_, _, _, _, rfl, rfl, rfl, rfl, ?_, ?_⟩ <;> decide +kernel

end R3D

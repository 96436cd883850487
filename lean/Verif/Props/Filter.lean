import Verif.Model.Filter
import Verif.Props.KdTree
import Verif.Props.BoundingBoxReal
/-!
# C30-C37, C74: filters and views
-/
namespace R3D
open Scalar Spec

/-! ### combinators -/

namespace Filter
variable {T : Type}

/-- C30: `is_allowed` of every combinator is the boolean combination its name promises -/
theorem c30_combinators (f g : Filter T) (x : T) :
    (allow : Filter T) x = true ∧ (deny : Filter T) x = false ∧
    (negate f x = true ↔ ¬ f x = true) ∧
    (and f g x = true ↔ f x = true ∧ g x = true) ∧
    (or f g x = true ↔ f x = true ∨ g x = true) ∧
    (xor f g x = true ↔ ¬ (f x = true ↔ g x = true)) ∧
    (outerInner f g x = true ↔ f x = true ∧ ¬ g x = true) := by
  refine ⟨rfl, rfl, ?_, ?_, ?_, ?_, ?_⟩ <;> cases hf : f x <;> cases hg : g x <;>
    simp [negate, and, or, xor, outerInner, hf, hg]

/-- C30: the chains -/
theorem c30_chains (fs : List (Filter T)) (x : T) :
    (all fs x = true ↔ ∀ f ∈ fs, f x = true) ∧ (any fs x = true ↔ ∃ f ∈ fs, f x = true) := by
  induction fs with
  | nil => simp [all, any]
  | cons f fs ih => cases hf : f x <;> simp [all, any, hf, ih]

example : all [allow, (fun n : Nat => n > 3), negate (fun n => n > 5)] 4 = true ∧
    any [(fun n : Nat => n > 3), deny] 2 = false := by decide

end Filter

/-! ### views -/

namespace View
variable {T : Type}

/-- two views mean the same: both full, or the same set of indices -/
def Same : View → View → Prop
  | .full, .full => True
  | .restricted a, .restricted b => ∀ i, i ∈ a ↔ i ∈ b
  | _, _ => False

theorem mem_hsInsert {s : List Nat} {i j : Nat} : j ∈ hsInsert s i ↔ j ∈ s ∨ j = i := by
  unfold hsInsert
  split
  · rename_i h
    rw [List.contains_iff_mem] at h
    constructor
    · exact Or.inl
    · rintro (h' | rfl)
      · exact h'
      · exact h
  · simp

theorem mem_foldl_insert (o : List Nat) : ∀ (s : List Nat) (j : Nat),
    j ∈ o.foldl hsInsert s ↔ j ∈ s ∨ j ∈ o := by
  induction o with
  | nil => simp
  | cons i o ih => intro s j; rw [List.foldl_cons, ih, mem_hsInsert, List.mem_cons]; tauto

/-- C35: `Full` absorbs, restricted views are joined, and neither order nor repetition matters -/
theorem c35_union (u v w : View) :
    u.union .full = .full ∧ View.full.union u = .full ∧
    (∀ a b, ∃ c, (View.restricted a).union (.restricted b) = .restricted c ∧ ∀ i, i ∈ c ↔ i ∈ a ∨ i ∈ b) ∧
    (u.union v).Same (v.union u) ∧ ((u.union v).union w).Same (u.union (v.union w)) ∧ (u.union u).Same u := by
  refine ⟨rfl, ?_, fun a b => ⟨_, rfl, fun i => mem_foldl_insert b a i⟩, ?_, ?_, ?_⟩
  · cases u <;> rfl
  · cases u <;> cases v <;> simp only [union, Same]
    intro i; rw [mem_foldl_insert, mem_foldl_insert]; tauto
  · cases u <;> cases v <;> cases w <;> simp only [union, Same]
    intro i; simp only [mem_foldl_insert]; tauto
  · cases u <;> simp only [union, Same]
    intro i; simp only [mem_foldl_insert]; tauto

example : (View.restricted [3, 1]).union (.restricted [1, 2]) = .restricted [3, 1, 2] := by decide

theorem zipIdx_filter (s : List Nat) : ∀ (data : List T) (k : Nat), ∃ idx : List Nat,
    idx.Pairwise (· < ·) ∧ (∀ i, i ∈ idx ↔ i ∈ s ∧ k ≤ i ∧ i < k + data.length) ∧
    ((data.zipIdx k).filter fun pi => s.contains pi.2).map (fun pi => some pi.1) =
      idx.map fun i => data[i - k]? := by
  intro data
  induction data with
  | nil => intro k; exact ⟨[], List.Pairwise.nil, by simp, rfl⟩
  | cons x data ih =>
    intro k
    obtain ⟨idx, h1, h2, h3⟩ := ih (k + 1)
    have hrest : (idx.map fun i => (x :: data)[i - k]?) = idx.map fun i => data[i - (k + 1)]? := by
      refine List.map_congr_left fun i hi => ?_
      have := ((h2 i).1 hi).2.1
      rw [show i - k = (i - (k + 1)) + 1 by omega, List.getElem?_cons_succ]
    by_cases hk : k ∈ s
    · refine ⟨k :: idx, List.pairwise_cons.2 ⟨fun i hi => ((h2 i).1 hi).2.1, h1⟩, fun i => ?_, ?_⟩
      · rw [List.mem_cons, h2, List.length_cons]
        constructor
        · rintro (rfl | ⟨a, b, c⟩)
          · exact ⟨hk, le_rfl, by omega⟩
          · exact ⟨a, by omega, by omega⟩
        · rintro ⟨a, b, c⟩
          rcases Nat.eq_or_lt_of_le b with rfl | b
          · exact Or.inl rfl
          · exact Or.inr ⟨a, b, by omega⟩
      · rw [List.zipIdx_cons, List.filter_cons, if_pos (by simpa using hk), List.map_cons, List.map_cons, h3,
          hrest]
        simp
    · refine ⟨idx, h1, fun i => ?_, ?_⟩
      · rw [h2, List.length_cons]
        constructor
        · rintro ⟨a, b, c⟩; exact ⟨a, by omega, by omega⟩
        · rintro ⟨a, b, c⟩
          refine ⟨a, ?_, by omega⟩
          rcases Nat.eq_or_lt_of_le b with rfl | b
          · exact absurd a hk
          · exact b
      · rw [List.zipIdx_cons, List.filter_cons, if_neg (by simpa using hk), h3, hrest]

/-- C31: applying a view: `Full` changes nothing; an index out of range is reported and nothing changes;
otherwise the elements at the selected indices remain, in increasing order of the index. `from_view` gives
the same elements and leaves the container alone. -/
theorem c31_apply_view (data : List T) :
    View.full.apply data = (data, .ok ()) ∧ View.full.fromView data = some data ∧
    ∀ s : List Nat,
      ((∃ i ∈ s, data.length ≤ i) →
        (View.restricted s).apply data = (data, .error .IndexOutOfBounds) ∧
        (View.restricted s).fromView data = none) ∧
      ((∀ i ∈ s, i < data.length) → ∃ (r : List T) (idx : List Nat), (View.restricted s).apply data = (r, .ok ()) ∧
        (View.restricted s).fromView data = some r ∧
        idx.Pairwise (· < ·) ∧ (∀ i, i ∈ idx ↔ i ∈ s) ∧ r.map some = idx.map fun i => data[i]?) := by
  refine ⟨rfl, rfl, fun s => ⟨fun ⟨i, hi, hl⟩ => ?_, fun h => ?_⟩⟩
  · have : (s.any fun x => decide (x ≥ data.length)) = true :=
      List.any_eq_true.2 ⟨i, hi, decide_eq_true hl⟩
    have e : (View.restricted s).apply data = (data, .error .IndexOutOfBounds) := by
      simp only [apply]; rw [if_pos this]
    exact ⟨e, by rw [fromView, e]⟩
  · have : ¬ (s.any fun x => decide (x ≥ data.length)) = true := by
      rw [List.any_eq_true]
      rintro ⟨i, hi, hd⟩
      exact absurd (h i hi) (by simpa using hd)
    obtain ⟨idx, h1, h2, h3⟩ := zipIdx_filter s data 0
    refine ⟨(data.zipIdx.filter fun pi => s.contains pi.2).map Prod.fst, idx, ?_, ?_, h1, fun i => ?_, ?_⟩
    · simp only [apply]; rw [if_neg this]
    · rw [fromView]; simp only [apply]; rw [if_neg this]
    · rw [h2]
      constructor
      · exact fun h => h.1
      · exact fun hi => ⟨hi, Nat.zero_le _, by have := h i hi; omega⟩
    · rw [List.map_map]; simpa [Function.comp_def] using h3

example : (View.restricted [2, 0]).apply ['a', 'b', 'c'] = (['a', 'c'], .ok ()) := by decide +kernel

/-- the indices of `n` elements the view lets through -/
def Selects (v : View) (n i : Nat) : Prop :=
  i < n ∧ match v with
    | .full => True
    | .restricted s => i ∈ s

/-- every index is valid: applying the view cannot fail -/
def InRange (v : View) (n : Nat) : Prop :=
  match v with
  | .full => True
  | .restricted s => ∀ i ∈ s, i < n

theorem mem_foldl_remove (o : List Nat) : ∀ (s : List Nat) (j : Nat),
    j ∈ o.foldl hsRemove s ↔ j ∈ s ∧ j ∉ o := by
  induction o with
  | nil => simp
  | cons i o ih =>
    intro s j
    rw [List.foldl_cons, ih, hsRemove, List.mem_filter, List.mem_cons]
    simp only [bne_iff_ne, ne_eq]
    tauto

end View

namespace FilterRA
variable {T : Type}
open View

theorem collectAllowed_spec (f : Filter T) (ra : List T) : ∀ (is acc : List Nat), (∀ i ∈ is, i < ra.length) →
    ∃ r, collectAllowed f ra is acc = some r ∧
      ∀ j, j ∈ r ↔ j ∈ acc ∨ (j ∈ is ∧ ∃ x, ra[j]? = some x ∧ f x = true) := by
  intro is
  induction is with
  | nil => intro acc _; exact ⟨acc, rfl, by simp⟩
  | cons i is ih =>
    intro acc h
    have hi := h i (by simp)
    obtain ⟨r, h1, h2⟩ := ih (if f ra[i] then hsInsert acc i else acc) fun j hj => h j (by simp [hj])
    refine ⟨r, ?_, fun j => ?_⟩
    · rw [collectAllowed, List.getElem?_eq_getElem hi]; exact h1
    · rw [h2, List.mem_cons]
      by_cases hf : f ra[i] = true
      · rw [if_pos hf, mem_hsInsert]
        constructor
        · rintro ((h | rfl) | h)
          · exact Or.inl h
          · exact Or.inr ⟨Or.inl rfl, _, List.getElem?_eq_getElem hi, hf⟩
          · exact Or.inr ⟨Or.inr h.1, h.2⟩
        · rintro (h | ⟨rfl | h, hx⟩)
          · exact Or.inl (Or.inl h)
          · exact Or.inl (Or.inr rfl)
          · exact Or.inr ⟨h, hx⟩
      · rw [if_neg hf]
        constructor
        · rintro (h | h)
          · exact Or.inl h
          · exact Or.inr ⟨Or.inr h.1, h.2⟩
        · rintro (h | ⟨rfl | h, hx⟩)
          · exact Or.inl h
          · obtain ⟨x, e, hx⟩ := hx
            rw [List.getElem?_eq_getElem hi, Option.some.injEq] at e
            rw [← e] at hx
            exact absurd hx hf
          · exact Or.inr ⟨h, hx⟩

theorem collectRemoved_spec (f : Filter T) (ra : List T) (max : Nat) (hm : max + 1 = ra.length) :
    ∀ (is acc : List Nat), ∃ r, collectRemoved f ra max is acc = some r ∧
      ∀ j, j ∈ r ↔ j ∈ acc ∨ (j ∈ is ∧ ¬ ∃ x, ra[j]? = some x ∧ f x = true) := by
  intro is
  induction is with
  | nil => intro acc; exact ⟨acc, rfl, by simp⟩
  | cons i is ih =>
    intro acc
    by_cases hi : i > max
    · obtain ⟨r, h1, h2⟩ := ih (acc ++ [i])
      refine ⟨r, by rw [collectRemoved, if_pos hi]; exact h1, fun j => ?_⟩
      have hn : ra[i]? = none := List.getElem?_eq_none (by omega)
      rw [h2, List.mem_append, List.mem_singleton, List.mem_cons]
      constructor
      · rintro ((h | rfl) | h)
        · exact Or.inl h
        · exact Or.inr ⟨Or.inl rfl, by rw [hn]; simp⟩
        · exact Or.inr ⟨Or.inr h.1, h.2⟩
      · rintro (h | ⟨rfl | h, hx⟩)
        · exact Or.inl (Or.inl h)
        · exact Or.inl (Or.inr rfl)
        · exact Or.inr ⟨h, hx⟩
    · have hl : i < ra.length := by omega
      obtain ⟨r, h1, h2⟩ := ih (if !f ra[i] then acc ++ [i] else acc)
      refine ⟨r, ?_, fun j => ?_⟩
      · rw [collectRemoved, if_neg hi, List.getElem?_eq_getElem hl]; exact h1
      · rw [h2, List.mem_cons]
        by_cases hf : f ra[i] = true
        · rw [if_neg (by simp [hf])]
          constructor
          · rintro (h | h)
            · exact Or.inl h
            · exact Or.inr ⟨Or.inr h.1, h.2⟩
          · rintro (h | ⟨rfl | h, hx⟩)
            · exact Or.inl h
            · exact absurd ⟨_, List.getElem?_eq_getElem hl, hf⟩ hx
            · exact Or.inr ⟨h, hx⟩
        · rw [if_pos (by simp [hf]), List.mem_append, List.mem_singleton]
          constructor
          · rintro ((h | rfl) | h)
            · exact Or.inl h
            · refine Or.inr ⟨Or.inl rfl, ?_⟩
              rintro ⟨x, e, hx⟩
              rw [List.getElem?_eq_getElem hl, Option.some.injEq] at e
              rw [← e] at hx
              exact hf hx
            · exact Or.inr ⟨Or.inr h.1, h.2⟩
          · rintro (h | ⟨rfl | h, hx⟩)
            · exact Or.inl (Or.inl h)
            · exact Or.inl (Or.inr rfl)
            · exact Or.inr ⟨h, hx⟩

/-- `F` never panics and keeps exactly the selected indices for which `keep` holds -/
def Restricts (F : FilterRA T) (keep : List T → Nat → Prop) : Prop :=
  ∀ ra v, ∃ v', F ra v = some v' ∧ ∀ i, v'.Selects ra.length i ↔ v.Selects ra.length i ∧ keep ra i

/-- C32: the indices afterwards are exactly those that were selected, are in range, and whose element is
allowed; the view can be applied to the collection without error. -/
theorem c32_filter (f : Filter T) (ra : List T) (v : View) :
    ∃ v', ofFilter f ra v = some v' ∧ v'.InRange ra.length ∧
      ∀ i, v'.Selects ra.length i ↔ v.Selects ra.length i ∧ ∃ x, ra[i]? = some x ∧ f x = true := by
  unfold ofFilter
  by_cases h0 : ra.length = 0
  · refine ⟨.full, by rw [if_pos h0], trivial, fun i => ?_⟩
    simp only [Selects]
    omega
  · cases v with
    | full =>
      obtain ⟨r, h1, h2⟩ := collectAllowed_spec f ra (List.range ra.length) [] (by simp)
      refine ⟨.restricted r, by rw [if_neg h0, h1]; rfl, fun i hi => ?_, fun i => ?_⟩
      · have := (h2 i).1 hi
        simpa using (this.resolve_left (by simp)).1
      · simp only [Selects, h2, List.mem_range, List.not_mem_nil, false_or, and_true]
        tauto
    | restricted s =>
      obtain ⟨r, h1, h2⟩ := collectRemoved_spec f ra (ra.length - 1) (by omega) s []
      refine ⟨.restricted (r.foldl hsRemove s), by rw [if_neg h0]; simp only [h1]; rfl, fun i hi => ?_, fun i => ?_⟩
      · rw [mem_foldl_remove, h2] at hi
        by_contra hl
        refine hi.2 (Or.inr ⟨hi.1, ?_⟩)
        rw [List.getElem?_eq_none (by omega)]
        simp
      · simp only [Selects, mem_foldl_remove, h2, List.not_mem_nil, false_or]
        by_cases hx : ∃ x, ra[i]? = some x ∧ f x = true
        · simp only [hx, not_true, and_false, not_false_eq_true, and_true]
        · simp only [hx, not_false_eq_true, and_true, and_false, iff_false]
          tauto

/-- C32, seen through `apply_view`: filtering with a fresh view and applying it is `retain` -/
theorem c32_retain (f : Filter T) (ra : List T) :
    ∃ v, ofFilter f ra .full = some v ∧ v.apply ra = (ra.filter f, .ok ()) := by
  obtain ⟨v, h1, h2, h3⟩ := c32_filter f ra .full
  refine ⟨v, h1, ?_⟩
  cases v with
  | full =>
    show (ra, _) = _
    rw [List.filter_eq_self.2]
    intro x hx
    obtain ⟨i, hi, rfl⟩ := List.mem_iff_getElem.1 hx
    obtain ⟨-, y, hy, hf⟩ := (h3 i).1 ⟨hi, trivial⟩
    rw [List.getElem?_eq_getElem hi, Option.some.injEq] at hy
    rw [hy]; exact hf
  | restricted s =>
    simp only [apply]
    rw [if_neg (by
      rw [List.any_eq_true]
      rintro ⟨i, hi, hd⟩
      have := h2 i hi
      simp at hd; omega)]
    congr 1
    have h4 : ∀ i (hi : i < ra.length), (s.contains i = f ra[i]) := by
      intro i hi
      rw [Bool.eq_iff_iff, List.contains_iff_mem]
      have := h3 i
      simp only [Selects, hi, true_and, List.getElem?_eq_getElem, Option.some.injEq, exists_eq_left'] at this
      exact this
    -- filter by index = filter by element
    have h5 : ∀ (l : List T) (k : Nat), (∀ i (hi : i < l.length), s.contains (k + i) = f l[i]) →
        ((l.zipIdx k).filter fun pi => s.contains pi.2).map Prod.fst = l.filter f := by
      intro l
      induction l with
      | nil => intro k _; rfl
      | cons x l ih =>
        intro k hk
        have hx : s.contains k = f x := hk 0 (by simp)
        have ih' := ih (k + 1) fun i hi => by
          have := hk (i + 1) (by simpa using hi)
          rw [show k + 1 + i = k + (i + 1) by omega]
          simpa using this
        rw [List.zipIdx_cons, List.filter_cons, List.filter_cons]
        simp only [hx]
        split
        · rw [List.map_cons, ih']
        · exact ih'
    exact h5 ra 0 fun i hi => by rw [Nat.zero_add]; exact h4 i hi

example : ofFilter (fun n : Nat => n > 3) [5, 1, 4] (.restricted [1, 0, 7]) = some (.restricted [0]) := by
  decide

/-- C32 in the form used for chains -/
theorem ofFilter_restricts (f : Filter T) :
    Restricts (ofFilter f) fun ra i => ∃ x, ra[i]? = some x ∧ f x = true := fun ra v => by
  obtain ⟨v', h1, -, h3⟩ := c32_filter f ra v
  exact ⟨v', h1, h3⟩

/-- C33: a chain keeps the indices every filter keeps, whatever the filters are -/
theorem c33_all (fs : List (FilterRA T × (List T → Nat → Prop))) (h : ∀ f ∈ fs, Restricts f.1 f.2) :
    Restricts (all (fs.map Prod.fst)) fun ra i => ∀ f ∈ fs, f.2 ra i := by
  induction fs with
  | nil => intro ra v; exact ⟨v, rfl, by simp⟩
  | cons f fs ih =>
    intro ra v
    obtain ⟨v1, e1, h1⟩ := h f (by simp) ra v
    obtain ⟨v2, e2, h2⟩ := ih (fun g hg => h g (by simp [hg])) ra v1
    refine ⟨v2, ?_, fun i => ?_⟩
    · rw [List.map_cons, all, e1]; exact e2
    · rw [h2, h1]; simp only [List.forall_mem_cons]; tauto

/-- C33: the order of the filters does not matter -/
theorem c33_order (fs gs : List (Filter T)) (hp : fs.Perm gs) (ra : List T) (v : View) :
    ∃ v1 v2, all (fs.map ofFilter) ra v = some v1 ∧ all (gs.map ofFilter) ra v = some v2 ∧
      (∀ i, v1.Selects ra.length i ↔ v.Selects ra.length i ∧ ∃ x, ra[i]? = some x ∧ ∀ f ∈ fs, f x = true) ∧
      ∀ i, v1.Selects ra.length i ↔ v2.Selects ra.length i := by
  have key : ∀ l : List (Filter T), ∃ v1, all (l.map ofFilter) ra v = some v1 ∧
      ∀ i, v1.Selects ra.length i ↔ v.Selects ra.length i ∧ ∃ x, ra[i]? = some x ∧ ∀ f ∈ l, f x = true := by
    intro l
    obtain ⟨v1, e, h⟩ := c33_all (l.map fun f => (ofFilter f, fun ra i => ∃ x, ra[i]? = some x ∧ f x = true))
      (by
        intro g hg
        obtain ⟨f, -, rfl⟩ := List.mem_map.1 hg
        exact ofFilter_restricts f) ra v
    refine ⟨v1, by rw [List.map_map] at e; exact e, fun i => ?_⟩
    rw [h]
    constructor
    · rintro ⟨hs, hall⟩
      refine ⟨hs, ra[i]'hs.1, List.getElem?_eq_getElem hs.1, fun f hf => ?_⟩
      obtain ⟨x, hx, hfx⟩ := hall _ (List.mem_map_of_mem hf)
      rw [List.getElem?_eq_getElem hs.1, Option.some.injEq] at hx
      rw [hx]; exact hfx
    · rintro ⟨hs, x, hx, hall⟩
      refine ⟨hs, fun g hg => ?_⟩
      obtain ⟨f, hf, rfl⟩ := List.mem_map.1 hg
      exact ⟨x, hx, hall f hf⟩
  obtain ⟨v1, e1, h1⟩ := key fs
  obtain ⟨v2, e2, h2⟩ := key gs
  refine ⟨v1, v2, e1, e2, h1, fun i => ?_⟩
  rw [h1, h2]
  simp only [hp.mem_iff]

theorem selects_union (a b : View) (n i : Nat) :
    (a.union b).Selects n i ↔ a.Selects n i ∨ b.Selects n i := by
  cases a <;> cases b <;> simp only [union, Selects, mem_foldl_insert] <;> tauto

/-- C34 (partial): `any` never restricts a view, it only ever joins: the selection stays as it was. So the
claim holds exactly for the views all of whose elements pass one of the filters; for other views see
`c34_violated`. -/
theorem c34_any_partial (fs : List (FilterRA T × (List T → Nat → Prop))) (h : ∀ f ∈ fs, Restricts f.1 f.2)
    (ra : List T) (v : View) :
    ∃ v', any (fs.map Prod.fst) ra v = some v' ∧
      (∀ i, v'.Selects ra.length i ↔ v.Selects ra.length i) ∧
      ((∀ i, v.Selects ra.length i → ∃ f ∈ fs, f.2 ra i) ↔
        ∀ i, v'.Selects ra.length i ↔ v.Selects ra.length i ∧ ∃ f ∈ fs, f.2 ra i) := by
  have loop : ∀ (fs : List (FilterRA T × (List T → Nat → Prop))), (∀ f ∈ fs, Restricts f.1 f.2) → ∀ w : View,
      (∀ i, w.Selects ra.length i ↔ v.Selects ra.length i) →
      ∃ v', anyLoop ra v (fs.map Prod.fst) w = some v' ∧
        ∀ i, v'.Selects ra.length i ↔ v.Selects ra.length i := by
    intro fs
    induction fs with
    | nil => intro _ w hw; exact ⟨w, rfl, hw⟩
    | cons f fs ih =>
      intro hf w hw
      obtain ⟨v1, e1, h1⟩ := hf f (by simp) ra v
      obtain ⟨v2, e2, h2⟩ := ih (fun g hg => hf g (by simp [hg])) (w.union v1) (fun i => by
        rw [selects_union, hw, h1]; tauto)
      refine ⟨v2, ?_, h2⟩
      rw [List.map_cons, anyLoop, e1]; exact e2
  obtain ⟨v', e, h'⟩ := loop fs h v fun _ => Iff.rfl
  refine ⟨v', e, h', ?_⟩
  simp only [h']
  constructor
  · intro hall i; exact ⟨fun hi => ⟨hi, hall i hi⟩, fun hi => hi.1⟩
  · intro hall i hi; exact ((hall i).1 hi).2

/-- C34 violated: an element that passes none of the filters stays in the view -/
theorem c34_violated : ∃ (fs : List (Filter Nat)) (ra : List Nat) (v' : View),
    any (fs.map ofFilter) ra .full = some v' ∧ v'.apply ra = (ra, .ok ()) ∧ ∃ x ∈ ra, ∀ f ∈ fs, f x = false :=
  ⟨[(fun n => n > 3), (fun n => n > 5)], [1, 4], .full, by decide +kernel, rfl, 1, by simp, by decide⟩

end FilterRA

/-! ### geometric filters, exact arithmetic -/

/-- C36: the box filters allow exactly the points within half a size of the center -/
theorem c36_box (b2 : Box2D ℝ) (b3 : Box3D ℝ) (p2 : Point2D ℝ) (p3 : Point3D ℝ) :
    (filterBox2D b2 p2 = true ↔ |p2.x - b2.center.x| ≤ b2.sizeX.val / 2 ∧
      |p2.y - b2.center.y| ≤ b2.sizeY.val / 2) ∧
    (filterBox3D b3 p3 = true ↔ |p3.x - b3.center.x| ≤ b3.sizeX.val / 2 ∧
      |p3.y - b3.center.y| ≤ b3.sizeY.val / 2 ∧ |p3.z - b3.center.z| ≤ b3.sizeZ.val / 2) := by
  have h : ∀ a c s : ℝ, |a - c| ≤ s / 2 ↔ c - s / 2 ≤ a ∧ a ≤ c + s / 2 := by
    intro a c s; rw [abs_le]; constructor <;> rintro ⟨h1, h2⟩ <;> constructor <;> linarith
  simp only [h, filterBox2D, filterBox3D, Bool.and_eq_true, Real.scalar_le, decide_eq_true_eq,
    Real.scalar_lit, Rat.cast_ofNat, Box2D.x, Box2D.y, Box3D.x, Box3D.y, Box3D.z]
  constructor <;> tauto

/-- C36: a box filter made from a valid bounding box allows exactly the closed box -/
theorem c36_box_of_bb (b2 : BoundingBox2D ℝ) (b3 : BoundingBox3D ℝ) (h2 : (box2 b2).Valid)
    (h3 : (box3 b3).Valid) :
    (∃ b, Box2D.ofBB b2 = some b ∧ ∀ p, filterBox2D b p = true ↔ (box2 b2).Mem (at2 p)) ∧
    (∃ b, Box3D.ofBB b3 = some b ∧ ∀ p, filterBox3D b p = true ↔ (box3 b3).Mem (at3 p)) := by
  obtain ⟨x2, y2⟩ := (valid_real_2d b2).1 h2
  obtain ⟨x3, y3, z3⟩ := (valid_real_3d b3).1 h3
  constructor
  · refine ⟨⟨b2.centerBB, ⟨b2.max.x - b2.min.x⟩, ⟨b2.max.y - b2.min.y⟩⟩, ?_, fun p => ?_⟩
    · simp [Box2D.ofBB, BoundingBox2D.sizeX, BoundingBox2D.sizeY, Positive.new_real, abs_of_pos, x2, y2]
    · simp only [filterBox2D, Bool.and_eq_true, Real.scalar_le, decide_eq_true_eq,
        Real.scalar_lit, Rat.cast_ofNat, Box2D.x, Box2D.y, BoundingBox2D.centerBB, Box.Mem,
        Fin.forall_fin_two, box2, at2_zero, at2_one, Real.key_le]
      constructor
      · rintro ⟨⟨⟨a, b⟩, c⟩, d⟩; refine ⟨⟨?_, ?_⟩, ?_, ?_⟩ <;> linarith
      · rintro ⟨⟨a, b⟩, c, d⟩; refine ⟨⟨⟨?_, ?_⟩, ?_⟩, ?_⟩ <;> linarith
  · refine ⟨⟨b3.centerBB, ⟨b3.max.x - b3.min.x⟩, ⟨b3.max.y - b3.min.y⟩, ⟨b3.max.z - b3.min.z⟩⟩, ?_, fun p => ?_⟩
    · simp [Box3D.ofBB, BoundingBox3D.sizeX, BoundingBox3D.sizeY, BoundingBox3D.sizeZ, Positive.new_real, abs_of_pos, x3, y3, z3]
    · simp only [filterBox3D, Bool.and_eq_true, Real.scalar_le, decide_eq_true_eq,
        Real.scalar_lit, Rat.cast_ofNat, Box3D.x, Box3D.y, Box3D.z, BoundingBox3D.centerBB, Box.Mem,
        forall_fin3, box3, at3_zero, at3_one, at3_two, Real.key_le]
      constructor
      · rintro ⟨⟨⟨⟨⟨a, b⟩, c⟩, d⟩, e⟩, f⟩; refine ⟨⟨?_, ?_⟩, ⟨?_, ?_⟩, ?_, ?_⟩ <;> linarith
      · rintro ⟨⟨a, b⟩, ⟨c, d⟩, e, f⟩; refine ⟨⟨⟨⟨⟨?_, ?_⟩, ?_⟩, ?_⟩, ?_⟩, ?_⟩ <;> linarith

/-- C36: circle and sphere filters allow exactly the points with distance at most the radius -/
theorem c36_round (c : Circle ℝ) (s : Sphere ℝ) (hc : 0 < c.radius.val) (hs : 0 < s.radius.val)
    (p2 : Point2D ℝ) (p3 : Point3D ℝ) :
    (filterCircle c p2 = true ↔ Spec.sqrDist (at2 p2) (at2 c.center) ≤ c.radius.val ^ 2) ∧
    (filterSphere s p3 = true ↔ Spec.sqrDist (at3 p3) (at3 s.center) ≤ s.radius.val ^ 2) := by
  constructor
  · rw [filterCircle, Real.scalar_le, decide_eq_true_eq, Point2D.dist, Real.scalar_sqrt,
      Real.sqrt_le_left hc.le]
    simp [Point2D.sqrDist, Spec.sqrDist, Fin.sum_univ_two, Scalar.sq, pow_two]
  · rw [filterSphere, Real.scalar_le, decide_eq_true_eq, Point3D.dist, Real.scalar_sqrt,
      Real.sqrt_le_left hs.le, KdTree.spec_sqrDist]

example : ∃ (c : Circle ℝ) (s : Sphere ℝ), 0 < c.radius.val ∧ 0 < s.radius.val :=
  ⟨⟨⟨0, 0⟩, ⟨1⟩⟩, ⟨⟨0, 0, 0⟩, ⟨2⟩⟩, one_pos, two_pos⟩

/-- C74: the outlier filter over a k-d tree allows exactly the points with at least `min_neighbours` input
points within the search distance -/
theorem c74_outlier {P : Type} (pos : P → Point3D ℝ) (pts : List P) (t : KdTree P)
    (ht : KdTree.Built pos pts t) (d : Positive ℝ) (hd : 0 < d.val) (n : Nat) (p : Point3D ℝ)
    (near : P → Bool) (hn : ∀ x, near x = true ↔ Spec.sqrDist (at3 p) (at3 (pos x)) ≤ d.val ^ 2) :
    filterOutlier3D pos t d n p = true ↔ n ≤ (pts.filter near).length := by
  obtain ⟨r, hr, hp⟩ := KdTree.c27_in_sphere pos pts t ht ⟨p, d⟩ hd []
  rw [filterOutlier3D, hr, List.nil_append, (hp near hn).length_eq, decide_eq_true_eq]

/-! ### positions of shapes -/

/-- C37 (partial): every accessor but `z` of the sphere and the sphere filter returns the coordinate of the
center. Missing: `z` returns the y coordinate, see `c37_violated`. -/
theorem c37_positions_partial {α : Type} [Scalar α] (s : Sphere α) (c : Circle α) (b2 : Box2D α) (b3 : Box3D α) :
    (s.x = s.center.x ∧ s.y = s.center.y ∧ filterSphereX s = s.center.x ∧ filterSphereY s = s.center.y) ∧
    (c.x = c.center.x ∧ c.y = c.center.y) ∧ (b2.x = b2.center.x ∧ b2.y = b2.center.y) ∧
    (b3.x = b3.center.x ∧ b3.y = b3.center.y ∧ b3.z = b3.center.z) ∧
    (s.z = s.center.z ↔ s.center.y = s.center.z) ∧ (filterSphereZ s = s.center.z ↔ s.center.y = s.center.z) :=
  ⟨⟨rfl, rfl, rfl, rfl⟩, ⟨rfl, rfl⟩, ⟨rfl, rfl⟩, ⟨rfl, rfl, rfl⟩, Iff.rfl, Iff.rfl⟩

/-- C37 violated: the sphere around (0, 0, 1) says its z coordinate is 0 -/
theorem c37_violated : ∃ s : Sphere F64, (s.z ==. s.center.z) = false ∧ (filterSphereZ s ==. s.center.z) = false :=
  ⟨⟨⟨F64.ofRat 0, F64.ofRat 0, F64.ofRat 1⟩, ⟨F64.ofRat 1⟩⟩, by decide +kernel⟩

/-- filters with their meaning for `c33_all` and `c34_any_partial` -/
example : ∀ f ∈ [((FilterRA.ofFilter fun n : Nat => n > 3), fun (ra : List Nat) (i : Nat) => ∃ x, ra[i]? = some x ∧ x > 3),
    ((FilterRA.ofFilter fun n : Nat => n < 7), fun (ra : List Nat) (i : Nat) => ∃ x, ra[i]? = some x ∧ x < 7)],
    FilterRA.Restricts f.1 f.2 := by
  intro f hf ra v
  simp only [List.mem_cons, List.not_mem_nil, or_false] at hf
  rcases hf with rfl | rfl <;>
  · obtain ⟨v', h1, _, h2⟩ := FilterRA.c32_filter _ ra v
    exact ⟨v', h1, by simpa using h2⟩

/-- valid boxes for `c36_box_of_bb`; a tree and a radius for `c74_outlier` -/
example : (box2 (⟨⟨0, 0⟩, ⟨1, 2⟩⟩ : BoundingBox2D ℝ)).Valid ∧ (box3 (⟨⟨0, 0, -1⟩, ⟨1, 2, 5⟩⟩ : BoundingBox3D ℝ)).Valid ∧
    (∃ t, KdTree.Built id [(⟨1, 3, 0⟩ : Point3D ℝ), ⟨3, 1, 0⟩, ⟨2, 4, 0⟩] t) ∧ (0:ℝ) < (⟨2⟩ : Positive ℝ).val :=
  ⟨by rw [valid_real_2d]; norm_num, by rw [valid_real_3d]; norm_num, ⟨_, rfl⟩, two_pos⟩

end R3D

import Verif.Model.AABBTree
import Verif.Lemmas.BoundingBox
/- Generic correctness of the AABB tree. -/
namespace R3D

/-- what the tree needs: `V` valid boxes, `E` encloses -/
structure LawfulBoxOps {B P : Type} (ops : BoxOps B P) (V : B → Prop) (E : B → B → Prop) : Prop where
  refl : ∀ a, E a a
  trans : ∀ a b c, E a b → E b c → E a c
  valid : ∀ a b, V a → V b → V (ops.consume a b)
  left : ∀ a b, V a → V b → E (ops.consume a b) a
  right : ∀ a b, V a → V b → E (ops.consume a b) b
  split : ∀ depth n b, V n → V b → E n b →
    ops.isLeftOf depth b (ops.center n) = true ∨ ops.isRightOf depth b (ops.center n) = true

namespace AABBTree
variable {B P HB : Type} {ops : BoxOps B P} {V : B → Prop} {E : B → B → Prop} {bb : HB → B}

theorem foldl_consume (h : LawfulBoxOps ops V E) (l : List HB) : ∀ b, V b → (∀ x ∈ l, V (bb x)) →
    V (l.foldl (fun r x => ops.consume r (bb x)) b) ∧
    E (l.foldl (fun r x => ops.consume r (bb x)) b) b ∧
    ∀ x ∈ l, E (l.foldl (fun r x => ops.consume r (bb x)) b) (bb x) := by
  induction l with
  | nil => intro b hb _; exact ⟨hb, h.refl b, by simp⟩
  | cons y l ih =>
    intro b hb hl
    have hy := hl y (by simp)
    obtain ⟨h1, h2, h3⟩ := ih (ops.consume b (bb y)) (h.valid _ _ hb hy) (fun x hx => hl x (by simp [hx]))
    refine ⟨h1, h.trans _ _ _ h2 (h.left _ _ hb hy), ?_⟩
    intro x hx
    rcases List.mem_cons.1 hx with rfl | hx
    · exact h.trans _ _ _ h2 (h.right _ _ hb hy)
    · exact h3 x hx

theorem bbOf_spec (h : LawfulBoxOps ops V E) (l : List HB) (hl : l ≠ []) (hV : ∀ x ∈ l, V (bb x)) :
    ∃ b, bbOf ops bb l = some b ∧ V b ∧ ∀ x ∈ l, E b (bb x) := by
  match l with
  | [] => exact absurd rfl hl
  | d :: ds =>
    obtain ⟨h1, _, h3⟩ := foldl_consume h (d :: ds) (bb d) (hV d (by simp)) hV
    exact ⟨_, rfl, h1, h3⟩

/-- invariant of a built tree: the nodes' boxes enclose their elements -/
inductive Inv (V : B → Prop) (E : B → B → Prop) (bb : HB → B) : AABBTree B HB → List HB → Prop
  | empty : Inv V E bb .empty []
  | leaf {data b} : V b → (∀ x ∈ data, V (bb x) ∧ E b (bb x)) → Inv V E bb (.leaf data b) data
  | branch {l r b dl dr data} : V b → Inv V E bb l dl → Inv V E bb r dr →
      (∀ x ∈ data, V (bb x) ∧ E b (bb x)) → (∀ x, x ∈ data ↔ x ∈ dl ∨ x ∈ dr) →
      Inv V E bb (.branch l r b) data

theorem newRec_inv (h : LawfulBoxOps ops V E) (bucket : Nat) : ∀ (rem depth : Nat) (data : List HB),
    (∀ x ∈ data, V (bb x)) → ∃ t, newRec ops bb bucket rem depth data = some t ∧ Inv V E bb t data := by
  have leafCase : ∀ (data : List HB), data ≠ [] → (∀ x ∈ data, V (bb x)) →
      ∃ b, bbOf ops bb data = some b ∧ V b ∧ Inv V E bb (.leaf data b) data ∧ ∀ x ∈ data, E b (bb x) := by
    intro data hne hV
    obtain ⟨b, h1, h2, h3⟩ := bbOf_spec h data hne hV
    exact ⟨b, h1, h2, .leaf h2 (fun x hx => ⟨hV x hx, h3 x hx⟩), h3⟩
  intro rem
  induction rem with
  | zero =>
    intro depth data hV
    match data with
    | [] => exact ⟨.empty, by simp [newRec], .empty⟩
    | [d] =>
      obtain ⟨b, h1, _, h2, _⟩ := leafCase [d] (by simp) hV
      exact ⟨_, by simp [newRec, h1], h2⟩
    | d :: e :: ds =>
      obtain ⟨b, h1, _, h2, _⟩ := leafCase (d :: e :: ds) (by simp) hV
      exact ⟨_, by simp [newRec, h1], h2⟩
  | succ rem ih =>
    intro depth data hV
    match data with
    | [] => exact ⟨.empty, by simp [newRec], .empty⟩
    | [d] =>
      obtain ⟨b, h1, _, h2, _⟩ := leafCase [d] (by simp) hV
      exact ⟨_, by simp [newRec, h1], h2⟩
    | d :: e :: ds =>
      obtain ⟨b, h1, hVb, h2, hE⟩ := leafCase (d :: e :: ds) (by simp) hV
      rw [newRec]
      · simp only [h1, Option.bind_eq_bind, Option.bind_some, Option.pure_def]
        split
        · exact ⟨_, rfl, h2⟩
        · split
          · exact ⟨_, rfl, h2⟩
          · obtain ⟨l, hl1, hl2⟩ := ih (depth + 1)
              ((d :: e :: ds).filter (fun x => ops.isLeftOf depth (bb x) (ops.center b)))
              (fun x hx => hV x (List.mem_of_mem_filter hx))
            obtain ⟨r, hr1, hr2⟩ := ih (depth + 1)
              ((d :: e :: ds).filter (fun x => ops.isRightOf depth (bb x) (ops.center b)))
              (fun x hx => hV x (List.mem_of_mem_filter hx))
            rw [hl1, hr1]
            refine ⟨_, rfl, .branch hVb hl2 hr2 (fun x hx => ⟨hV x hx, hE x hx⟩) ?_⟩
            intro x
            simp only [List.mem_filter]
            constructor
            · intro hx
              rcases h.split depth b (bb x) hVb (hV x hx) (hE x hx) with hs | hs
              · exact .inl ⟨hx, hs⟩
              · exact .inr ⟨hx, hs⟩
            · rintro (hx | hx) <;> exact hx.1
      · simp
      · simp

theorem visitData_spec {test : B → Panics Bool} (data : List HB)
    (ht : ∀ x ∈ data, ∃ r, test (bb x) = some r) :
    ∃ r, visitData bb test data = some r ∧ ∀ x, x ∈ r ↔ x ∈ data ∧ test (bb x) = some true := by
  induction data with
  | nil => exact ⟨[], rfl, by simp⟩
  | cons y data ih =>
    obtain ⟨r, h1, h2⟩ := ih (fun x hx => ht x (by simp [hx]))
    obtain ⟨v, hv⟩ := ht y (by simp)
    refine ⟨if v then y :: r else r, by simp [visitData, hv, h1], ?_⟩
    intro x
    cases v
    · simp only [Bool.false_eq_true, if_false, List.mem_cons, h2]
      constructor
      · rintro ⟨a, b⟩; exact ⟨.inr a, b⟩
      · rintro ⟨rfl | a, b⟩
        · rw [hv] at b; simp at b
        · exact ⟨a, b⟩
    · simp only [if_true, List.mem_cons, h2]
      constructor
      · rintro (rfl | ⟨a, b⟩)
        · exact ⟨.inl rfl, hv⟩
        · exact ⟨.inr a, b⟩
      · rintro ⟨rfl | a, b⟩
        · exact .inl rfl
        · exact .inr ⟨a, b⟩

theorem visit_spec {test : B → Panics Bool} (ht : ∀ b, V b → ∃ r, test b = some r)
    (hm : ∀ a b, V a → V b → E a b → test b = some true → test a = some true)
    {t : AABBTree B HB} {data : List HB} (hi : Inv V E bb t data) :
    ∃ r, t.visit bb test = some r ∧ ∀ x, x ∈ r ↔ x ∈ data ∧ test (bb x) = some true := by
  induction hi with
  | empty => exact ⟨[], rfl, by simp⟩
  | @leaf data b hb hd =>
    obtain ⟨v, hv⟩ := ht b hb
    cases v
    · refine ⟨[], by simp [visit, hv], fun x => ⟨fun h => by simp at h, fun ⟨hx, hx'⟩ => ?_⟩⟩
      have := hm b (bb x) hb (hd x hx).1 (hd x hx).2 hx'
      rw [hv] at this; simp at this
    · obtain ⟨r, h1, h2⟩ := visitData_spec (bb := bb) (test := test) data (fun x hx => ht _ (hd x hx).1)
      exact ⟨r, by simp [visit, hv, h1], h2⟩
  | @branch l r b dl dr data hb _ _ hd hmem ihl ihr =>
    obtain ⟨rl, l1, l2⟩ := ihl
    obtain ⟨rr, r1, r2⟩ := ihr
    obtain ⟨v, hv⟩ := ht b hb
    cases v
    · refine ⟨[], by simp [visit, hv], fun x => ⟨fun h => by simp at h, fun ⟨hx, hx'⟩ => ?_⟩⟩
      have := hm b (bb x) hb (hd x hx).1 (hd x hx).2 hx'
      rw [hv] at this; simp at this
    · refine ⟨rl ++ rr, by simp [visit, hv, l1, r1], fun x => ?_⟩
      rw [List.mem_append, l2, r2, hmem]
      tauto

theorem any_spec (f : HB → Bool) {t : AABBTree B HB} {data : List HB} (hi : Inv V E bb t data) :
    t.any f = true ↔ ∃ x ∈ data, f x = true := by
  induction hi with
  | empty => simp [any]
  | leaf => simp [any]
  | branch hb _ _ hd hmem ihl ihr =>
    simp only [any, Bool.or_eq_true, ihl, ihr, hmem]
    constructor
    · rintro (⟨x, h, h'⟩ | ⟨x, h, h'⟩)
      · exact ⟨x, .inl h, h'⟩
      · exact ⟨x, .inr h, h'⟩
    · rintro ⟨x, h | h, h'⟩
      · exact .inl ⟨x, h, h'⟩
      · exact .inr ⟨x, h, h'⟩

end AABBTree
end R3D

import Verif.Model.Curves2D
import Verif.Lemmas.Sort
import Verif.Lemmas.Scalar
import Verif.Props.PointCloud
import Mathlib.Tactic.LinearCombination
import Mathlib.Analysis.LocallyConvex.Separation
import Mathlib.Analysis.Convex.Topology
/-!
C43: the 2D convex hull.
-/
namespace R3D
open Scalar LawfulScalar Spec

/-- twice the signed area of the triangle `a b c`: positive iff `c` is left of the line from `a` to `b` -/
def Spec.turn (a b c : Point2D ℝ) : ℝ := (b.x - a.x) * (c.y - b.y) - (b.y - a.y) * (c.x - b.x)

/-- `a`, `b` are neighbours on the closed polygon `r` -/
def Spec.CyclicEdge {P : Type} (r : List P) (a b : P) : Prop :=
  ∃ i < r.length, r[i]? = some a ∧ r[(i + 1) % r.length]? = some b

/-- `a`, `b`, `c` follow each other on the closed polygon `r` -/
def Spec.CyclicCorner {P : Type} (r : List P) (a b c : P) : Prop :=
  ∃ i < r.length, r[i]? = some a ∧ r[(i + 1) % r.length]? = some b ∧ r[(i + 2) % r.length]? = some c

/-- all points on one line -/
def Spec.Collinear2 (l : List (Point2D ℝ)) : Prop := ∀ a ∈ l, ∀ b ∈ l, ∀ c ∈ l, turn a b c = 0

namespace Hull

theorem ccw_turn (a b c : Point2D ℝ) : ccw a b c = turn a b c := by
  simp only [ccw, turn]
  ring

/-- a half plane cone defining a total order of the plane (the lexicographic order or its reverse) -/
structure Cone (L : ℝ → ℝ → Prop) : Prop where
  add : ∀ {x y x' y'}, L x y → L x' y' → L (x + x') (y + y')
  smul : ∀ {c x y}, 0 ≤ c → L x y → L (c * x) (c * y)
  antisymm : ∀ {x y}, L x y → L (-x) (-y) → x = 0 ∧ y = 0
  total : ∀ x y, L x y ∨ L (-x) (-y)

/-- lexicographic cone -/
def Lex (x y : ℝ) : Prop := 0 < x ∨ (x = 0 ∧ 0 ≤ y)

theorem lex_cone : Cone Lex where
  add := by
    rintro x y x' y' (h | ⟨rfl, h⟩) (h' | ⟨rfl, h'⟩)
    · exact .inl (add_pos h h')
    · exact .inl (by linarith)
    · exact .inl (by linarith)
    · exact .inr ⟨by simp, add_nonneg h h'⟩
  smul := by
    rintro c x y hc (h | ⟨rfl, h⟩)
    · rcases hc.lt_or_eq with hc | rfl
      · exact .inl (mul_pos hc h)
      · exact .inr ⟨by simp, by simp⟩
    · exact .inr ⟨by simp, mul_nonneg hc h⟩
  antisymm := by
    rintro x y (h | ⟨rfl, h⟩) (h' | ⟨h0, h'⟩)
    · linarith
    · linarith
    · linarith
    · exact ⟨rfl, by linarith⟩
  total := by
    intro x y
    rcases lt_trichotomy x 0 with h | rfl | h
    · exact .inr (.inl (by linarith))
    · rcases le_total 0 y with h | h
      · exact .inl (.inr ⟨rfl, h⟩)
      · exact .inr (.inr ⟨by simp, by linarith⟩)
    · exact .inl (.inl h)

/-- reversed cone -/
def Rev (L : ℝ → ℝ → Prop) (x y : ℝ) : Prop := L (-x) (-y)

theorem rev_cone {L : ℝ → ℝ → Prop} (hL : Cone L) : Cone (Rev L) where
  add h h' := by
    have := hL.add h h'
    unfold Rev
    convert this using 1 <;> ring
  smul hc h := by
    have := hL.smul hc h
    unfold Rev
    convert this using 1 <;> ring
  antisymm h h' := by
    have := hL.antisymm h h'
    exact ⟨by linarith [this.1], by linarith [this.2]⟩
  total x y := hL.total (-x) (-y)

section
variable {L : ℝ → ℝ → Prop} (hL : Cone L)

/-- the order of points given by a cone -/
def Le (L : ℝ → ℝ → Prop) (p q : Point2D ℝ) : Prop := L (q.x - p.x) (q.y - p.y)

include hL in
theorem le_total' (p q : Point2D ℝ) : Le L p q ∨ Le L q p := by
  have := hL.total (q.x - p.x) (q.y - p.y)
  simpa [Le] using this

include hL in
theorem le_antisymm' {p q : Point2D ℝ} (h : Le L p q) (h' : Le L q p) : p = q := by
  have := hL.antisymm (x := q.x - p.x) (y := q.y - p.y) h (by simpa [Le] using h')
  cases p; cases q
  simp only [Point2D.mk.injEq]
  exact ⟨by linarith [this.1], by linarith [this.2]⟩

include hL in
theorem le_trans' {p q r : Point2D ℝ} (h : Le L p q) (h' : Le L q r) : Le L p r := by
  have := hL.add h h'
  unfold Le
  convert this using 1 <;> ring

include hL in
theorem cone_contra {c d x y x' y' u v : ℝ} (hc : 0 < c) (h1 : L x y) (hd : 0 ≤ d) (h2 : L x' y')
    (h3 : L u v) (e1 : c * x + d * x' + u = 0) (e2 : c * y + d * y' + v = 0) : x = 0 ∧ y = 0 := by
  have h4 := hL.add (hL.smul hd h2) h3
  have h5 := hL.antisymm (hL.smul hc.le h1) (by
    convert h4 using 1 <;> linarith)
  constructor
  · exact (mul_eq_zero.1 h5.1).resolve_left hc.ne'
  · exact (mul_eq_zero.1 h5.2).resolve_left hc.ne'

theorem turn_self (a b : Point2D ℝ) : turn a a b = 0 := by simp [turn]
theorem turn_self' (a b : Point2D ℝ) : turn a b b = 0 := by simp [turn]
theorem turn_self'' (a b : Point2D ℝ) : turn a b a = 0 := by simp only [turn]; ring
theorem turn_rot (a b c : Point2D ℝ) : turn b c a = turn a b c := by simp only [turn]; ring
theorem turn_swap (a b c : Point2D ℝ) : turn b a c = -turn a b c := by simp only [turn]; ring

/-- barycentric identity -/
theorem bary_x (a b c p : Point2D ℝ) : turn a b c * (p.x - b.x) =
    turn b c p * (a.x - b.x) + turn a b p * (c.x - b.x) := by
  simp only [turn]; ring
theorem bary_y (a b c p : Point2D ℝ) : turn a b c * (p.y - b.y) =
    turn b c p * (a.y - b.y) + turn a b p * (c.y - b.y) := by
  simp only [turn]; ring

include hL in
/-- a point before `b`, left of `ab`, is left of `bq` when the chain turns left at `b` -/
theorem left_before {a b q p : Point2D ℝ} (hab : Le L a b) (hbq : Le L b q) (hpb : Le L p b)
    (h1 : 0 ≤ turn a b p) (h2 : 0 < turn a b q) : 0 ≤ turn b q p := by
  by_contra hc
  push Not at hc
  have hx := bary_x a b q p
  have hy := bary_y a b q p
  have := cone_contra hL (c := -turn b q p) (by linarith) hab h1 hbq (hL.smul h2.le hpb)
    (by linear_combination -hx) (by linear_combination -hy)
  have e : a = b := by
    cases a; cases b
    simp only [Point2D.mk.injEq] at *
    exact ⟨by linarith [this.1], by linarith [this.2]⟩
  rw [e, turn_self] at h2
  exact lt_irrefl _ h2

include hL in
/-- a later point is left of all edges of a chain turning left -/
theorem left_after {a b c q : Point2D ℝ} (hab : Le L a b) (hbc : Le L b c) (hcq : Le L c q)
    (h1 : 0 < turn a b c) (h2 : 0 < turn b c q) : 0 < turn a b q := by
  by_contra hc
  push Not at hc
  have hx := bary_x a b c q
  have hy := bary_y a b c q
  have hbq := le_trans' hL hbc hcq
  have := cone_contra hL (c := turn b c q) h2 hab (d := -turn a b q) (by linarith) hbc (hL.smul h1.le hbq)
    (by linear_combination hx) (by linear_combination hy)
  have e : a = b := by
    cases a; cases b
    simp only [Point2D.mk.injEq] at *
    exact ⟨by linarith [this.1], by linarith [this.2]⟩
  rw [e, turn_self] at h1
  exact lt_irrefl _ h1

include hL in
/-- popping, points between the popped vertex and the new point -/
theorem pop_upper {s t p q : Point2D ℝ} (hst : Le L s t) (htp : Le L t p) (hpq : Le L p q)
    (h1 : 0 ≤ turn t q p) (h2 : turn s t q ≤ 0) : 0 ≤ turn s q p := by
  by_contra hc
  push Not at hc
  have htq := le_trans' hL htp hpq
  have hsq := le_trans' hL hst htq
  -- relative to q
  have hx : turn s t q * (p.x - q.x) = turn t q p * (s.x - q.x) + -turn s q p * (t.x - q.x) := by
    simp only [turn]; ring
  have hy : turn s t q * (p.y - q.y) = turn t q p * (s.y - q.y) + -turn s q p * (t.y - q.y) := by
    simp only [turn]; ring
  have := cone_contra hL (c := -turn s q p) (by linarith) htq h1 hsq (hL.smul (c := -turn s t q) (by linarith) hpq)
    (by linear_combination hx) (by linear_combination hy)
  have e : t = q := by
    cases t; cases q
    simp only [Point2D.mk.injEq] at *
    exact ⟨by linarith [this.1], by linarith [this.2]⟩
  subst e
  have e := le_antisymm' hL htp hpq
  subst e
  rw [turn_self'] at hc
  exact lt_irrefl _ hc

include hL in
/-- popping, points between the new top and the popped vertex -/
theorem pop_lower {s t p q : Point2D ℝ} (hsp : Le L s p) (hpt : Le L p t) (htq : Le L t q)
    (h1 : 0 ≤ turn s t p) (h2 : turn s t q ≤ 0) : 0 ≤ turn s q p := by
  by_contra hc
  push Not at hc
  have hst := le_trans' hL hsp hpt
  have hsq := le_trans' hL hst htq
  have hx : turn s t q * (p.x - s.x) = -turn s q p * (t.x - s.x) + turn s t p * (q.x - s.x) := by
    simp only [turn]; ring
  have hy : turn s t q * (p.y - s.y) = -turn s q p * (t.y - s.y) + turn s t p * (q.y - s.y) := by
    simp only [turn]; ring
  have := cone_contra hL (c := -turn s q p) (by linarith) hst h1 hsq (hL.smul (c := -turn s t q) (by linarith) hsp)
    (by linear_combination -hx) (by linear_combination -hy)
  have e : s = t := by
    cases s; cases t
    simp only [Point2D.mk.injEq] at *
    exact ⟨by linarith [this.1], by linarith [this.2]⟩
  subst e
  have e := le_antisymm' hL hsp hpt
  subst e
  rw [turn_self''] at hc
  exact lt_irrefl _ hc

/-- consecutive triples of the stack (top first) turn left -/
def Convex : List (Point2D ℝ) → Prop
  | c :: b :: a :: l => 0 < turn a b c ∧ Convex (b :: a :: l)
  | _ => True

/-- the edges of the stack (top first) have all points of `pre` on or left of them -/
def Supports (pre : List (Point2D ℝ)) : List (Point2D ℝ) → Prop
  | b :: a :: l => (∀ p ∈ pre, 0 ≤ turn a b p) ∧ Supports pre (a :: l)
  | _ => True

/-- loop invariant: what is known of the stack after processing `pre` -/
structure Inv (L : ℝ → ℝ → Prop) (pre stack : List (Point2D ℝ)) : Prop where
  sub : ∀ p ∈ stack, p ∈ pre
  sorted : stack.Pairwise (fun a b => Le L b a)
  convex : Convex stack
  supports : Supports pre stack
  first : stack.getLast? = pre.head?
  last : stack.head? = pre.getLast?
  long : pre.length ≤ stack.length ∨ 2 ≤ stack.length

/-- what is known while popping: points not before the top are left of the line from the top to `q` -/
structure PopInv (L : ℝ → ℝ → Prop) (pre stack : List (Point2D ℝ)) (q : Point2D ℝ) : Prop where
  sub : ∀ p ∈ stack, p ∈ pre
  sorted : stack.Pairwise (fun a b => Le L b a)
  convex : Convex stack
  supports : Supports pre stack
  first : stack.getLast? = pre.head?
  top : ∀ t ∈ stack.head?, ∀ p ∈ pre, Le L t p → 0 ≤ turn t q p

theorem Convex.tail {a : Point2D ℝ} {l} (h : Convex (a :: l)) : Convex l := by
  match l, h with
  | [], _ => trivial
  | [_], _ => trivial
  | _ :: _ :: _, h => exact h.2

theorem Supports.tail {pre} {a : Point2D ℝ} {l} (h : Supports pre (a :: l)) : Supports pre l := by
  match l, h with
  | [], _ => trivial
  | _ :: _, h => exact h.2

theorem le_real (a : ℝ) : (a <=. (zero : ℝ)) = true ↔ a ≤ 0 := by simp

include hL in
theorem pop_inv (pre : List (Point2D ℝ)) (q : Point2D ℝ) (hq : ∀ p ∈ pre, Le L p q)
    (stack : List (Point2D ℝ)) (h : PopInv L pre stack q) (hne : stack ≠ []) :
    PopInv L pre (hullPop q stack) q ∧ hullPop q stack ≠ [] ∧
    ∀ b a l, hullPop q stack = b :: a :: l → 0 < turn a b q := by
  induction stack with
  | nil => exact absurd rfl hne
  | cons t rest ih =>
    cases rest with
    | nil => exact ⟨h, by simp [hullPop], by simp [hullPop]⟩
    | cons s l =>
      rw [hullPop]
      by_cases hc : turn s t q ≤ 0
      · rw [if_pos (by rw [ccw_turn, le_real]; exact hc)]
        have hst : Le L s t := (List.pairwise_cons.1 h.sorted).1 s (by simp)
        have htq : Le L t q := hq t (h.sub t (by simp))
        refine ih ⟨fun p hp => h.sub p (List.mem_cons_of_mem _ hp), (List.pairwise_cons.1 h.sorted).2,
          h.convex.tail, h.supports.tail, by simpa using h.first, ?_⟩ (by simp)
        intro s' hs' p hp hsp
        obtain rfl : s = s' := by simpa using hs'
        rcases le_total' hL t p with htp | hpt
        · exact pop_upper hL hst htp (hq p hp) (h.top t (by simp) p hp htp) hc
        · exact pop_lower hL hsp hpt htq (h.supports.1 p hp) hc
      · rw [if_neg (by rw [ccw_turn, le_real]; exact hc)]
        refine ⟨h, by simp, ?_⟩
        rintro b a l' e
        obtain ⟨rfl, rfl, rfl⟩ : t = b ∧ s = a ∧ l = l' := by simpa using e
        exact not_le.1 hc

/-- all edges below the top have `q` on their left -/
theorem supports_append (pre : List (Point2D ℝ)) (q : Point2D ℝ) (hL : Cone L) :
    ∀ (stack : List (Point2D ℝ)), stack.Pairwise (fun a b => Le L b a) → Convex stack →
      (∀ p ∈ stack, Le L p q) → Supports pre stack → (∀ b a l, stack = b :: a :: l → 0 < turn a b q) →
      Supports (pre ++ [q]) stack
  | [], _, _, _, _, _ => trivial
  | [_], _, _, _, _, _ => trivial
  | b :: a :: l, hs, hc, hq, hsup, ht => by
    have h1 : 0 < turn a b q := ht b a l rfl
    refine ⟨fun p hp => ?_, supports_append pre q hL (a :: l) (List.pairwise_cons.1 hs).2 hc.tail
      (fun p hp => hq p (List.mem_cons_of_mem _ hp)) hsup.2 ?_⟩
    · rcases List.mem_append.1 hp with hp | hp
      · exact hsup.1 p hp
      · obtain rfl : p = q := by simpa using hp
        exact h1.le
    · rintro b' a' l' e
      obtain ⟨rfl, rfl⟩ : a = b' ∧ l = a' :: l' := by simpa using e
      have hab : Le L a b := (List.pairwise_cons.1 hs).1 a (by simp)
      have haa : Le L a' a := (List.pairwise_cons.1 (List.pairwise_cons.1 hs).2).1 a' (by simp)
      exact left_after hL haa hab (hq b (by simp)) hc.1 h1

include hL in
theorem step_inv (pre : List (Point2D ℝ)) (q : Point2D ℝ) (hq : ∀ p ∈ pre, Le L p q)
    (stack : List (Point2D ℝ)) (hmax : ∀ t ∈ pre.getLast?, ∀ p ∈ pre, Le L p t)
    (hmin : ∀ t ∈ pre.head?, ∀ p ∈ pre, Le L t p) (h : Inv L pre stack) :
    Inv L (pre ++ [q]) (hullStep stack q) := by
  have hsq : Le L q q := (le_total' hL q q).elim id id
  cases hst : stack with
  | nil =>
    have hp : pre = [] := by
      have := h.last
      rw [hst] at this
      simpa using this.symm
    subst hp
    simp only [hullStep, hullPop, List.nil_append]
    exact ⟨by simp, by simp, trivial, trivial, rfl, rfl, .inl (by simp)⟩
  | cons t rest =>
    rw [← hst]
    have hne : stack ≠ [] := by simp [hst]
    have hpop : PopInv L pre stack q := by
      refine ⟨h.sub, h.sorted, h.convex, h.supports, h.first, ?_⟩
      intro u hu p hp hup
      have hu' : u ∈ pre.getLast? := h.last ▸ hu
      have e := le_antisymm' hL hup (hmax u hu' p hp)
      rw [e, turn_self'']
    obtain ⟨hi, hne', hturn⟩ := pop_inv hL pre q hq stack hpop hne
    rw [hullStep]
    generalize hullPop q stack = S at *
    have hqs : ∀ p ∈ S, Le L p q := fun p hp => hq p (hi.sub p hp)
    have hsup := supports_append pre q hL S hi.sorted hi.convex hqs hi.supports hturn
    refine ⟨?_, ?_, ?_, ?_, ?_, by simp, ?_⟩
    · intro p hp
      rcases List.mem_cons.1 hp with rfl | hp
      · simp
      · exact List.mem_append_left _ (hi.sub p hp)
    · exact List.pairwise_cons.2 ⟨hqs, hi.sorted⟩
    · match S, hne', hturn, hi with
      | [_], _, _, _ => trivial
      | b :: a :: l, _, hturn, hi => exact ⟨hturn b a l rfl, hi.convex⟩
    · match S, hne', hi, hturn, hsup with
      | b :: l, _, hi, hturn, hsup =>
        refine ⟨?_, hsup⟩
        intro p hp
        rcases List.mem_append.1 hp with hp | hp
        · rcases le_total' hL b p with hbp | hpb
          · exact hi.top b (by simp) p hp hbp
          · cases l with
            | nil =>
              -- b is the first point
              have hb : pre.head? = some b := by simpa using hi.first.symm
              exact hi.top b (by simp) p hp (hmin b hb p hp)
            | cons a l =>
              have hab : Le L a b := (List.pairwise_cons.1 hi.sorted).1 a (by simp)
              exact left_before hL hab (hqs b (by simp)) hpb (hi.supports.1 p hp) (hturn b a l rfl)
        · obtain rfl : p = q := by simpa using hp
          rw [turn_self']
    · match S, hne', hi with
      | b :: l, _, hi =>
        have : pre ≠ [] := by
          intro e
          have := hi.sub b (by simp)
          simp [e] at this
        rw [List.head?_append_of_ne_nil _ this, ← hi.first]
        simp
    · right
      match S, hne' with
      | b :: l, _ => simp

include hL in
theorem chain_inv (l : List (Point2D ℝ)) (hs : l.Pairwise (Le L)) : Inv L l (l.foldl hullStep []) := by
  induction l using List.reverseRecOn with
  | nil => exact ⟨by simp, by simp, trivial, trivial, rfl, rfl, .inl (by simp)⟩
  | append_singleton pre q ih =>
    rw [List.pairwise_append] at hs
    rw [List.foldl_concat]
    refine step_inv hL pre q (fun p hp => hs.2.2 p hp q (by simp)) _ ?_ ?_ (ih hs.1)
    · intro t ht p hp
      have hne : pre ≠ [] := List.ne_nil_of_mem hp
      have ht' : pre.getLast hne = t := by
        rw [List.getLast?_eq_some_getLast hne] at ht
        simpa using ht
      have e := List.dropLast_append_getLast hne
      rw [ht'] at e
      have hs1 := hs.1
      rw [← e, List.pairwise_append] at hs1
      rw [← e] at hp
      rcases List.mem_append.1 hp with hp | hp
      · exact hs1.2.2 p hp t (by simp)
      · obtain rfl : p = t := by simpa using hp
        exact (le_total' hL p p).elim id id
    · intro t ht p hp
      cases hpre : pre with
      | nil => simp [hpre] at hp
      | cons u l =>
        rw [hpre] at ht hp
        obtain rfl : u = t := by simpa using ht
        have hs1 := hs.1
        rw [hpre] at hs1
        rcases List.mem_cons.1 hp with rfl | hp
        · exact (le_total' hL p p).elim id id
        · exact (List.pairwise_cons.1 hs1).1 p hp

theorem supports_at (pre : List (Point2D ℝ)) : ∀ (st : List (Point2D ℝ)), Supports pre st →
    ∀ (i : Nat) a b, st[i]? = some b → st[i + 1]? = some a → ∀ p ∈ pre, 0 ≤ turn a b p
  | [], _, i, a, b, h, _ => by simp at h
  | [_], _, i, a, b, h, h' => by simp at h'
  | x :: y :: l, hs, 0, a, b, h, h' => by
    obtain rfl : x = b := by simpa using h
    obtain rfl : y = a := by simpa using h'
    exact hs.1
  | x :: y :: l, hs, i + 1, a, b, h, h' => supports_at pre (y :: l) hs.2 i a b (by simpa using h) (by simpa using h')

theorem convex_at : ∀ (st : List (Point2D ℝ)), Convex st → ∀ (i : Nat) a b c,
    st[i]? = some c → st[i + 1]? = some b → st[i + 2]? = some a → 0 < turn a b c
  | [], _, i, a, b, c, h, _, _ => by simp at h
  | [_], _, i, a, b, c, _, h, _ => by simp at h
  | [_, _], _, i, a, b, c, _, _, h => by simp at h
  | x :: y :: z :: l, hs, 0, a, b, c, h, h', h'' => by
    obtain rfl : x = c := by simpa using h
    obtain rfl : y = b := by simpa using h'
    obtain rfl : z = a := by simpa using h''
    exact hs.1
  | x :: y :: z :: l, hs, i + 1, a, b, c, h, h', h'' =>
    convex_at (y :: z :: l) hs.2 i a b c (by simpa using h) (by simpa using h') (by simpa using h'')

/-- if all points are on the line through two different points, they are collinear -/
theorem collinear_of_line {l : List (Point2D ℝ)} {a b : Point2D ℝ} (hab : a ≠ b)
    (h : ∀ p ∈ l, turn a b p = 0) : Collinear2 l := by
  intro p hp q hq r hr
  have h1 := h p hp
  have h2 := h q hq
  have h3 := h r hr
  simp only [turn] at *
  by_cases hx : b.x - a.x = 0
  · have hy : b.y - a.y ≠ 0 := by
      intro hy
      apply hab
      cases a; cases b
      simp only [Point2D.mk.injEq] at *
      exact ⟨by linarith, by linarith⟩
    have e : ∀ u : Point2D ℝ, (b.x - a.x) * (u.y - b.y) - (b.y - a.y) * (u.x - b.x) = 0 → u.x = b.x := by
      intro u hu
      rw [hx] at hu
      have : (b.y - a.y) * (u.x - b.x) = 0 := by linarith
      have := (mul_eq_zero.1 this).resolve_left hy
      linarith
    rw [e p h1, e q h2, e r h3]
    ring
  · apply (mul_eq_zero.1 (_ : (b.x - a.x) * _ = 0)).resolve_left hx
    linear_combination (q.x - p.x) * h3 - (r.x - p.x) * h2 + (r.x - q.x) * h1

/-- both chains of a sorted list -/
structure Chains (L : ℝ → ℝ → Prop) (s st1 st2 : List (Point2D ℝ)) : Prop where
  cone : Cone L
  sorted : s.Pairwise (Le L)
  lower : Inv L s st1
  upper : Inv (Rev L) s.reverse st2

theorem le_rev {p q : Point2D ℝ} : Le (Rev L) p q ↔ Le L q p := by
  simp [Le, Rev]

theorem Chains.symm {s st1 st2 : List (Point2D ℝ)} (h : Chains L s st1 st2) :
    Chains (Rev L) s.reverse st2 st1 where
  cone := rev_cone h.cone
  sorted := by
    rw [List.pairwise_reverse]
    exact h.sorted.imp fun h => le_rev.2 h
  lower := h.upper
  upper := by
    have : Rev (Rev L) = L := by
      funext x y
      simp [Rev]
    rw [this, List.reverse_reverse]
    exact h.lower

theorem collinear_reverse {s : List (Point2D ℝ)} : Collinear2 s.reverse ↔ Collinear2 s := by
  simp [Collinear2]

theorem collinear_of_eq {s : List (Point2D ℝ)} {x : Point2D ℝ} (h : ∀ p ∈ s, p = x) : Collinear2 s := by
  intro a ha b hb c _
  rw [h a ha, h b hb, turn_self]

include hL in
/-- the first point is before, the last point after all points -/
theorem sorted_ends {s : List (Point2D ℝ)} (hs : s.Pairwise (Le L)) {t p : Point2D ℝ} (hp : p ∈ s) :
    (s.head? = some t → Le L t p) ∧ (s.getLast? = some t → Le L p t) := by
  have hr : ∀ p, Le L p p := fun p => (le_total' hL p p).elim id id
  constructor
  · intro h
    cases s with
    | nil => simp at hp
    | cons u l =>
      obtain rfl : u = t := by simpa using h
      rcases List.mem_cons.1 hp with rfl | hp
      · exact hr p
      · exact (List.pairwise_cons.1 hs).1 p hp
  · intro h
    have hne : s ≠ [] := List.ne_nil_of_mem hp
    have e := List.dropLast_append_getLast hne
    rw [List.getLast?_eq_some_getLast hne] at h
    obtain rfl : s.getLast hne = t := by simpa using h
    rw [← e, List.pairwise_append] at hs
    rw [← e] at hp
    rcases List.mem_append.1 hp with hp | hp
    · exact hs.2.2 p hp _ (by simp)
    · have : p = s.getLast hne := by simpa using hp
      rw [this]
      exact hr _

include hL in
theorem chain_ne {s st : List (Point2D ℝ)} (hs : s.Pairwise (Le L)) (h : Inv L s st) (hc : ¬ Collinear2 s)
    (i : Nat) (a b : Point2D ℝ) (hb : st[i]? = some b) (ha : st[i + 1]? = some a) : a ≠ b := by
  rintro rfl
  have hlen : i + 1 < st.length := (List.getElem?_eq_some_iff.1 ha).1
  by_cases h2 : i + 2 < st.length
  · have := convex_at st h.convex i _ a a hb ha (List.getElem?_eq_getElem h2)
    rw [turn_self'] at this
    exact lt_irrefl _ this
  · cases i with
    | succ i =>
      have := convex_at st h.convex i a a _ (List.getElem?_eq_getElem (by omega)) hb ha
      rw [turn_self] at this
      exact lt_irrefl _ this
    | zero =>
      match st, hb, ha, h2, h with
      | [x, y], hb, ha, _, h =>
        obtain rfl : x = a := by simpa using hb
        obtain rfl : y = x := by simpa using ha
        apply hc
        refine collinear_of_eq (x := y) fun p hp => ?_
        exact le_antisymm' hL ((sorted_ends hL hs hp).2 (by simpa using h.last.symm))
          ((sorted_ends hL hs hp).1 (by simpa using h.first.symm))
      | x :: y :: z :: l, _, _, h2, _ => simp at h2

include hL in
theorem nodup_of {st : List (Point2D ℝ)} (hs : st.Pairwise (fun a b => Le L b a))
    (h : ∀ (i : Nat) a b, st[i]? = some b → st[i + 1]? = some a → a ≠ b) : st.Nodup := by
  induction st with
  | nil => simp
  | cons t l ih =>
    rw [List.nodup_cons]
    refine ⟨?_, ih (List.pairwise_cons.1 hs).2 fun i a b hb ha => h (i + 1) a b (by simpa using hb) (by simpa using ha)⟩
    intro ht
    cases l with
    | nil => simp at ht
    | cons s l =>
      have h1 := (List.pairwise_cons.1 hs).1 s (by simp)
      have h2 : Le L t s := by
        rcases List.mem_cons.1 ht with rfl | ht
        · exact h1
        · exact (List.pairwise_cons.1 (List.pairwise_cons.1 hs).2).1 t ht
      exact h 0 s t rfl rfl (le_antisymm' hL h1 h2)

/-- two edges of a chain and one edge of the other chain cannot share the middle point -/
theorem Chains.no_touch {s st1 st2 : List (Point2D ℝ)} (h : Chains L s st1 st2) (hc : ¬ Collinear2 s)
    (i j : Nat) (a p c d : Point2D ℝ) (h1 : st1[i]? = some c) (h2 : st1[i + 1]? = some p)
    (h3 : st1[i + 2]? = some a) (h4 : st2[j]? = some p) (h5 : st2[j + 1]? = some d) : False := by
  have hL := h.cone
  have mem1 : ∀ {k : Nat} {x}, st1[k]? = some x → x ∈ s := fun hx => h.lower.sub _ (List.mem_of_getElem? hx)
  have mem2 : ∀ {k : Nat} {x}, st2[k]? = some x → x ∈ s := fun hx =>
    List.mem_reverse.1 (h.upper.sub _ (List.mem_of_getElem? hx))
  have hne : d ≠ p := chain_ne h.symm.cone h.symm.sorted h.upper (fun e => hc (collinear_reverse.1 e)) j d p h4 h5
  have hpd : Le L p d := by
    have := h.upper.sorted
    rw [List.pairwise_iff_getElem] at this
    obtain ⟨k1, e1⟩ := List.getElem?_eq_some_iff.1 h4
    obtain ⟨k2, e2⟩ := List.getElem?_eq_some_iff.1 h5
    have := this j (j + 1) k1 k2 (by omega)
    rw [e1, e2] at this
    exact le_rev.1 this
  have hap : Le L a p := by
    have := h.lower.sorted
    rw [List.pairwise_iff_getElem] at this
    obtain ⟨k1, e1⟩ := List.getElem?_eq_some_iff.1 h2
    obtain ⟨k2, e2⟩ := List.getElem?_eq_some_iff.1 h3
    have := this (i + 1) (i + 2) k1 k2 (by omega)
    rw [e1, e2] at this
    exact this
  have t1 : 0 < turn a p c := convex_at st1 h.lower.convex i a p c h1 h2 h3
  have t2 : 0 ≤ turn a p d := supports_at s st1 h.lower.supports (i + 1) a p h2 h3 d (mem2 h5)
  have t3 : 0 ≤ turn d p a := supports_at s.reverse st2 h.upper.supports j d p h4 h5 a (by simpa using mem1 h3)
  have t4 : 0 ≤ turn d p c := supports_at s.reverse st2 h.upper.supports j d p h4 h5 c (by simpa using mem1 h1)
  have e0 : turn d p a = - turn a p d := by simp only [turn]; ring
  have e1 : turn a p d = 0 := by linarith
  have e2 : turn p c d = turn d p c := (turn_rot d p c)
  have hx := bary_x a p c d
  have hy := bary_y a p c d
  rw [e1, e2] at hx hy
  have hz : L 0 0 := by
    have := hL.total 0 0
    simpa using this
  have := cone_contra hL t1 hpd t4 hap hz (by linear_combination hx) (by linear_combination hy)
  apply hne
  cases d; cases p
  simp only [Point2D.mk.injEq] at *
  exact ⟨by linarith [this.1], by linarith [this.2]⟩

/-- where the chains meet, the polygon turns left -/
theorem Chains.joint {s st1 st2 : List (Point2D ℝ)} (h : Chains L s st1 st2) (hc : ¬ Collinear2 s)
    (i j : Nat) (a b c : Point2D ℝ) (h1 : st1[i]? = some b) (h2 : st1[i + 1]? = some a)
    (h3 : st2[j]? = some c) (h4 : st2[j + 1]? = some b) : 0 < turn a b c := by
  have hL := h.cone
  have mem1 : ∀ {k : Nat} {x}, st1[k]? = some x → x ∈ s := fun hx => h.lower.sub _ (List.mem_of_getElem? hx)
  have mem2 : ∀ {k : Nat} {x}, st2[k]? = some x → x ∈ s := fun hx =>
    List.mem_reverse.1 (h.upper.sub _ (List.mem_of_getElem? hx))
  have hab : a ≠ b := chain_ne hL h.sorted h.lower hc i a b h1 h2
  have hbc : b ≠ c := chain_ne h.symm.cone h.symm.sorted h.upper (fun e => hc (collinear_reverse.1 e)) j b c h3 h4
  have lcb : Le L c b := by
    have := h.upper.sorted
    rw [List.pairwise_iff_getElem] at this
    obtain ⟨k1, e1⟩ := List.getElem?_eq_some_iff.1 h3
    obtain ⟨k2, e2⟩ := List.getElem?_eq_some_iff.1 h4
    have := this j (j + 1) k1 k2 (by omega)
    rw [e1, e2] at this
    exact le_rev.1 this
  have lab : Le L a b := by
    have := h.lower.sorted
    rw [List.pairwise_iff_getElem] at this
    obtain ⟨k1, e1⟩ := List.getElem?_eq_some_iff.1 h1
    obtain ⟨k2, e2⟩ := List.getElem?_eq_some_iff.1 h2
    have := this i (i + 1) k1 k2 (by omega)
    rw [e1, e2] at this
    exact this
  have sup1 := supports_at s st1 h.lower.supports i a b h1 h2
  have sup2 := supports_at s.reverse st2 h.upper.supports j b c h3 h4
  rcases (sup1 c (mem2 h3)).lt_or_eq with h0 | h0
  · exact h0
  exfalso
  apply hc
  refine collinear_of_line hab fun p hp => ?_
  have t1 := sup1 p hp
  have t2 := sup2 p (by simpa using hp)
  rcases t1.lt_or_eq with h1 | h1
  · exfalso
    have hx := bary_x a b c p
    have hy := bary_y a b c p
    rw [← h0] at hx hy
    have hz : L 0 0 := by
      have := hL.total 0 0
      simpa using this
    have := cone_contra hL h1 lcb t2 lab hz (by linear_combination hx) (by linear_combination hy)
    apply hbc
    cases b; cases c
    simp only [Point2D.mk.injEq] at *
    exact ⟨by linarith [this.1], by linarith [this.2]⟩
  · exact h1.symm

end

/-- the closed polygon made of two chains (given as stacks) -/
def poly {P : Type} (st1 st2 : List P) : List P := st1.reverse.dropLast ++ st2.reverse.dropLast

section
variable {P : Type} {st1 st2 : List P}

theorem poly_length (h1 : 2 ≤ st1.length) (h2 : 2 ≤ st2.length) :
    (poly st1 st2).length = (st1.length - 1) + (st2.length - 1) := by
  simp [poly]

/-- the polygon in terms of the stacks: first chain -/
theorem poly_at1 (h1 : 2 ≤ st1.length) (h2 : 2 ≤ st2.length) (hj : st1.head? = st2.getLast?)
    (i : Nat) (hi : i ≤ st1.length - 1) : (poly st1 st2)[i]? = st1[st1.length - 1 - i]? := by
  unfold poly
  by_cases h : i < st1.length - 1
  · rw [List.getElem?_append_left (by simpa using h), List.getElem?_dropLast, if_pos (by simpa using h),
      List.getElem?_reverse (by omega)]
  · obtain rfl : i = st1.length - 1 := by omega
    rw [List.getElem?_append_right (by simp), List.getElem?_dropLast, if_pos (by simp; omega),
      List.getElem?_reverse (by simp; omega), Nat.sub_self, ← List.head?_eq_getElem?, hj,
      List.getLast?_eq_getElem?]
    congr 1
    simp

/-- second chain -/
theorem poly_at2 (h1 : 2 ≤ st1.length) (h2 : 2 ≤ st2.length) (hj : st1.getLast? = st2.head?)
    (i : Nat) (hi : i ≤ st2.length - 1) :
    (poly st1 st2)[(st1.length - 1 + i) % (poly st1 st2).length]? = st2[st2.length - 1 - i]? := by
  rw [poly_length h1 h2]
  by_cases h : i < st2.length - 1
  · rw [Nat.mod_eq_of_lt (by omega)]
    unfold poly
    rw [List.getElem?_append_right (by simp), List.getElem?_dropLast, if_pos (by simpa using h),
      List.getElem?_reverse (by simp; omega)]
    congr 1
    simp
  · obtain rfl : i = st2.length - 1 := by omega
    rw [Nat.mod_self]
    unfold poly
    rw [List.getElem?_append_left (by simp; omega), List.getElem?_dropLast, if_pos (by simp; omega),
      List.getElem?_reverse (by omega), Nat.sub_self, ← List.head?_eq_getElem?, ← hj,
      List.getLast?_eq_getElem?]
    congr 1

theorem poly_edge (h1 : 2 ≤ st1.length) (h2 : 2 ≤ st2.length) (hj : st1.head? = st2.getLast?)
    (hj' : st1.getLast? = st2.head?) {a b : P} (h : CyclicEdge (poly st1 st2) a b) :
    (∃ i : Nat, st1[i]? = some b ∧ st1[i + 1]? = some a) ∨ ∃ i : Nat, st2[i]? = some b ∧ st2[i + 1]? = some a := by
  obtain ⟨i, hi, ha, hb⟩ := h
  have hl := poly_length h1 h2
  by_cases hc : i < st1.length - 1
  · left
    rw [poly_at1 h1 h2 hj i (by omega)] at ha
    rw [Nat.mod_eq_of_lt (by omega), poly_at1 h1 h2 hj (i + 1) (by omega)] at hb
    refine ⟨_, hb, ?_⟩
    rw [← ha]
    congr 1
    omega
  · right
    obtain ⟨k, rfl⟩ : ∃ k, i = st1.length - 1 + k := ⟨i - (st1.length - 1), by omega⟩
    have ha' := poly_at2 h1 h2 hj' k (by omega)
    rw [Nat.mod_eq_of_lt (by omega), ha] at ha'
    rw [add_assoc, poly_at2 h1 h2 hj' (k + 1) (by omega)] at hb
    refine ⟨_, hb, ?_⟩
    rw [ha']
    congr 1
    omega

theorem poly_corner (h1 : 2 ≤ st1.length) (h2 : 2 ≤ st2.length) (hj : st1.head? = st2.getLast?)
    (hj' : st1.getLast? = st2.head?) {a b c : P} (h : CyclicCorner (poly st1 st2) a b c) :
    (∃ i : Nat, st1[i]? = some c ∧ st1[i + 1]? = some b ∧ st1[i + 2]? = some a) ∨
    (∃ i : Nat, st2[i]? = some c ∧ st2[i + 1]? = some b ∧ st2[i + 2]? = some a) ∨
    (∃ i j : Nat, st1[i]? = some b ∧ st1[i + 1]? = some a ∧ st2[j]? = some c ∧ st2[j + 1]? = some b) ∨
    ∃ i j : Nat, st2[i]? = some b ∧ st2[i + 1]? = some a ∧ st1[j]? = some c ∧ st1[j + 1]? = some b := by
  obtain ⟨i, hi, ha, hb, hc⟩ := h
  have hl := poly_length h1 h2
  by_cases h0 : i < st1.length - 1
  · rw [poly_at1 h1 h2 hj i (by omega)] at ha
    rw [Nat.mod_eq_of_lt (by omega), poly_at1 h1 h2 hj (i + 1) (by omega)] at hb
    by_cases h3 : i + 1 < st1.length - 1
    · left
      rw [Nat.mod_eq_of_lt (by omega), poly_at1 h1 h2 hj (i + 2) (by omega)] at hc
      refine ⟨_, hc, ?_, ?_⟩
      · rw [← hb]
        congr 1
        omega
      · rw [← ha]
        congr 1
        omega
    · right; right; left
      have e : i + 2 = st1.length - 1 + 1 := by omega
      rw [e, poly_at2 h1 h2 hj' 1 (by omega)] at hc
      refine ⟨_, _, hb, ?_, hc, ?_⟩
      · rw [← ha]
        congr 1
        omega
      · rw [← hb]
        have e1 : st2.length - 1 - 1 + 1 = st2.length - 1 := by omega
        have e2 : st1.length - 1 - (i + 1) = 0 := by omega
        rw [e1, e2, ← List.getLast?_eq_getElem?, ← hj, List.head?_eq_getElem?]
  · obtain ⟨k, rfl⟩ : ∃ k, i = st1.length - 1 + k := ⟨i - (st1.length - 1), by omega⟩
    have ha' := poly_at2 h1 h2 hj' k (by omega)
    rw [Nat.mod_eq_of_lt (by omega), ha] at ha'
    rw [add_assoc, poly_at2 h1 h2 hj' (k + 1) (by omega)] at hb
    by_cases h3 : k + 1 < st2.length - 1
    · right; left
      rw [add_assoc, poly_at2 h1 h2 hj' (k + 2) (by omega)] at hc
      refine ⟨_, hc, ?_, ?_⟩
      · rw [← hb]
        congr 1
        omega
      · rw [ha']
        congr 1
        omega
    · right; right; right
      have e : (st1.length - 1 + k + 2) % (poly st1 st2).length = 1 := by
        rw [hl]
        have : st1.length - 1 + k + 2 = (st1.length - 1 + (st2.length - 1)) + 1 := by omega
        rw [this, Nat.add_mod_left, Nat.mod_eq_of_lt (by omega)]
      rw [e, poly_at1 h1 h2 hj 1 (by omega)] at hc
      refine ⟨_, _, hb, ?_, hc, ?_⟩
      · rw [ha']
        congr 1
        omega
      · rw [← hb]
        have e1 : st1.length - 1 - 1 + 1 = st1.length - 1 := by omega
        have e2 : st2.length - 1 - (k + 1) = 0 := by omega
        rw [e1, e2, ← List.getLast?_eq_getElem?, hj', List.head?_eq_getElem?]

theorem poly_nodup {P : Type} {st1 st2 : List P} (n1 : st1.Nodup) (n2 : st2.Nodup)
    (h : ∀ (i j : Nat) x, st1[i + 1]? = some x → st2[j + 1]? = some x → False) : (poly st1 st2).Nodup := by
  have e : ∀ l : List P, l.reverse.dropLast = l.tail.reverse := by
    intro l
    cases l <;> simp
  rw [poly, e, e, List.nodup_append]
  refine ⟨?_, ?_, ?_⟩
  · exact List.nodup_reverse.2 (n1.sublist (List.tail_sublist _))
  · exact List.nodup_reverse.2 (n2.sublist (List.tail_sublist _))
  · rintro x hx y hy rfl
    rw [List.mem_reverse] at hx hy
    obtain ⟨i, hi⟩ := List.mem_iff_getElem?.1 hx
    obtain ⟨j, hj⟩ := List.mem_iff_getElem?.1 hy
    rw [List.getElem?_tail] at hi hj
    exact h i j x hi hj

end

/-- a point in the plane -/
def pt (p : Point2D ℝ) : ℝ × ℝ := (p.x, p.y)

/-- a point left of all edges of a polygon turning left lies in its convex hull -/
theorem mem_hull {r : List (Point2D ℝ)} (hr : r ≠ []) (hturn : ∀ a b c, CyclicCorner r a b c → 0 < turn a b c)
    {p : Point2D ℝ} (hp : ∀ a b, CyclicEdge r a b → 0 ≤ turn a b p) :
    pt p ∈ convexHull ℝ (pt '' {q | q ∈ r}) := by
  by_contra hn
  have hfin : (pt '' {q | q ∈ r}).Finite := (List.finite_toSet r).image _
  obtain ⟨f, u, hf, hu⟩ := geometric_hahn_banach_closed_point (convex_convexHull ℝ _)
    (hfin.isClosed_convexHull ℝ) hn
  have hf' : ∀ q ∈ r, f (pt q) < f (pt p) := fun q hq =>
    (hf _ (subset_convexHull ℝ _ ⟨q, hq, rfl⟩)).trans hu
  obtain ⟨v, hv, hmax⟩ : ∃ v ∈ r, ∀ q ∈ r, f (pt q) ≤ f (pt v) := by
    have := Set.Finite.exists_maximalFor (fun q => f (pt q)) {q | q ∈ r} (List.finite_toSet r)
      ⟨r.head hr, List.head_mem hr⟩
    obtain ⟨v, hv, hm⟩ := this
    refine ⟨v, hv, fun q hq => ?_⟩
    rcases le_total (f (pt q)) (f (pt v)) with h | h
    · exact h
    · exact hm hq h
  obtain ⟨i, hi, hiv⟩ := List.mem_iff_getElem.1 hv
  have hpos : 0 < r.length := by omega
  let j := (i + r.length - 1) % r.length
  have hj : j < r.length := Nat.mod_lt _ hpos
  have e1 : (j + 1) % r.length = i := by
    show ((i + r.length - 1) % r.length + 1) % r.length = i
    rw [Nat.mod_add_mod]
    have : i + r.length - 1 + 1 = i + r.length := by omega
    rw [this, Nat.add_mod_right, Nat.mod_eq_of_lt hi]
  have e2 : (j + 2) % r.length = (i + 1) % r.length := by
    show ((i + r.length - 1) % r.length + 2) % r.length = _
    rw [Nat.mod_add_mod]
    have : i + r.length - 1 + 2 = (i + 1) + r.length := by omega
    rw [this, Nat.add_mod_right]
  have hk : (i + 1) % r.length < r.length := Nat.mod_lt _ hpos
  have hc : CyclicCorner r r[j] v r[(i + 1) % r.length] :=
    ⟨j, hj, List.getElem?_eq_getElem _, by rw [e1, List.getElem?_eq_getElem hi, hiv], by
      rw [e2, List.getElem?_eq_getElem hk]⟩
  have t0 := hturn _ _ _ hc
  have t1 : 0 ≤ turn r[j] v p := hp _ _ ⟨j, hj, List.getElem?_eq_getElem _, by
    rw [e1, List.getElem?_eq_getElem hi, hiv]⟩
  have t2 : 0 ≤ turn v r[(i + 1) % r.length] p := hp _ _ ⟨i, hi, by rw [List.getElem?_eq_getElem hi, hiv],
    List.getElem?_eq_getElem hk⟩
  have m1 := hmax r[j] (List.getElem_mem _)
  have m2 := hmax r[(i + 1) % r.length] (List.getElem_mem _)
  have m3 := hf' v hv
  generalize r[j] = a at *
  generalize r[(i + 1) % r.length] = w at *
  have key : turn a v w • (pt p - pt v) = turn v w p • (pt a - pt v) + turn a v p • (pt w - pt v) := by
    ext
    · simpa [pt] using bary_x a v w p
    · simpa [pt] using bary_y a v w p
  have := congrArg f key
  simp only [map_smul, map_add, map_sub, smul_eq_mul] at this
  have h1 : 0 < turn a v w * (f (pt p) - f (pt v)) := mul_pos t0 (by linarith)
  have h2 : turn v w p * (f (pt a) - f (pt v)) ≤ 0 := mul_nonpos_of_nonneg_of_nonpos t2 (by linarith)
  have h3 : turn a v p * (f (pt w) - f (pt v)) ≤ 0 := mul_nonpos_of_nonneg_of_nonpos t1 (by linarith)
  linarith

/-- a collinear point between two points lies on their segment -/
theorem mem_segment_of_between {a b p : Point2D ℝ} (h1 : Le Lex a p) (h2 : Le Lex p b) (h : turn a b p = 0) :
    pt p ∈ segment ℝ (pt a) (pt b) := by
  rw [segment_eq_image]
  simp only [turn] at h
  rcases (show a.x ≤ b.x by
    rcases h1 with h1 | ⟨h1, -⟩ <;> rcases h2 with h2 | ⟨h2, -⟩ <;> linarith).lt_or_eq with hx | hx
  · have h0 : 0 < b.x - a.x := by linarith
    have b1 : a.x ≤ p.x := by rcases h1 with h1 | ⟨h1, -⟩ <;> linarith
    have b2 : p.x ≤ b.x := by rcases h2 with h2 | ⟨h2, -⟩ <;> linarith
    refine ⟨(p.x - a.x) / (b.x - a.x), ⟨div_nonneg (by linarith) h0.le, ?_⟩, ?_⟩
    · rw [div_le_one h0]
      linarith
    · ext
      · simp only [pt, Prod.fst_add, Prod.smul_fst, smul_eq_mul]
        field_simp
        ring
      · simp only [pt, Prod.snd_add, Prod.smul_snd, smul_eq_mul]
        field_simp
        linear_combination -h
  · have e1 : p.x = a.x := by
      rcases h1 with h1 | ⟨h1, -⟩ <;> rcases h2 with h2 | ⟨h2, -⟩ <;> linarith
    have b1 : a.y ≤ p.y := by
      rcases h1 with h1 | ⟨-, h1⟩ <;> linarith
    have b2 : p.y ≤ b.y := by
      rcases h2 with h2 | ⟨-, h2⟩ <;> linarith
    rcases (b1.trans b2).lt_or_eq with hy | hy
    · have h0 : 0 < b.y - a.y := by linarith
      refine ⟨(p.y - a.y) / (b.y - a.y), ⟨div_nonneg (by linarith) h0.le, ?_⟩, ?_⟩
      · rw [div_le_one h0]
        linarith
      · ext
        · simp only [pt, Prod.fst_add, Prod.smul_fst, smul_eq_mul]
          rw [← hx, e1]
          ring
        · simp only [pt, Prod.snd_add, Prod.smul_snd, smul_eq_mul]
          field_simp
          ring
    · refine ⟨0, ⟨le_rfl, zero_le_one⟩, ?_⟩
      ext
      · simp [pt, e1]
      · simp only [pt, Prod.snd_add, Prod.smul_snd, smul_eq_mul]
        linarith

/-- the sorted points are ordered lexicographically if points above each other come bottom up -/
theorem sorted_lex (l : List (Point2D ℝ)) (h : l.Pairwise fun p q => p.x = q.x → p.y ≤ q.y) :
    (sortVec2DX l).Pairwise (Le Lex) := by
  obtain ⟨-, h2, h3⟩ := sort_spec (fun p : Point2D ℝ => p.x) (fun a b => [partialCmp a.y b.y]) l
  have h2 := h2 (fun p _ => trivial)
  rw [List.pairwise_iff_forall_sublist] at h2 ⊢
  intro a b hab
  have hle : a.x ≤ b.x := by simpa using h2 hab
  rcases hle.lt_or_eq with hlt | heq
  · exact .inl (by linarith)
  · refine .inr ⟨by linarith, ?_⟩
    have h4 := hab.filter (fun p => p.x ==. a.x)
    rw [show (sortVec2DX l).filter _ = l.filter _ from h3 a.x] at h4
    have h5 : [a, b].filter (fun p => p.x ==. a.x) = [a, b] := by simp [heq]
    rw [h5] at h4
    rw [List.pairwise_iff_forall_sublist] at h
    have := h (h4.trans List.filter_sublist) heq
    linarith

theorem hull_eq (l : List (Point2D ℝ)) : convexHull2D l =
    poly ((sortVec2DX l).foldl hullStep []) ((sortVec2DX l).reverse.foldl hullStep []) := rfl

end Hull

open Hull

/-- **C43** (partial: points above each other, with the same x, are given bottom up; missing are other orders of
such points, see `c43_violated`) `convex_hull_2d` of at least two points (exact arithmetic): all its points
are input points; every input point is on or left of every edge of the closed polygon; every input point is in
the convex hull of the result; unless all points are on one line, the result has at least three points,
none twice, and turns left at every point. -/
theorem c43_hull_partial (l : List (Point2D ℝ)) (hl : 2 ≤ l.length)
    (hord : l.Pairwise fun p q => p.x = q.x → p.y ≤ q.y) :
    (∀ p ∈ convexHull2D l, p ∈ l) ∧
    (∀ a b, CyclicEdge (convexHull2D l) a b → ∀ p ∈ l, 0 ≤ turn a b p) ∧
    (∀ p ∈ l, (p.x, p.y) ∈ convexHull ℝ ((fun q : Point2D ℝ => (q.x, q.y)) '' {q | q ∈ convexHull2D l})) ∧
    (¬ Collinear2 l → 3 ≤ (convexHull2D l).length ∧ (convexHull2D l).Nodup ∧
      ∀ a b c, CyclicCorner (convexHull2D l) a b c → 0 < turn a b c) := by
  have hs := sorted_lex l hord
  have hperm : (sortVec2DX l).Perm l := stableSort_perm l
  rw [hull_eq]
  generalize sortVec2DX l = s at *
  have hch : Chains Lex s (s.foldl hullStep []) (s.reverse.foldl hullStep []) :=
    ⟨lex_cone, hs, chain_inv lex_cone s hs, chain_inv (rev_cone lex_cone) s.reverse (by
      rw [List.pairwise_reverse]
      exact hs.imp fun h => le_rev.2 h)⟩
  generalize s.foldl hullStep [] = st1 at *
  generalize s.reverse.foldl hullStep [] = st2 at *
  have hlen := hperm.length_eq
  have l1 : 2 ≤ st1.length := by
    have := hch.lower.long
    omega
  have l2 : 2 ≤ st2.length := by
    have := hch.upper.long
    rw [List.length_reverse] at this
    omega
  have j1 : st1.head? = st2.getLast? := by
    rw [hch.lower.last, hch.upper.first, List.head?_reverse]
  have j2 : st1.getLast? = st2.head? := by
    rw [hch.lower.first, hch.upper.last, List.getLast?_reverse]
  have hmem : ∀ p, p ∈ l ↔ p ∈ s := fun p => hperm.mem_iff.symm
  have hedge : ∀ a b, CyclicEdge (poly st1 st2) a b → ∀ p ∈ l, 0 ≤ turn a b p := by
    intro a b hab p hp
    rw [hmem] at hp
    rcases poly_edge l1 l2 j1 j2 hab with ⟨i, hb, ha⟩ | ⟨i, hb, ha⟩
    · exact supports_at s st1 hch.lower.supports i a b hb ha p hp
    · exact supports_at s.reverse st2 hch.upper.supports i a b hb ha p (by simpa using hp)
  have hcol : Collinear2 l ↔ Collinear2 s := by simp only [Collinear2, hmem]
  have hcorner : ¬ Collinear2 l → ∀ a b c, CyclicCorner (poly st1 st2) a b c → 0 < turn a b c := by
    intro hc a b c h
    rw [hcol] at hc
    rcases poly_corner l1 l2 j1 j2 h with ⟨i, h1, h2, h3⟩ | ⟨i, h1, h2, h3⟩ | ⟨i, j, h1, h2, h3, h4⟩ |
      ⟨i, j, h1, h2, h3, h4⟩
    · exact convex_at st1 hch.lower.convex i a b c h1 h2 h3
    · exact convex_at st2 hch.upper.convex i a b c h1 h2 h3
    · exact hch.joint hc i j a b c h1 h2 h3 h4
    · exact hch.symm.joint (fun e => hc (collinear_reverse.1 e)) i j a b c h1 h2 h3 h4
  have hpl := poly_length l1 l2
  have hne : poly st1 st2 ≠ [] := by
    intro e
    rw [e] at hpl
    simp at hpl
    omega
  refine ⟨?_, hedge, ?_, ?_⟩
  · intro p hp
    rw [hmem]
    rcases List.mem_append.1 hp with hp | hp
    · exact hch.lower.sub p (List.mem_reverse.1 (List.mem_of_mem_dropLast hp))
    · exact List.mem_reverse.1 (hch.upper.sub p (List.mem_reverse.1 (List.mem_of_mem_dropLast hp)))
  · intro p hp
    by_cases hc : Collinear2 l
    · -- both chains are the two ends
      have hshort : ∀ (st : List (Point2D ℝ)), Convex st → (∀ q ∈ st, q ∈ l) → st.length ≤ 2 := by
        intro st hcv hsub
        match st, hcv, hsub with
        | [], _, _ => simp
        | [_], _, _ => simp
        | [_, _], _, _ => simp
        | x :: y :: z :: t, hcv, hsub =>
          have := hcv.1
          rw [hc z (hsub z (by simp)) y (hsub y (by simp)) x (hsub x (by simp))] at this
          exact absurd this (lt_irrefl _)
      have s1 := hshort st1 hch.lower.convex fun q hq => (hmem q).2 (hch.lower.sub q hq)
      have s2 := hshort st2 hch.upper.convex fun q hq => (hmem q).2 (List.mem_reverse.1 (hch.upper.sub q hq))
      match st1, st2, hch, l1, l2, j1, j2, s1, s2 with
      | [x, y], [y', x'], hch, _, _, j1, j2, _, _ =>
        obtain rfl : x = x' := by simpa using j1
        obtain rfl : y = y' := by simpa using j2
        have hy : s.head? = some y := by simpa using hch.lower.first.symm
        have hx : s.getLast? = some x := by simpa using hch.lower.last.symm
        have hps := (hmem p).1 hp
        have hseg := mem_segment_of_between ((sorted_ends lex_cone hs hps).1 hy)
          ((sorted_ends lex_cone hs hps).2 hx)
          (hc y ((hmem y).2 (List.mem_of_head? hy)) x ((hmem x).2 (List.mem_of_getLast? hx)) p hp)
        have hp2 : poly [x, y] [y, x] = [y, x] := rfl
        refine segment_subset_convexHull ?_ ?_ hseg
        · exact ⟨y, by simp [hp2], rfl⟩
        · exact ⟨x, by simp [hp2], rfl⟩
      | [_, _], [_], _, _, h, _, _, _, _ => simp at h
      | [_, _], [], _, _, h, _, _, _, _ => simp at h
      | [_, _], _ :: _ :: _ :: _, _, _, _, _, _, _, h => simp at h
      | [_], _, _, h, _, _, _, _, _ => simp at h
      | [], _, _, h, _, _, _, _, _ => simp at h
      | _ :: _ :: _ :: _, _, _, _, _, _, _, h, _ => simp at h
    · exact mem_hull hne (hcorner hc) fun a b hab => hedge a b hab p hp
  · intro hc
    have hc' : ¬ Collinear2 s := fun e => hc (hcol.2 e)
    have hc'' : ¬ Collinear2 s.reverse := fun e => hc' (collinear_reverse.1 e)
    have n1 := nodup_of lex_cone hch.lower.sorted (chain_ne lex_cone hs hch.lower hc')
    have n2 := nodup_of (rev_cone lex_cone) hch.upper.sorted
      (chain_ne (rev_cone lex_cone) hch.symm.sorted hch.upper hc'')
    refine ⟨?_, ?_, hcorner hc⟩
    · by_contra hlt
      have e2 : (poly st1 st2).length = 2 := by omega
      have hk := hcorner hc (poly st1 st2)[0] (poly st1 st2)[1] (poly st1 st2)[0]
        ⟨0, by omega, List.getElem?_eq_getElem _, by simp [e2], by simp [e2]⟩
      rw [turn_self''] at hk
      exact lt_irrefl _ hk
    · apply poly_nodup n1 n2
      intro i j x hi hj
      by_cases k1 : i + 2 < st1.length
      · by_cases k2 : j + 2 < st2.length
        · exact hch.no_touch hc' i (j + 1) _ x _ _ (List.getElem?_eq_getElem (by omega)) hi
            (List.getElem?_eq_getElem k1) hj (List.getElem?_eq_getElem k2)
        · -- last of the upper stack = first of the lower stack
          have hj2 := (List.getElem?_eq_some_iff.1 hj).1
          have e : st2.getLast? = some x := by
            rw [List.getLast?_eq_getElem?, ← hj]
            congr 1
            omega
          rw [← j1, List.head?_eq_getElem?] at e
          have := (List.getElem?_inj (by omega) n1).1 (e.trans hi.symm)
          omega
      · have hi2 := (List.getElem?_eq_some_iff.1 hi).1
        have e : st1.getLast? = some x := by
          rw [List.getLast?_eq_getElem?, ← hi]
          congr 1
          omega
        rw [j2, List.head?_eq_getElem?] at e
        have := (List.getElem?_inj (by omega) n2).1 (e.trans hj.symm)
        omega

/-- a square with points on its sides and inside, not on one line -/
example : ([⟨0, 0⟩, ⟨2, 0⟩, ⟨1, 1⟩, ⟨0, 2⟩, ⟨2, 2⟩, ⟨1, 2⟩] : List (Point2D ℝ)).Pairwise
      (fun p q => p.x = q.x → p.y ≤ q.y) ∧
    ¬ Collinear2 [⟨0, 0⟩, ⟨2, 0⟩, ⟨1, 1⟩, ⟨0, 2⟩, ⟨2, 2⟩, ⟨1, 2⟩] := by
  constructor
  · simp
  · intro h
    have := h ⟨0, 0⟩ (by simp) ⟨2, 0⟩ (by simp) ⟨0, 2⟩ (by simp)
    simp [turn] at this

/-- **C43 violated** points with the same x are left in their input order by the sort. For the points (0,1),
(0,0), (0,2), (1,0) the result is (0,1), (1,0), (0,2): the corner (0,0) is missing and lies right of the first
edge. The hull of a single point is empty. -/
theorem c43_violated :
    (∃ l : List (Point2D F64), ∃ a b p, CyclicEdge (convexHull2D l) a b ∧ p ∈ l ∧ p ∉ convexHull2D l ∧
      (ccw a b p <. zero) = true) ∧
    ∃ p : Point2D F64, convexHull2D [p] = [] := by
  refine ⟨⟨[⟨.ofRat 0, .ofRat 1⟩, ⟨.ofRat 0, .ofRat 0⟩, ⟨.ofRat 0, .ofRat 2⟩, ⟨.ofRat 1, .ofRat 0⟩],
    ⟨.ofRat 0, .ofRat 1⟩, ⟨.ofRat 1, .ofRat 0⟩, ⟨.ofRat 0, .ofRat 0⟩, ?_, ?_, ?_, ?_⟩, ⟨⟨.ofRat 3, .ofRat 4⟩, ?_⟩⟩
  · exact ⟨0, by decide +kernel, by decide +kernel, by decide +kernel⟩
  · decide +kernel
  · decide +kernel
  · decide +kernel
  · decide +kernel

end R3D

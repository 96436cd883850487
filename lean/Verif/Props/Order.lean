import Verif.Props.BoundingBox
import Verif.Props.AABBTree
import Verif.Props.OcTree
import Verif.Props.KdTreeFloat
import Verif.Props.Filter
import Verif.Props.CloudGeometry
import Verif.Props.Hull
/-!
# C124: results do not depend on the order of the points
-/
namespace R3D
open Scalar LawfulScalar Spec

/-- two results that list the same elements, each the same number of times, or that both panic -/
def Spec.SameElems {β : Type} (a b : Panics (List β)) : Prop :=
  (a = none ∧ b = none) ∨ ∃ r s, a = some r ∧ b = some s ∧ r.Perm s

/-! ### the octree -/

namespace OcNode
variable {α : Type} [Scalar α]

theorem newNode_order : ∀ (fuel : Nat) (bb : BoundingBox3D α) (l l' : List (Point3D α)), l.Perm l' →
    newNode fuel bb l = newNode fuel bb l'
  | 0, _, _, _, _ => rfl
  | fuel + 1, bb, l, l', h => by
    have one : ∀ p, l = [p] ↔ l' = [p] := fun p =>
      ⟨fun e => List.perm_singleton.1 (e ▸ h).symm, fun e => List.perm_singleton.1 (e ▸ h)⟩
    by_cases h1 : ∃ p, l = [p]
    · obtain ⟨p, hp⟩ := h1
      rw [hp, (one p).1 hp]
    · have h1' : ¬ ∃ p, l' = [p] := fun ⟨p, hp⟩ => h1 ⟨p, (one p).2 hp⟩
      have gen : ∀ l : List (Point3D α), (¬ ∃ p, l = [p]) → newNode (fuel + 1) bb l =
          match subBoxes bb with
          | .error e => .error e
          | .ok bbs => .ok (node fun d =>
              let sub := l.filter fun p => decide (cellOf bbs p = some d)
              match sub.length with
              | 0 => nil
              | _ => match newNode fuel (bbs d) sub with
                | .error _ => nil
                | .ok x => x) := by
        intro l hl
        match l with
        | [] => rfl
        | [p] => exact absurd ⟨p, rfl⟩ hl
        | _ :: _ :: _ => rfl
      rw [gen l h1, gen l' h1']
      cases subBoxes bb with
      | error e => rfl
      | ok bbs =>
        simp only
        congr 2
        funext d
        have hs := h.filter fun p => decide (cellOf bbs p = some d)
        rw [hs.length_eq, newNode_order fuel (bbs d) _ _ hs]

end OcNode

/-- C124, any number type: the octree is the same tree in whatever order the randomly seeded hash set hands out
the points -/
theorem c124_octree_hash {α : Type} [Scalar α] (fuel : Nat) (uniq uniq' : List (Point3D α) → List (Point3D α)) (old : OcTree α)
    (pts : List (Point3D α)) (h : (uniq pts).Perm (uniq' pts)) :
    OcTree.build fuel uniq old pts = OcTree.build fuel uniq' old pts := by
  unfold OcTree.build
  split
  · rfl
  · rw [OcNode.newNode_order fuel _ _ _ h]

theorem numEq_real (a b : BoundingBox3D ℝ) (h : (box3 a).NumEq (box3 b)) : a = b := by
  obtain ⟨⟨a1, a2, a3⟩, ⟨a4, a5, a6⟩⟩ := a
  obtain ⟨⟨b1, b2, b3⟩, ⟨b4, b5, b6⟩⟩ := b
  simp only [Box.NumEq, forall_fin3, at3_zero, at3_one, at3_two, box3, Real.key_eq] at h
  obtain ⟨⟨h1, h4⟩, ⟨h2, h5⟩, h3, h6⟩ := h
  subst h1 h2 h3 h4 h5 h6
  rfl

theorem fromIterator_order (pts pts' : List (Point3D ℝ)) (h : pts.Perm pts') :
    BoundingBox3D.fromIterator pts = BoundingBox3D.fromIterator pts' := by
  obtain ⟨he, hb⟩ := c16_order_independent_3d pts pts' h fun _ _ _ => trivial
  cases e : BoundingBox3D.fromIterator pts with
  | error x => rw [he x e]
  | ok b =>
    obtain ⟨b', h1, h2⟩ := hb b e
    rw [h1, numEq_real b b' h2]

/-- C124, exact arithmetic: the order of the points of a cloud does not change its octree -/
theorem c124_octree (fuel : Nat) (uniq : List (Point3D ℝ) → List (Point3D ℝ)) (old : OcTree ℝ) (pts pts' : List (Point3D ℝ))
    (h : pts.Perm pts') (hu : ∀ p, p ∈ uniq pts ↔ p ∈ pts) (hu' : ∀ p, p ∈ uniq pts' ↔ p ∈ pts') (hn : (uniq pts).Nodup)
    (hn' : (uniq pts').Nodup) : OcTree.build fuel uniq old pts = OcTree.build fuel uniq old pts' := by
  unfold OcTree.build
  rw [fromIterator_order pts pts' h]
  split
  · rfl
  · rw [OcNode.newNode_order fuel _ (uniq pts) (uniq pts') ((List.perm_ext_iff_of_nodup hn hn').2 fun p => by
      rw [hu, hu', h.mem_iff])]

/-- a finite double other than the negative zero -/
def Spec.Plain (a : F64) : Prop := F64.Num a ∧ a ≠ .fin true 0

theorem plain_inj {a b : F64} (ha : Plain a) (hb : Plain b) (h : key a = key b) : a = b := by
  obtain ⟨⟨⟨s, m, rfl⟩, hr⟩, hz⟩ := ha
  obtain ⟨⟨⟨s', m', rfl⟩, hr'⟩, hz'⟩ := hb
  have hm : 0 ≤ m := hr.1
  have hm' : 0 ≤ m' := hr'.1
  have hv : F64.val s m = F64.val s' m' := by
    have h' : ((F64.val s m : ℝ) : EReal) = ((F64.val s' m' : ℝ) : EReal) := h
    exact_mod_cast h'
  cases s <;> cases s' <;> simp only [F64.val, Bool.false_eq_true, if_false, if_true] at hv
  · rw [hv]
  · have : m' = 0 := by linarith
    exact absurd (by rw [this]) hz'
  · have : m = 0 := by linarith
    exact absurd (by rw [this]) hz
  · rw [neg_inj.1 hv]

theorem fromIterator_order_f64 (pts pts' : List (Point3D F64)) (h : pts.Perm pts') (hp : ∀ p ∈ pts, ∀ d, Plain (at3 p d)) :
    BoundingBox3D.fromIterator pts = BoundingBox3D.fromIterator pts' := by
  have hok : ∀ p ∈ pts, ∀ d, ok (at3 p d) := fun p hq d => (hp p hq d).1.ok
  have hok' : ∀ p ∈ pts', ∀ d, ok (at3 p d) := fun p hq d => hok p (h.mem_iff.2 hq) d
  have corner : ∀ (l : List (Point3D F64)) (b : BoundingBox3D F64), (∀ p ∈ l, ∀ d, Plain (at3 p d)) →
      BoundingBox3D.fromIterator l = .ok b → ∀ d, Plain ((box3 b).lo d) ∧ Plain ((box3 b).hi d) := by
    intro l b hl hb d
    have hokl : ∀ p ∈ l, ∀ d, ok (at3 p d) := fun p hq d => (hl p hq d).1.ok
    obtain ⟨c1, c2, c3⟩ := c16_from_iterator_3d l hokl
    rcases Nat.lt_or_ge l.length 2 with h2 | h2
    · rw [c1 h2] at hb; simp at hb
    · by_cases hd : ∃ d, ∀ p ∈ l, ∀ q ∈ l, key (at3 p d) = key (at3 q d)
      · rw [c2 h2 hd] at hb; simp at hb
      · push Not at hd
        obtain ⟨b', h1, -, -, h3, -⟩ := c3 h2 hd
        rw [hb] at h1
        cases h1
        obtain ⟨⟨p, hpm, e⟩, q, hqm, e'⟩ := h3 d
        exact ⟨e ▸ hl p hpm d, e' ▸ hl q hqm d⟩
  obtain ⟨he, hb⟩ := c16_order_independent_3d pts pts' h hok
  cases e : BoundingBox3D.fromIterator pts with
  | error x => rw [he x e]
  | ok b =>
    obtain ⟨b', h1, h2⟩ := hb b e
    rw [h1]
    have k1 := corner pts b hp e
    have k2 := corner pts' b' (fun p hq => hp p (h.mem_iff.2 hq)) h1
    have key' : ∀ d, (box3 b).lo d = (box3 b').lo d ∧ (box3 b).hi d = (box3 b').hi d := fun d =>
      ⟨plain_inj (k1 d).1 (k2 d).1 (h2 d).1, plain_inj (k1 d).2 (k2 d).2 (h2 d).2⟩
    obtain ⟨⟨a1, a2, a3⟩, ⟨a4, a5, a6⟩⟩ := b
    obtain ⟨⟨b1, b2, b3⟩, ⟨b4, b5, b6⟩⟩ := b'
    simp only [forall_fin3, at3_zero, at3_one, at3_two, box3] at key'
    obtain ⟨⟨e1, e4⟩, ⟨e2, e5⟩, e3, e6⟩ := key'
    subst e1 e2 e3 e4 e5 e6
    rfl

/-- C124, doubles: the order of the points of a cloud does not change its octree, in spite of the rounded middles. (Finite
coordinates, none of them a negative zero: which of two zeros becomes a corner of the box depends on the order.) -/
theorem c124_octree_f64 (fuel : Nat) (uniq : List (Point3D F64) → List (Point3D F64)) (old : OcTree F64) (pts pts' : List (Point3D F64))
    (h : pts.Perm pts') (hp : ∀ p ∈ pts, ∀ d, Plain (at3 p d)) (hu : ∀ p, p ∈ uniq pts ↔ p ∈ pts) (hu' : ∀ p, p ∈ uniq pts' ↔ p ∈ pts')
    (hn : (uniq pts).Nodup) (hn' : (uniq pts').Nodup) : OcTree.build fuel uniq old pts = OcTree.build fuel uniq old pts' := by
  unfold OcTree.build
  rw [fromIterator_order_f64 pts pts' h hp]
  split
  · rfl
  · rw [OcNode.newNode_order fuel _ (uniq pts) (uniq pts') ((List.perm_ext_iff_of_nodup hn hn').2 fun p => by
      rw [hu, hu', h.mem_iff])]

example : ∃ l l' : List (Point3D ℝ), l.Perm l' ∧ l ≠ l' ∧ l.Nodup :=
  ⟨[⟨0, 0, 0⟩, ⟨1, 1, 1⟩], [⟨1, 1, 1⟩, ⟨0, 0, 0⟩], List.Perm.swap .., by simp, by simp⟩

/-! ### the box tree -/

namespace AABBTree
variable {B P HB : Type}

/-- the same tree up to the order of the elements of the leaves -/
inductive Alike : AABBTree B HB → AABBTree B HB → Prop
  | empty : Alike .empty .empty
  | leaf {l l' : List HB} {b : B} : l.Perm l' → Alike (.leaf l b) (.leaf l' b)
  | branch {l l' r r' : AABBTree B HB} {b : B} : Alike l l' → Alike r r' → Alike (.branch l r b) (.branch l' r' b)

variable {ops : BoxOps B P} {bb : HB → B}

section
variable {S : B → Prop} (hS : ∀ a b, S a → S b → S (ops.consume a b))
  (hc : ∀ a b, S a → S b → ops.consume a b = ops.consume b a)
  (ha : ∀ a b c, S a → S b → S c → ops.consume (ops.consume a b) c = ops.consume a (ops.consume b c))
  (hi : ∀ a, S a → ops.consume a a = a)
include hS hc ha

theorem fold_right_comm (l : List HB) (hl : ∀ x ∈ l, S (bb x)) : ∀ a b, S a → S b →
    ops.consume (l.foldl (fun r x => ops.consume r (bb x)) a) b =
    l.foldl (fun r x => ops.consume r (bb x)) (ops.consume a b) := by
  induction l with
  | nil => intro a b _ _; rfl
  | cons x l ih =>
    intro a b sa sb
    have sx := hl x (by simp)
    rw [List.foldl_cons, List.foldl_cons, ih (fun y hy => hl y (List.mem_cons_of_mem _ hy)) _ _ (hS _ _ sa sx) sb]
    congr 1
    rw [ha _ _ _ sa sx sb, hc (bb x) b sx sb, ← ha _ _ _ sa sb sx]

include hi
theorem fold_absorb {x : HB} {l : List HB} (hl : ∀ x ∈ l, S (bb x)) (hx : x ∈ l) (a : B) (sa : S a) :
    ops.consume (l.foldl (fun r x => ops.consume r (bb x)) a) (bb x) = l.foldl (fun r x => ops.consume r (bb x)) a := by
  induction l generalizing a with
  | nil => simp at hx
  | cons y l ih =>
    rw [List.foldl_cons]
    have hl' : ∀ x ∈ l, S (bb x) := fun y hy => hl y (List.mem_cons_of_mem _ hy)
    rcases List.mem_cons.1 hx with rfl | hx
    · have sx := hl x (by simp)
      rw [fold_right_comm hS hc ha l hl' _ _ (hS _ _ sa sx) sx, ha _ _ _ sa sx sx, hi _ sx]
    · exact ih hl' hx _ (hS _ _ sa (hl y (by simp)))

theorem bbOf_order {l l' : List HB} (h : l.Perm l') (hl : ∀ x ∈ l, S (bb x)) : bbOf ops bb l = bbOf ops bb l' := by
  match l, l' with
  | [], [] => rfl
  | [], _ :: _ => exact absurd h.length_eq (by simp)
  | _ :: _, [] => exact absurd h.length_eq (by simp)
  | d :: ds, d' :: ds' =>
    have hl' : ∀ x ∈ d' :: ds', S (bb x) := fun x hx => hl x (h.mem_iff.2 hx)
    have key : ∀ x ∈ d' :: ds', ∀ y ∈ d' :: ds', (d' :: ds').foldl (fun r x => ops.consume r (bb x)) (bb x) =
        (d' :: ds').foldl (fun r x => ops.consume r (bb x)) (bb y) := by
      intro x hx y hy
      have sx := hl' x hx; have sy := hl' y hy
      rw [← fold_absorb hS hc ha hi hl' hy (bb x) sx, fold_right_comm hS hc ha _ hl' _ _ sx sy, hc (bb x) _ sx sy,
        ← fold_right_comm hS hc ha _ hl' _ _ sy sx, fold_absorb hS hc ha hi hl' hx _ sy]
    show some _ = some _
    congr 1
    rw [key d' (by simp) d (h.mem_iff.1 (by simp))]
    have inv : ∀ (l l' : List HB), l.Perm l' → (∀ x ∈ l, S (bb x)) → ∀ a, S a →
        l.foldl (fun r x => ops.consume r (bb x)) a = l'.foldl (fun r x => ops.consume r (bb x)) a := by
      intro l l' h
      induction h with
      | nil => intro _ a _; rfl
      | cons x _ ih =>
        intro hl a sa
        exact ih (fun y hy => hl y (List.mem_cons_of_mem _ hy)) _ (hS _ _ sa (hl x (by simp)))
      | swap x y l =>
        intro hl a sa
        have sx := hl x (by simp); have sy := hl y (by simp)
        simp only [List.foldl_cons]
        rw [ha _ _ _ sa sy sx, hc _ _ sy sx, ← ha _ _ _ sa sx sy]
      | trans h1 _ ih1 ih2 =>
        intro hl a sa
        rw [ih1 hl a sa, ih2 (fun x hx => hl x (h1.mem_iff.2 hx)) a sa]
    exact inv _ _ h hl _ (hl d (by simp))

theorem newRec_order (bucket : Nat) : ∀ (rem depth : Nat) (l l' : List HB), l.Perm l' → (∀ x ∈ l, S (bb x)) →
    (newRec ops bb bucket rem depth l = none ∧ newRec ops bb bucket rem depth l' = none) ∨
    ∃ t t', newRec ops bb bucket rem depth l = some t ∧ newRec ops bb bucket rem depth l' = some t' ∧ Alike t t' := by
  have leafCase : ∀ l l' : List HB, l.Perm l' → (∀ x ∈ l, S (bb x)) →
      ((do let b ← bbOf ops bb l; return .leaf l b : Panics (AABBTree B HB)) = none ∧
        (do let b ← bbOf ops bb l'; return .leaf l' b : Panics (AABBTree B HB)) = none) ∨
      ∃ t t', (do let b ← bbOf ops bb l; return .leaf l b : Panics (AABBTree B HB)) = some t ∧
        (do let b ← bbOf ops bb l'; return .leaf l' b : Panics (AABBTree B HB)) = some t' ∧ Alike t t' := by
    intro l l' h hl
    rw [← bbOf_order hS hc ha hi h hl]
    cases bbOf ops bb l with
    | none => exact .inl ⟨rfl, rfl⟩
    | some b => exact .inr ⟨_, _, rfl, rfl, .leaf h⟩
  intro rem
  induction rem with
  | zero =>
    intro depth l l' h hl
    match l, l', h, hl with
    | [], l', h, _ => obtain rfl := h.nil_eq; exact .inr ⟨_, _, rfl, rfl, .empty⟩
    | [d], l', h, hl => rw [List.perm_singleton.1 h.symm]; exact leafCase [d] [d] (.refl _) hl
    | d :: e :: l, [], h, _ => exact absurd h.length_eq (by simp)
    | d :: e :: l, [x], h, _ => exact absurd h.length_eq (by simp)
    | d :: e :: l, x :: y :: l', h, hl => exact leafCase _ _ h hl
  | succ rem ih =>
    intro depth l l' h hl
    match l, l', h, hl with
    | [], l', h, _ => obtain rfl := h.nil_eq; exact .inr ⟨_, _, rfl, rfl, .empty⟩
    | [d], l', h, hl => rw [List.perm_singleton.1 h.symm]; exact leafCase [d] [d] (.refl _) hl
    | d :: e :: l, [], h, _ => exact absurd h.length_eq (by simp)
    | d :: e :: l, [x], h, _ => exact absurd h.length_eq (by simp)
    | d :: e :: l, x :: y :: l', h, hS' =>
      have unf : ∀ (d e : HB) (l : List HB), newRec ops bb bucket (rem + 1) depth (d :: e :: l) =
          if (d :: e :: l).length ≤ bucket then (do let b ← bbOf ops bb (d :: e :: l); return .leaf (d :: e :: l) b)
          else (bbOf ops bb (d :: e :: l)).bind fun b =>
            if ((d :: e :: l).filter fun x => ops.isLeftOf depth (bb x) (ops.center b)).length =
                ((d :: e :: l).filter fun x => ops.isRightOf depth (bb x) (ops.center b)).length ∧
              ((d :: e :: l).filter fun x => ops.isLeftOf depth (bb x) (ops.center b)).length = (d :: e :: l).length
            then some (.leaf (d :: e :: l) b)
            else (newRec ops bb bucket rem (depth + 1) ((d :: e :: l).filter fun x => ops.isLeftOf depth (bb x) (ops.center b))).bind fun a =>
              (newRec ops bb bucket rem (depth + 1) ((d :: e :: l).filter fun x => ops.isRightOf depth (bb x) (ops.center b))).bind fun c =>
                some (.branch a c b) := fun d e l => rfl
      rw [unf, unf]
      generalize d :: e :: l = m at h hS' ⊢
      generalize x :: y :: l' = m' at h ⊢
      rw [← h.length_eq]
      split
      · exact leafCase m m' h hS'
      · rw [← bbOf_order hS hc ha hi h hS']
        cases bbOf ops bb m with
        | none => exact .inl ⟨rfl, rfl⟩
        | some b =>
          simp only [Option.bind_some]
          have hl := h.filter fun x => ops.isLeftOf depth (bb x) (ops.center b)
          have hr := h.filter fun x => ops.isRightOf depth (bb x) (ops.center b)
          rw [← hl.length_eq, ← hr.length_eq]
          split
          · exact .inr ⟨_, _, rfl, rfl, .leaf h⟩
          · rcases ih (depth + 1) _ _ hl (fun x hx => hS' x (List.mem_of_mem_filter hx)) with ⟨e1, e2⟩ | ⟨a, a', e1, e2, e3⟩
            · rw [e1, e2]; exact .inl ⟨rfl, rfl⟩
            · rcases ih (depth + 1) _ _ hr (fun x hx => hS' x (List.mem_of_mem_filter hx)) with ⟨f1, f2⟩ | ⟨c, c', f1, f2, f3⟩
              · rw [e1, e2, f1, f2]; exact .inl ⟨rfl, rfl⟩
              · rw [e1, e2, f1, f2]; exact .inr ⟨_, _, rfl, rfl, .branch e3 f3⟩

end

theorem visitData_order {test : B → Panics Bool} {l l' : List HB} (h : l.Perm l') :
    SameElems (visitData bb test l) (visitData bb test l') := by
  induction h with
  | nil => exact .inr ⟨[], [], rfl, rfl, .refl _⟩
  | @cons x l l' _ ih =>
    simp only [visitData]
    cases test (bb x) with
    | none => exact .inl ⟨rfl, rfl⟩
    | some t =>
      rcases ih with ⟨h1, h2⟩ | ⟨r, s, h1, h2, h3⟩
      · rw [h1, h2]; exact .inl ⟨rfl, rfl⟩
      · rw [h1, h2]
        cases t
        · exact .inr ⟨_, _, rfl, rfl, h3⟩
        · exact .inr ⟨_, _, rfl, rfl, h3.cons x⟩
  | swap x y l =>
    simp only [visitData]
    cases test (bb x) with
    | none =>
      cases test (bb y) <;> exact .inl ⟨rfl, rfl⟩
    | some t =>
      cases test (bb y) with
      | none => exact .inl ⟨rfl, rfl⟩
      | some u =>
        cases visitData bb test l with
        | none => exact .inl ⟨rfl, rfl⟩
        | some r =>
          cases t <;> cases u
          · exact .inr ⟨_, _, rfl, rfl, .refl _⟩
          · exact .inr ⟨_, _, rfl, rfl, .refl _⟩
          · exact .inr ⟨_, _, rfl, rfl, .refl _⟩
          · exact .inr ⟨_, _, rfl, rfl, .swap ..⟩
  | trans _ _ ih1 ih2 =>
    rcases ih1 with ⟨h1, h2⟩ | ⟨r, s, h1, h2, h3⟩
    · rcases ih2 with ⟨g1, g2⟩ | ⟨r', s', g1, g2, g3⟩
      · exact .inl ⟨h1, g2⟩
      · rw [h2] at g1; simp at g1
    · rcases ih2 with ⟨g1, g2⟩ | ⟨r', s', g1, g2, g3⟩
      · rw [h2] at g1; simp at g1
      · rw [h2] at g1
        cases g1
        exact .inr ⟨_, _, h1, g2, h3.trans g3⟩

theorem visit_order {test : B → Panics Bool} {t t' : AABBTree B HB} (h : Alike t t') :
    SameElems (t.visit bb test) (t'.visit bb test) := by
  induction h with
  | empty => exact .inr ⟨[], [], rfl, rfl, .refl _⟩
  | @leaf l l' b h =>
    simp only [visit]
    cases test b with
    | none => exact .inl ⟨rfl, rfl⟩
    | some v =>
      cases v
      · exact .inr ⟨[], [], rfl, rfl, .refl _⟩
      · exact visitData_order h
  | @branch l l' r r' b _ _ hl hr =>
    simp only [visit]
    cases test b with
    | none => exact .inl ⟨rfl, rfl⟩
    | some v =>
      cases v
      · exact .inr ⟨[], [], rfl, rfl, .refl _⟩
      · rcases hl with ⟨h1, h2⟩ | ⟨a, a', h1, h2, h3⟩
        · rw [h1, h2]; exact .inl ⟨rfl, rfl⟩
        · rcases hr with ⟨g1, g2⟩ | ⟨c, c', g1, g2, g3⟩
          · rw [h1, h2, g1, g2]; exact .inl ⟨rfl, rfl⟩
          · rw [h1, h2, g1, g2]; exact .inr ⟨_, _, rfl, rfl, h3.append g3⟩

theorem any_order {f : HB → Bool} {t t' : AABBTree B HB} (h : Alike t t') : t.any f = t'.any f := by
  induction h with
  | empty => rfl
  | leaf h => simp only [any, h.any_eq]
  | branch _ _ hl hr => simp only [any, hl, hr]

end AABBTree

theorem consume_semilattice2 (a b c : BoundingBox2D ℝ) : a.consume b = b.consume a ∧
    (a.consume b).consume c = a.consume (b.consume c) ∧ a.consume a = a := by
  have mn : ∀ x y : ℝ, (if (y <. x) = true then y else x) = min x y := fun x y => by
    simp only [Real.scalar_lt, decide_eq_true_eq]; split <;> [rw [min_eq_right (by linarith)]; rw [min_eq_left (by linarith)]]
  have mx : ∀ x y : ℝ, (if (y >. x) = true then y else x) = max x y := fun x y => by
    simp only [Real.scalar_lt, decide_eq_true_eq]; split <;> [rw [max_eq_right (by linarith)]; rw [max_eq_left (by linarith)]]
  simp only [BoundingBox2D.consume, mn, mx]
  refine ⟨?_, ?_, ?_⟩
  · simp only [min_comm, max_comm]
  · simp only [min_assoc, max_assoc]
  · simp only [min_self]

theorem consume_semilattice3 (a b c : BoundingBox3D ℝ) : a.consume b = b.consume a ∧
    (a.consume b).consume c = a.consume (b.consume c) ∧ a.consume a = a := by
  have mn : ∀ x y : ℝ, (if (y <. x) = true then y else x) = min x y := fun x y => by
    simp only [Real.scalar_lt, decide_eq_true_eq]; split <;> [rw [min_eq_right (by linarith)]; rw [min_eq_left (by linarith)]]
  have mx : ∀ x y : ℝ, (if (y >. x) = true then y else x) = max x y := fun x y => by
    simp only [Real.scalar_lt, decide_eq_true_eq]; split <;> [rw [max_eq_right (by linarith)]; rw [max_eq_left (by linarith)]]
  simp only [BoundingBox3D.consume, mn, mx]
  refine ⟨?_, ?_, ?_⟩
  · simp only [min_comm, max_comm]
  · simp only [min_assoc, max_assoc]
  · simp only [min_self]

theorem Spec.SameElems.prepend {β : Type} {a b : Panics (List β)} (h : SameElems a b) (res : List β) :
    SameElems (a.map (res ++ ·)) (b.map (res ++ ·)) := by
  rcases h with ⟨rfl, rfl⟩ | ⟨r, s, rfl, rfl, h⟩
  · exact .inl ⟨rfl, rfl⟩
  · exact .inr ⟨_, _, rfl, rfl, h.append_left res⟩

/-- C124, exact arithmetic: the order of the elements a 2D tree is built from does not change what its queries
report, how often an element is reported included -/
theorem c124_box_tree_2d {HB : Type} (bb : HB → BoundingBox2D ℝ) (data data' : List HB) (h : data.Perm data') (maxdepth bucket : Nat)
    (hV : ∀ x ∈ data, (box2 (bb x)).Valid) :
    ∃ t t', AABBTree2D.new bb data maxdepth bucket = some t ∧ AABBTree2D.new bb data' maxdepth bucket = some t' ∧
      (∀ f, t.any f = t'.any f) ∧
      (∀ q, SameElems (AABBTree2D.forEachCollisionCandidate bb t q) (AABBTree2D.forEachCollisionCandidate bb t' q)) ∧
      ∀ (q : BoundingBox2D ℝ) (v : ℝ) (res : List HB),
        SameElems (AABBTree2D.bbColliding bb t q res) (AABBTree2D.bbColliding bb t' q res) ∧
        SameElems (AABBTree2D.bbCrossingXValue bb t v res) (AABBTree2D.bbCrossingXValue bb t' v res) ∧
        SameElems (AABBTree2D.bbCrossingYValue bb t v res) (AABBTree2D.bbCrossingYValue bb t' v res) := by
  obtain ⟨t, ht, -⟩ := c22_collision bb data maxdepth bucket hV
  rcases AABBTree.newRec_order (ops := boxOps2) (bb := bb) (S := fun _ => True) (fun _ _ _ _ => trivial) (fun a b _ _ => (consume_semilattice2 a b a).1)
    (fun a b c _ _ _ => (consume_semilattice2 a b c).2.1) (fun a _ => (consume_semilattice2 a a a).2.2) bucket maxdepth 0 data data' h
    (fun _ _ => trivial) with
    ⟨h1, -⟩ | ⟨t1, t', h1, h2, h3⟩
  · rw [show AABBTree2D.new bb data maxdepth bucket = none from h1] at ht
    simp at ht
  · exact ⟨t1, t', h1, h2, fun f => AABBTree.any_order h3, fun q => AABBTree.visit_order h3,
      fun q v res => ⟨SameElems.prepend (AABBTree.visit_order h3) res, SameElems.prepend (AABBTree.visit_order h3) res,
        SameElems.prepend (AABBTree.visit_order h3) res⟩⟩

/-- C124, exact arithmetic: the order of the elements a 3D tree is built from does not change what its queries
report, how often an element is reported included -/
theorem c124_box_tree_3d {HB : Type} (bb : HB → BoundingBox3D ℝ) (data data' : List HB) (h : data.Perm data') (maxdepth bucket : Nat)
    (hV : ∀ x ∈ data, (box3 (bb x)).Valid) :
    ∃ t t', AABBTree3D.new bb data maxdepth bucket = some t ∧ AABBTree3D.new bb data' maxdepth bucket = some t' ∧
      (∀ f, t.any f = t'.any f) ∧
      (∀ q, SameElems (AABBTree3D.forEachCollisionCandidate bb t q) (AABBTree3D.forEachCollisionCandidate bb t' q)) ∧
      (∀ a d, SameElems (AABBTree3D.forEachIntersectionCandidate bb t a d) (AABBTree3D.forEachIntersectionCandidate bb t' a d)) ∧
      ∀ (q : BoundingBox3D ℝ) (v : ℝ) (res : List HB),
        SameElems (AABBTree3D.bbColliding bb t q res) (AABBTree3D.bbColliding bb t' q res) ∧
        SameElems (AABBTree3D.bbCrossingXValue bb t v res) (AABBTree3D.bbCrossingXValue bb t' v res) ∧
        SameElems (AABBTree3D.bbCrossingYValue bb t v res) (AABBTree3D.bbCrossingYValue bb t' v res) ∧
        SameElems (AABBTree3D.bbCrossingZValue bb t v res) (AABBTree3D.bbCrossingZValue bb t' v res) := by
  obtain ⟨t, ht, -⟩ := c23_collision bb data maxdepth bucket hV
  rcases AABBTree.newRec_order (ops := boxOps3) (bb := bb) (S := fun _ => True) (fun _ _ _ _ => trivial) (fun a b _ _ => (consume_semilattice3 a b a).1)
    (fun a b c _ _ _ => (consume_semilattice3 a b c).2.1) (fun a _ => (consume_semilattice3 a a a).2.2) bucket maxdepth 0 data data' h
    (fun _ _ => trivial) with
    ⟨h1, -⟩ | ⟨t1, t', h1, h2, h3⟩
  · rw [show AABBTree3D.new bb data maxdepth bucket = none from h1] at ht
    simp at ht
  · exact ⟨t1, t', h1, h2, fun f => AABBTree.any_order h3, fun q => AABBTree.visit_order h3, fun a d => AABBTree.visit_order h3,
      fun q v res => ⟨SameElems.prepend (AABBTree.visit_order h3) res, SameElems.prepend (AABBTree.visit_order h3) res,
        SameElems.prepend (AABBTree.visit_order h3) res, SameElems.prepend (AABBTree.visit_order h3) res⟩⟩

theorem plain_mn {a b : F64} (ha : Plain a) (hb : Plain b) : Plain (mn a b) ∧ Plain (mx a b) := by
  constructor
  · rcases mn_mem a b with e | e <;> rw [e] <;> assumption
  · rcases mx_mem a b with e | e <;> rw [e] <;> assumption

theorem plain_lattice {a b c : F64} (ha : Plain a) (hb : Plain b) (hc : Plain c) : (mn a b = mn b a ∧ mx a b = mx b a) ∧
    mn (mn a b) c = mn a (mn b c) ∧ mx (mx a b) c = mx a (mx b c) := by
  have pm : ∀ {a b : F64}, Plain a → Plain b → Plain (mn a b) := fun ha hb => (plain_mn ha hb).1
  have px : ∀ {a b : F64}, Plain a → Plain b → Plain (mx a b) := fun ha hb => (plain_mn ha hb).2
  have kn : ∀ {a b : F64}, Plain a → Plain b → key (mn a b) = min (key a) (key b) := fun ha hb => key_mn ha.1.ok hb.1.ok
  have kx : ∀ {a b : F64}, Plain a → Plain b → key (mx a b) = max (key a) (key b) := fun ha hb => key_mx ha.1.ok hb.1.ok
  refine ⟨⟨plain_inj (pm ha hb) (pm hb ha) ?_, plain_inj (px ha hb) (px hb ha) ?_⟩,
    plain_inj (pm (pm ha hb) hc) (pm ha (pm hb hc)) ?_, plain_inj (px (px ha hb) hc) (px ha (px hb hc)) ?_⟩
  · rw [kn ha hb, kn hb ha, min_comm]
  · rw [kx ha hb, kx hb ha, max_comm]
  · rw [kn (pm ha hb) hc, kn ha hb, kn ha (pm hb hc), kn hb hc, min_assoc]
  · rw [kx (px ha hb) hc, kx ha hb, kx ha (px hb hc), kx hb hc, max_assoc]

/-- a box whose corners are finite doubles other than the negative zero -/
def Spec.PlainBox2 (b : BoundingBox2D F64) : Prop := (Plain b.min.x ∧ Plain b.min.y) ∧ Plain b.max.x ∧ Plain b.max.y
/-- see `PlainBox2` -/
def Spec.PlainBox3 (b : BoundingBox3D F64) : Prop :=
  (Plain b.min.x ∧ Plain b.min.y ∧ Plain b.min.z) ∧ Plain b.max.x ∧ Plain b.max.y ∧ Plain b.max.z

/-- C124, doubles: as `c124_box_tree_2d`, collisions missed by rounding included (they are the same in every order) -/
theorem c124_box_tree_2d_f64 {HB : Type} (bb : HB → BoundingBox2D F64) (data data' : List HB) (h : data.Perm data') (maxdepth bucket : Nat)
    (hV : ∀ x ∈ data, (box2 (bb x)).Valid) (hP : ∀ x ∈ data, PlainBox2 (bb x)) :
    ∃ t t', AABBTree2D.new bb data maxdepth bucket = some t ∧ AABBTree2D.new bb data' maxdepth bucket = some t' ∧
      (∀ f, t.any f = t'.any f) ∧
      (∀ q, SameElems (AABBTree2D.forEachCollisionCandidate bb t q) (AABBTree2D.forEachCollisionCandidate bb t' q)) ∧
      ∀ (q : BoundingBox2D F64) (v : F64) (res : List HB),
        SameElems (AABBTree2D.bbColliding bb t q res) (AABBTree2D.bbColliding bb t' q res) ∧
        SameElems (AABBTree2D.bbCrossingXValue bb t v res) (AABBTree2D.bbCrossingXValue bb t' v res) ∧
        SameElems (AABBTree2D.bbCrossingYValue bb t v res) (AABBTree2D.bbCrossingYValue bb t' v res) := by
  obtain ⟨t, ht, -⟩ := c22_any_crossing bb data maxdepth bucket (fun x hx => ⟨hV x hx, Fin.forall_fin_two.2
    ⟨⟨(hP x hx).1.1.1.1, (hP x hx).2.1.1.1⟩, (hP x hx).1.2.1.1, (hP x hx).2.2.1.1⟩⟩)
  rcases AABBTree.newRec_order (ops := boxOps2) (bb := bb) (S := PlainBox2)
    (fun a b ha hb => ⟨⟨(plain_mn ha.1.1 hb.1.1).1, (plain_mn ha.1.2 hb.1.2).1⟩, (plain_mn ha.2.1 hb.2.1).2, (plain_mn ha.2.2 hb.2.2).2⟩)
    (fun a b ha hb => by
      show a.combine b = b.combine a
      simp only [BoundingBox2D.combine_eq]
      rw [(plain_lattice ha.1.1 hb.1.1 ha.1.1).1.1, (plain_lattice ha.1.2 hb.1.2 ha.1.1).1.1,
        (plain_lattice ha.2.1 hb.2.1 ha.1.1).1.2, (plain_lattice ha.2.2 hb.2.2 ha.1.1).1.2])
    (fun a b c ha hb hc => by
      show (a.combine b).combine c = a.combine (b.combine c)
      simp only [BoundingBox2D.combine_eq]
      rw [(plain_lattice ha.1.1 hb.1.1 hc.1.1).2.1, (plain_lattice ha.1.2 hb.1.2 hc.1.2).2.1,
        (plain_lattice ha.2.1 hb.2.1 hc.2.1).2.2, (plain_lattice ha.2.2 hb.2.2 hc.2.2).2.2])
    (fun a _ => by
      show a.combine a = a
      simp only [BoundingBox2D.combine_eq, mn_self, mx_self]) bucket maxdepth 0 data data' h hP with
    ⟨h1, -⟩ | ⟨t1, t', h1, h2, h3⟩
  · rw [show AABBTree2D.new bb data maxdepth bucket = none from h1] at ht
    simp at ht
  · exact ⟨t1, t', h1, h2, fun f => AABBTree.any_order h3, fun q => AABBTree.visit_order h3,
      fun q v res => ⟨SameElems.prepend (AABBTree.visit_order h3) res, SameElems.prepend (AABBTree.visit_order h3) res,
        SameElems.prepend (AABBTree.visit_order h3) res⟩⟩

/-- C124, doubles: as `c124_box_tree_3d`, collisions missed by rounding included (they are the same in every order) -/
theorem c124_box_tree_3d_f64 {HB : Type} (bb : HB → BoundingBox3D F64) (data data' : List HB) (h : data.Perm data') (maxdepth bucket : Nat)
    (hV : ∀ x ∈ data, (box3 (bb x)).Valid) (hP : ∀ x ∈ data, PlainBox3 (bb x)) :
    ∃ t t', AABBTree3D.new bb data maxdepth bucket = some t ∧ AABBTree3D.new bb data' maxdepth bucket = some t' ∧
      (∀ f, t.any f = t'.any f) ∧
      (∀ q, SameElems (AABBTree3D.forEachCollisionCandidate bb t q) (AABBTree3D.forEachCollisionCandidate bb t' q)) ∧
      (∀ a d, SameElems (AABBTree3D.forEachIntersectionCandidate bb t a d) (AABBTree3D.forEachIntersectionCandidate bb t' a d)) ∧
      ∀ (q : BoundingBox3D F64) (v : F64) (res : List HB),
        SameElems (AABBTree3D.bbColliding bb t q res) (AABBTree3D.bbColliding bb t' q res) ∧
        SameElems (AABBTree3D.bbCrossingXValue bb t v res) (AABBTree3D.bbCrossingXValue bb t' v res) ∧
        SameElems (AABBTree3D.bbCrossingYValue bb t v res) (AABBTree3D.bbCrossingYValue bb t' v res) ∧
        SameElems (AABBTree3D.bbCrossingZValue bb t v res) (AABBTree3D.bbCrossingZValue bb t' v res) := by
  obtain ⟨t, ht, -⟩ := c23_any_crossing bb data maxdepth bucket (fun x hx => ⟨hV x hx, forall_fin3.2
    ⟨⟨(hP x hx).1.1.1.1, (hP x hx).2.1.1.1⟩, ⟨(hP x hx).1.2.1.1.1, (hP x hx).2.2.1.1.1⟩, (hP x hx).1.2.2.1.1, (hP x hx).2.2.2.1.1⟩⟩)
  rcases AABBTree.newRec_order (ops := boxOps3) (bb := bb) (S := PlainBox3)
    (fun a b ha hb => ⟨⟨(plain_mn ha.1.1 hb.1.1).1, (plain_mn ha.1.2.1 hb.1.2.1).1, (plain_mn ha.1.2.2 hb.1.2.2).1⟩,
      (plain_mn ha.2.1 hb.2.1).2, (plain_mn ha.2.2.1 hb.2.2.1).2, (plain_mn ha.2.2.2 hb.2.2.2).2⟩)
    (fun a b ha hb => by
      show a.combine b = b.combine a
      simp only [BoundingBox3D.combine_eq]
      rw [(plain_lattice ha.1.1 hb.1.1 ha.1.1).1.1, (plain_lattice ha.1.2.1 hb.1.2.1 ha.1.1).1.1, (plain_lattice ha.1.2.2 hb.1.2.2 ha.1.1).1.1,
        (plain_lattice ha.2.1 hb.2.1 ha.1.1).1.2, (plain_lattice ha.2.2.1 hb.2.2.1 ha.1.1).1.2, (plain_lattice ha.2.2.2 hb.2.2.2 ha.1.1).1.2])
    (fun a b c ha hb hc => by
      show (a.combine b).combine c = a.combine (b.combine c)
      simp only [BoundingBox3D.combine_eq]
      rw [(plain_lattice ha.1.1 hb.1.1 hc.1.1).2.1, (plain_lattice ha.1.2.1 hb.1.2.1 hc.1.2.1).2.1, (plain_lattice ha.1.2.2 hb.1.2.2 hc.1.2.2).2.1,
        (plain_lattice ha.2.1 hb.2.1 hc.2.1).2.2, (plain_lattice ha.2.2.1 hb.2.2.1 hc.2.2.1).2.2, (plain_lattice ha.2.2.2 hb.2.2.2 hc.2.2.2).2.2])
    (fun a _ => by
      show a.combine a = a
      simp only [BoundingBox3D.combine_eq, mn_self, mx_self]) bucket maxdepth 0 data data' h hP with
    ⟨h1, -⟩ | ⟨t1, t', h1, h2, h3⟩
  · rw [show AABBTree3D.new bb data maxdepth bucket = none from h1] at ht
    simp at ht
  · exact ⟨t1, t', h1, h2, fun f => AABBTree.any_order h3, fun q => AABBTree.visit_order h3, fun a d => AABBTree.visit_order h3,
      fun q v res => ⟨SameElems.prepend (AABBTree.visit_order h3) res, SameElems.prepend (AABBTree.visit_order h3) res,
        SameElems.prepend (AABBTree.visit_order h3) res, SameElems.prepend (AABBTree.visit_order h3) res⟩⟩

/-- small whole numbers are such coordinates -/
example : Plain (F64.ofRat 3) ∧ Plain (F64.ofRat 0) := by
  refine ⟨⟨⟨⟨false, 3, by decide +kernel⟩, F64.ofRat_rep _⟩, by decide +kernel⟩, ⟨⟨false, 0, by decide +kernel⟩, F64.ofRat_rep _⟩, by decide +kernel⟩

example : ∃ l l' : List (BoundingBox2D ℝ), l.Perm l' ∧ l ≠ l' ∧ ∀ b ∈ l, (box2 b).Valid :=
  ⟨[⟨⟨0, 0⟩, ⟨10, 10⟩⟩, ⟨⟨0, 0⟩, ⟨1, 1⟩⟩], [⟨⟨0, 0⟩, ⟨1, 1⟩⟩, ⟨⟨0, 0⟩, ⟨10, 10⟩⟩], List.Perm.swap .., by simp, by simp [valid_real_2d]⟩

/-! ### the k-d tree -/

/-- C124, doubles: the k-d trees of the same points given in two orders find points of the same computed distance -/
theorem c124_nearest_f64 {P : Type} (pos : P → Point3D F64) (pts pts' : List P) (h : pts.Perm pts') (t t' : KdTree P)
    (ht : KdTree.Built pos pts t) (ht' : KdTree.Built pos pts' t') (hnum : ∀ x ∈ pts, (pos x).Num) (q : Point3D F64) (hq : q.Num) :
    ∃ b b', t.nearest pos q = some (some b) ∧ t'.nearest pos q = some (some b') ∧
      (q.dist (pos b) ==. q.dist (pos b')) = true := by
  obtain ⟨b, hb, h1, h2⟩ := KdTree.c25_nearest_f64 pos pts t ht hnum q hq
  obtain ⟨b', hb', h1', h2'⟩ := KdTree.c25_nearest_f64 pos pts' t' ht' (fun x hx => hnum x (h.mem_iff.2 hx)) q hq
  refine ⟨b, b', h1, h1', ?_⟩
  have e1 := (le_iff _ _).1 (h2 b' (h.mem_iff.2 hb'))
  have e2 := (le_iff _ _).1 (h2' b (h.mem_iff.1 hb))
  exact (eq_iff _ _).2 ⟨e1.1, e1.2.1, le_antisymm e1.2.2 e2.2.2⟩

/-- C124, exact arithmetic: the range queries of a k-d tree and the outlier filter over it do not depend on the
order of the points -/
theorem c124_range {P : Type} (pos : P → Point3D ℝ) (pts pts' : List P) (h : pts.Perm pts') (t t' : KdTree P)
    (ht : KdTree.Built pos pts t) (ht' : KdTree.Built pos pts' t') :
    (∀ (s : Sphere ℝ), 0 < s.radius.val → ∀ res, (t.inSphere pos s res).Perm (t'.inSphere pos s res)) ∧
    (∀ (b : Box3D ℝ) (res : List P), (t.inBox pos b res).Perm (t'.inBox pos b res)) ∧
    ∀ (d : Positive ℝ) (n : Nat) (p : Point3D ℝ), 0 < d.val → filterOutlier3D pos t d n p = filterOutlier3D pos t' d n p := by
  classical
  have hs : ∀ (s : Sphere ℝ), 0 < s.radius.val → ∀ res, (t.inSphere pos s res).Perm (t'.inSphere pos s res) := by
    intro s hs res
    obtain ⟨r, e, hr⟩ := KdTree.c27_in_sphere pos pts t ht s hs res
    obtain ⟨r', e', hr'⟩ := KdTree.c27_in_sphere pos pts' t' ht' s hs res
    rw [e, e']
    have hp := hr (fun x => decide (Spec.sqrDist (at3 s.center) (at3 (pos x)) ≤ s.radius.val ^ 2)) (fun x => decide_eq_true_iff)
    have hp' := hr' (fun x => decide (Spec.sqrDist (at3 s.center) (at3 (pos x)) ≤ s.radius.val ^ 2)) (fun x => decide_eq_true_iff)
    exact (hp.trans ((h.filter _).trans hp'.symm)).append_left res
  refine ⟨hs, fun b res => ?_, fun d n p hd => ?_⟩
  · obtain ⟨r, e, hr⟩ := KdTree.c27_in_box pos pts t ht b res
    obtain ⟨r', e', hr'⟩ := KdTree.c27_in_box pos pts' t' ht' b res
    rw [e, e']
    have hp := hr (fun x => decide (∀ d : Fin 3, at3 b.center d - ![b.sizeX.val, b.sizeY.val, b.sizeZ.val] d / 2 ≤ at3 (pos x) d ∧
        at3 (pos x) d ≤ at3 b.center d + ![b.sizeX.val, b.sizeY.val, b.sizeZ.val] d / 2)) (fun x => decide_eq_true_iff)
    have hp' := hr' (fun x => decide (∀ d : Fin 3, at3 b.center d - ![b.sizeX.val, b.sizeY.val, b.sizeZ.val] d / 2 ≤ at3 (pos x) d ∧
        at3 (pos x) d ≤ at3 b.center d + ![b.sizeX.val, b.sizeY.val, b.sizeZ.val] d / 2)) (fun x => decide_eq_true_iff)
    exact (hp.trans ((h.filter _).trans hp'.symm)).append_left res
  · rw [filterOutlier3D, filterOutlier3D, (hs ⟨p, d⟩ hd []).length_eq]

example : ∃ (l l' : List (Point3D F64)) (t t' : KdTree (Point3D F64)), l.Perm l' ∧ l ≠ l' ∧ KdTree.Built id l t ∧ KdTree.Built id l' t' ∧
    ∀ p ∈ l, p.Num :=
  ⟨[KdTree.w26 1 0, KdTree.w26 1 1], [KdTree.w26 1 1, KdTree.w26 1 0], _, _, List.Perm.swap .., by decide +kernel, rfl, rfl, by
    have n1 : F64.Num (F64.ofRat ((1 : Nat) : ℚ)) := ⟨⟨false, 1, by decide +kernel⟩, F64.ofRat_rep _⟩
    have n0 : F64.Num (F64.ofRat ((0 : Nat) : ℚ)) := ⟨⟨false, 0, by decide +kernel⟩, F64.ofRat_rep _⟩
    have z : F64.Num (F64.ofRat 0) := ⟨⟨false, 0, by decide +kernel⟩, F64.ofRat_rep _⟩
    simp only [List.mem_cons, List.not_mem_nil, or_false]
    rintro p (rfl | rfl)
    · exact ⟨n1, n0, z⟩
    · exact ⟨n1, n1, z⟩⟩

/-! ### sums -/

/-- C124, exact arithmetic: the center of gravity does not depend on the order of the points -/
theorem c124_center (l l' : List (Point2D ℝ)) (h : l.Perm l') (m m' : List (Point3D ℝ)) (hm : m.Perm m') :
    PointCloud2D.centerOfGravity ⟨l⟩ = PointCloud2D.centerOfGravity ⟨l'⟩ ∧
    PointCloud3D.centerOfGravity ⟨m⟩ = PointCloud3D.centerOfGravity ⟨m'⟩ := by
  constructor
  · simp only [PointCloud2D.centerOfGravity, PointCloud.len]
    rw [h.length_eq, h.foldl_eq' (fun x _ y _ z => by simp only [add_right_comm])]
  · simp only [PointCloud3D.centerOfGravity, PointCloud.len]
    rw [hm.length_eq, hm.foldl_eq' (fun x _ y _ z => by simp only [add_right_comm])]

/-- C124 violated: the center of gravity of doubles depends on the order, `(2^53 + 1) + 1 = 2^53` but
`(1 + 1) + 2^53 = 2^53 + 2` -/
theorem c124_violated_center : ∃ l l' : List (Point2D F64), l.Perm l' ∧ ∃ c c', PointCloud2D.centerOfGravity ⟨l⟩ = some c ∧
    PointCloud2D.centerOfGravity ⟨l'⟩ = some c' ∧ (c.x <. c'.x) = true := by
  let l : List (Point2D F64) := [⟨f (2 ^ 53), f 0⟩, ⟨f 1, f 0⟩, ⟨f 1, f 0⟩, ⟨f 0, f 0⟩]
  exact ⟨l, l.reverse, (List.reverse_perm l).symm, ⟨f (2 ^ 51), f 0⟩, ⟨f (2 ^ 51 + 1 / 2), f 0⟩, by decide +kernel,
    by decide +kernel, by decide +kernel⟩

/-! ### the convex hull -/

/-- C124 (partial): points that differ in x have the same hull in whatever order they are given. Missing: points
above each other, see `c124_violated_hull`. -/
theorem c124_hull_partial {α : Type} [Scalar α] [LawfulScalar α] (l l' : List (Point2D α)) (h : l.Perm l')
    (hok : ∀ p ∈ l, ok p.x) (hx : ∀ p ∈ l, ∀ q ∈ l, key p.x = key q.x → p = q) :
    sortVec2DX l = sortVec2DX l' ∧ convexHull2D l = convexHull2D l' := by
  have hs : sortVec2DX l = sortVec2DX l' := by
    obtain ⟨p1, s1, -⟩ := sort_spec (fun p : Point2D α => p.x) (fun a b => [partialCmp a.y b.y]) l
    obtain ⟨p2, s2, -⟩ := sort_spec (fun p : Point2D α => p.x) (fun a b => [partialCmp a.y b.y]) l'
    refine List.Perm.eq_of_pairwise (le := fun a b : Point2D α => (a.x <=. b.x) = true) ?_ (s1 hok) (s2 fun p hp => hok p (h.mem_iff.2 hp)) (p1.trans (h.trans p2.symm))
    intro a b ha hb hab hba
    exact hx a (p1.mem_iff.1 ha) b (h.mem_iff.2 (p2.mem_iff.1 hb)) (le_antisymm ((le_iff _ _).1 hab).2.2 ((le_iff _ _).1 hba).2.2)
  exact ⟨hs, by unfold convexHull2D; rw [hs]⟩

example : ∃ l l' : List (Point2D ℝ), l.Perm l' ∧ l ≠ l' ∧ ∀ p ∈ l, ∀ q ∈ l, key p.x = key q.x → p = q :=
  ⟨[⟨0, 0⟩, ⟨1, 1⟩], [⟨1, 1⟩, ⟨0, 0⟩], List.Perm.swap .., by simp, by
    intro p hp q hq h
    simp only [Real.key_eq] at h
    simp only [List.mem_cons, List.not_mem_nil, or_false] at hp hq
    rcases hp with rfl | rfl <;> rcases hq with rfl | rfl <;> simp_all⟩

/-- C124 violated: a corner of the hull is lost in one order of the same points and found in the other -/
theorem c124_violated_hull : ∃ (l l' : List (Point2D F64)) (p : Point2D F64), l.Perm l' ∧ p ∈ convexHull2D l ∧ p ∉ convexHull2D l' :=
  ⟨[⟨f 0, f 0⟩, ⟨f 0, f 1⟩, ⟨f 0, f 2⟩, ⟨f 1, f 0⟩], [⟨f 0, f 1⟩, ⟨f 0, f 0⟩, ⟨f 0, f 2⟩, ⟨f 1, f 0⟩], ⟨f 0, f 0⟩, List.Perm.swap .., by
    decide +kernel, by decide +kernel⟩

/-- C124 violated: which points `knearest` reports depends on the order of the points. The distances of (1,0,0), (1,1,0)
and (0,0,0) to the origin are all different, still the two nearest are found in one order and not in the other. -/
theorem c124_violated_knearest : ∃ (a b c : Point3D F64) (t t' : KdTree (Point3D F64)),
    (c.sqrDist c <. c.sqrDist a) = true ∧ (c.sqrDist a <. c.sqrDist b) = true ∧
    KdTree.Built id [a, b, c] t ∧ KdTree.Built id [b, a, c] t' ∧
    ∃ r r', t.knearest id c 2 [] = some r ∧ t'.knearest id c 2 [] = some r' ∧ ¬ (b ∈ r ↔ b ∈ r') :=
  ⟨KdTree.w26 1 0, KdTree.w26 1 1, KdTree.w26 0 0, _, _, by decide +kernel, by decide +kernel, rfl, rfl,
    ((KdTree.newNode id 3 0 [KdTree.w26 1 0, KdTree.w26 1 1, KdTree.w26 0 0]).knearest id (KdTree.w26 0 0) 2 []).get (by decide +kernel),
    ((KdTree.newNode id 3 0 [KdTree.w26 1 1, KdTree.w26 1 0, KdTree.w26 0 0]).knearest id (KdTree.w26 0 0) 2 []).get (by decide +kernel),
    (Option.some_get _).symm, (Option.some_get _).symm, by decide +kernel⟩

end R3D

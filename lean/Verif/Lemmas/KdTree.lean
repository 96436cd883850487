import Verif.Model.KdTree
import Verif.Lemmas.Sort
import Verif.Lemmas.Scalar
import Mathlib.Data.List.Perm.Subperm
import Mathlib.Tactic.Linarith
namespace R3D
open Scalar
namespace KdTree
variable {P : Type}

section
variable {α : Type} [Scalar α]

theorem size_eq (t : KdTree P) : t.size = t.toPointcloud.length := by
  induction t with
  | nil => rfl
  | node l r v d hl hr => simp [size, toPointcloud, hl, hr]; omega

theorem split_median {l : List P} {k : Nat} {v : P} (h : l[k]? = some v) :
    l = l.take k ++ [v] ++ l.drop (k + 1) := by
  obtain ⟨hk, rfl⟩ := List.getElem?_eq_some_iff.1 h
  simp

theorem newNode_perm (pos : P → Point3D α) : ∀ (fuel dim : Nat) (pc : List P), pc.length ≤ fuel →
    (newNode pos fuel dim pc).toPointcloud.Perm pc := by
  intro fuel
  induction fuel with
  | zero => intro dim pc h; rw [List.length_eq_zero_iff.1 (Nat.le_zero.1 h)]; exact .refl _
  | succ fuel ih =>
    intro dim pc h
    match pc with
    | [] => exact .refl _
    | [p] => exact .refl _
    | p :: q :: r =>
      simp only [newNode]
      have hl : (stableSort (leDim pos (dim % 2)) (p :: q :: r)).length = r.length + 2 := by simp
      have hm : (stableSort (leDim pos (dim % 2)) (p :: q :: r)).length / 2 <
        (stableSort (leDim pos (dim % 2)) (p :: q :: r)).length := by omega
      rw [List.getElem?_eq_getElem hm]
      simp only [toPointcloud]
      refine List.Perm.trans ?_ (stableSort_perm (le := leDim pos (dim % 2)) (p :: q :: r))
      conv_rhs => rw [split_median (List.getElem?_eq_getElem hm)]
      refine List.Perm.append (List.Perm.append (ih _ _ ?_) (.refl _)) (ih _ _ ?_)
      · simp at h ⊢; omega
      · simp at h ⊢; omega

end

/-! ### order of the tree, exact arithmetic -/

/-- every node separates its subtrees along its dimension -/
def Ordered (pos : P → Point3D ℝ) : KdTree P → Prop
  | nil => True
  | node l r v d => (d = 0 ∨ d = 1) ∧
      (∀ x ∈ l.toPointcloud, coordOf d (pos x) ≤ coordOf d (pos v)) ∧
      (∀ x ∈ r.toPointcloud, coordOf d (pos v) ≤ coordOf d (pos x)) ∧ l.Ordered pos ∧ r.Ordered pos

theorem partialCmp_real (a b : ℝ) : partialCmp a b = some (cmp a b) := by
  simp only [partialCmp, Real.scalar_lt, Real.scalar_eq, decide_eq_true_eq, cmp, cmpUsing, gt_iff_lt]
  rcases lt_trichotomy a b with h | h | h
  · simp [h]
  · simp [h]
  · simp [h, h.ne', not_lt.2 h.le]

theorem le_real (a b : ℝ) : ((partialCmp a b).getD .eq != .gt) = true ↔ a ≤ b := by
  rw [partialCmp_real]
  simp [cmp_eq_gt_iff]

theorem leDim_real (pos : P → Point3D ℝ) (d : Nat) (hd : d = 0 ∨ d = 1) (a b : P) :
    leDim pos d a b = true ↔ coordOf d (pos a) ≤ coordOf d (pos b) := by
  rcases hd with rfl | rfl <;> exact le_real _ _

theorem dimensionCompare_real (a b : Point3D ℝ) (d : Nat) (hd : d = 0 ∨ d = 1) :
    dimensionCompare a b d = some (cmp (coordOf d a) (coordOf d b)) := by
  rcases hd with rfl | rfl <;> exact partialCmp_real _ _

theorem newNode_ordered (pos : P → Point3D ℝ) : ∀ (fuel dim : Nat) (pc : List P), pc.length ≤ fuel →
    (newNode pos fuel dim pc).Ordered pos := by
  intro fuel
  induction fuel with
  | zero => intros; trivial
  | succ fuel ih =>
    intro dim pc h
    have hd : dim % 2 = 0 ∨ dim % 2 = 1 := by omega
    match pc with
    | [] => trivial
    | [p] => simp [newNode, Ordered, toPointcloud, hd]
    | p :: q :: r =>
      simp only [newNode]
      have hs := stableSort_sorted (le := leDim pos (dim % 2))
        (fun a b c h1 h2 => by
          rw [leDim_real pos _ hd] at *; exact le_trans h1 h2)
        (fun a b => by rw [leDim_real pos _ hd, leDim_real pos _ hd]; exact le_total _ _) (p :: q :: r)
      have hl : (stableSort (leDim pos (dim % 2)) (p :: q :: r)).length = r.length + 2 := by simp
      generalize stableSort (leDim pos (dim % 2)) (p :: q :: r) = s at hs hl
      have hm : s.length / 2 < s.length := by omega
      rw [List.getElem?_eq_getElem hm]
      have hsp := split_median (List.getElem?_eq_getElem hm)
      rw [hsp, List.pairwise_append, List.pairwise_append] at hs
      have f1 : (s.take (s.length / 2)).length ≤ fuel := by simp at h ⊢; omega
      have f2 : (s.drop (s.length / 2 + 1)).length ≤ fuel := by simp at h ⊢; omega
      refine ⟨hd, ?_, ?_, ih _ _ f1, ih _ _ f2⟩
      · intro x hx
        have hx' := (newNode_perm pos _ _ _ f1).mem_iff.1 hx
        exact (leDim_real pos _ hd _ _).1 (hs.1.2.2 x hx' _ (by simp))
      · intro x hx
        have hx' := (newNode_perm pos _ _ _ f2).mem_iff.1 hx
        exact (leDim_real pos _ hd _ _).1 (hs.2.2 _ (List.mem_append_right _ (List.mem_singleton_self _)) x hx')

/-! ### knearest -/

theorem sqrDist_real (a b : Point3D ℝ) :
    a.sqrDist b = (a.x - b.x) ^ 2 + (a.y - b.y) ^ 2 + (a.z - b.z) ^ 2 := by
  simp [Point3D.sqrDist, Scalar.sq, _root_.sq]

theorem sqrDist_nonneg (a b : Point3D ℝ) : 0 ≤ a.sqrDist b := by
  rw [sqrDist_real]; positivity

theorem dist_sq (a b : Point3D ℝ) : a.dist b ^ 2 = a.sqrDist b := by
  simp [Point3D.dist, Real.sq_sqrt (sqrDist_nonneg a b)]

theorem dist_nonneg (a b : Point3D ℝ) : 0 ≤ a.dist b := by
  simp [Point3D.dist]

theorem coord_le (a b : Point3D ℝ) (d : Nat) : (coordOf d a - coordOf d b) ^ 2 ≤ a.sqrDist b := by
  rw [sqrDist_real]
  have h1 := sq_nonneg (a.x - b.x)
  have h2 := sq_nonneg (a.y - b.y)
  have h3 := sq_nonneg (a.z - b.z)
  unfold coordOf
  split <;> linarith

/-- `pc'` arises from the candidates `pc` and the points `S`: nothing invented, enough points, and a point
as near as every candidate -/
def W (pos : P → Point3D ℝ) (q : Point3D ℝ) (n : Nat) (pc pc' S : List P) : Prop :=
  pc'.Subperm (pc ++ S) ∧ min n (pc.length + S.length) ≤ pc'.length ∧
    ∀ x ∈ pc ++ S, ∃ b ∈ pc', q.sqrDist (pos b) ≤ q.sqrDist (pos x)

variable {pos : P → Point3D ℝ} {q : Point3D ℝ} {n : Nat}

theorem W.refl (pc : List P) : W pos q n pc pc [] := by
  refine ⟨by rw [List.append_nil], by simp, fun x hx => ⟨x, by simpa using hx, le_rfl⟩⟩

theorem W.trans {a b c S T : List P} (h1 : W pos q n a b S) (h2 : W pos q n b c T) :
    W pos q n a c (S ++ T) := by
  refine ⟨?_, ?_, ?_⟩
  · rw [← List.append_assoc]
    exact h2.1.trans ((List.subperm_append_right T).2 h1.1)
  · have := h1.2.1; have := h2.2.1
    rw [List.length_append]; omega
  · intro x hx
    rw [← List.append_assoc, List.mem_append] at hx
    rcases hx with hx | hx
    · obtain ⟨y, hy, hxy⟩ := h1.2.2 x hx
      obtain ⟨z, hz, hyz⟩ := h2.2.2 y (List.mem_append_left _ hy)
      exact ⟨z, hz, hyz.trans hxy⟩
    · exact h2.2.2 x (List.mem_append_right _ hx)

theorem W.perm {a b S T : List P} (h : W pos q n a b S) (hp : S.Perm T) : W pos q n a b T := by
  refine ⟨h.1.trans (hp.append_left a).subperm, by rw [← hp.length_eq]; exact h.2.1, ?_⟩
  intro x hx
  exact h.2.2 x (by rw [List.mem_append] at hx ⊢; rwa [hp.mem_iff])

theorem W.skip {pc S : List P} (hn : n ≤ pc.length)
    (h : ∀ x ∈ S, ∃ b ∈ pc, q.sqrDist (pos b) ≤ q.sqrDist (pos x)) : W pos q n pc pc S := by
  refine ⟨(List.sublist_append_left pc S).subperm, by omega, ?_⟩
  intro x hx
  rcases List.mem_append.1 hx with hx | hx
  · exact ⟨x, hx, le_rfl⟩
  · exact h x hx

theorem W.push (pc : List P) (v : P) : W pos q n pc (pc ++ [v]) [v] :=
  ⟨List.Subperm.refl _, by simp, fun x hx => ⟨x, hx, le_rfl⟩⟩

theorem sortAndLimit_length (pc : List P) : (sortAndLimit pos q n pc).length = min n pc.length := by
  unfold sortAndLimit
  split
  · simp
  · omega

theorem W.limit (hn : 1 ≤ n) (pc : List P) : W pos q n pc (sortAndLimit pos q n pc) [] := by
  unfold sortAndLimit
  split
  · set le := fun a b : P => (partialCmp (q.sqrDist (pos a)) (q.sqrDist (pos b))).getD .eq != .gt
    have hle : ∀ a b, le a b = true ↔ q.sqrDist (pos a) ≤ q.sqrDist (pos b) := fun a b => le_real _ _
    have hp := stableSort_perm (le := le) pc
    have hs := stableSort_sorted (le := le) (fun a b c h1 h2 => by
      rw [hle] at *; exact le_trans h1 h2) (fun a b => by rw [hle, hle]; exact le_total _ _) pc
    refine ⟨by rw [List.append_nil]; exact (List.take_sublist _ _).subperm.trans hp.subperm, by simp, ?_⟩
    intro x hx
    rw [List.append_nil, ← hp.mem_iff] at hx
    match hsl : stableSort le pc with
    | [] => rw [hsl] at hx; simp at hx
    | a :: l =>
      rw [hsl] at hx hs
      refine ⟨a, ?_, ?_⟩
      · obtain ⟨k, rfl⟩ := Nat.exists_eq_add_of_le' hn
        simp
      · rcases List.mem_cons.1 hx with rfl | hx
        · exact le_rfl
        · exact (hle _ _).1 ((List.pairwise_cons.1 hs).1 x hx)
  · exact W.refl _

theorem knearestNode_spec (hn : 1 ≤ n) : ∀ (t : KdTree P), t.Ordered pos → ∀ pc : List P,
    ∃ pc', knearestNode pos q n t pc = some pc' ∧ W pos q n pc pc' t.toPointcloud ∧
      (t ≠ nil → pc'.length ≤ n) := by
  intro t
  induction t with
  | nil => intro _ pc; exact ⟨pc, rfl, W.refl pc, fun h => absurd rfl h⟩
  | node l r v d hl hr =>
    rintro ⟨hd, ol, or, hol, hor⟩ pc
    -- the candidate itself
    obtain ⟨p1, e1, w1⟩ : ∃ p1, pushCandidate pos q n v pc = some p1 ∧ W pos q n pc p1 [v] := by
      unfold pushCandidate
      by_cases h : pc.length < n
      · exact ⟨_, if_pos h, W.push pc v⟩
      · rw [if_neg h]
        have hne : pc ≠ [] := by intro e; rw [e] at h; simp at h; omega
        rw [List.getLast?_eq_some_getLast hne]
        by_cases h2 : (q.sqrDist (pos v) <. q.sqrDist (pos (pc.getLast hne))) = true
        · exact ⟨pc ++ [v], by simp only [Option.map_some, if_pos h2], W.push pc v⟩
        · refine ⟨pc, by simp only [Option.map_some, if_neg h2], W.skip (by omega) ?_⟩
          intro x hx
          rw [List.mem_singleton.1 hx]
          exact ⟨_, List.getLast_mem hne, by simpa using h2⟩
    have hp1 : p1 ≠ [] := by
      intro e
      have := w1.2.1
      rw [e] at this; simp at this; omega
    -- what happens after visiting one child `s`
    have last : ∀ (p2 : List P), p2 ≠ [] → ∃ b ∈ sortAndLimit pos q n p2,
        (sortAndLimit pos q n p2).getLast? = some b := by
      intro p2 h2
      have : sortAndLimit pos q n p2 ≠ [] := by
        intro e
        have hl := sortAndLimit_length (pos := pos) (q := q) (n := n) p2
        rw [e] at hl
        have := List.length_pos_iff.2 h2
        simp at hl; omega
      exact ⟨_, List.getLast_mem this, List.getLast?_eq_some_getLast this⟩
    have far : ∀ (b : P) (S : List P), (∀ x ∈ S, q.dist (pos b) ≤ |coordOf d q - coordOf d (pos x)|) →
        ∀ x ∈ S, q.sqrDist (pos b) ≤ q.sqrDist (pos x) := by
      intro b S h x hx
      rw [← dist_sq]
      refine le_trans ?_ (coord_le q (pos x) d)
      rw [← sq_abs (coordOf d q - coordOf d (pos x))]
      exact pow_le_pow_left₀ (dist_nonneg _ _) (h x hx) 2
    simp only [knearestNode]
    rw [e1]
    simp only [Option.bind_eq_bind, Option.bind_some, dimensionCompare_real _ _ _ hd]
    rcases hc : cmp (coordOf d q) (coordOf d (pos v)) with _ | _ | _
    · obtain ⟨p2, e2, w2, -⟩ := hl hol p1
      have hp2 : p2 ≠ [] := by
        intro e
        have h1 := w2.2.1
        have h2 := List.length_pos_iff.2 hp1
        rw [e, List.length_nil] at h1; omega
      obtain ⟨b, hb, eb⟩ := last p2 hp2
      have w3 := W.limit (pos := pos) (q := q) hn p2
      simp only [e2, eb, Option.bind_some]
      have hlt := cmp_eq_lt_iff _ _ |>.1 hc
      split
      · obtain ⟨p4, e4, w4, -⟩ := hr hor (sortAndLimit pos q n p2)
        rw [e4]
        refine ⟨_, rfl, ?_, fun _ => by rw [sortAndLimit_length]; omega⟩
        refine ((((w1.trans w2).trans w3).trans w4).trans (W.limit hn p4)).perm ?_
        simp only [toPointcloud, List.append_nil]
        exact List.perm_append_comm.append_right _
      · rename_i hcond
        simp only [Bool.or_eq_true, decide_eq_true_eq, Real.scalar_le, not_or, not_lt, not_le] at hcond
        refine ⟨_, rfl, ?_, fun _ => by rw [sortAndLimit_length]; omega⟩
        have w4 : W pos q n (sortAndLimit pos q n p2) (sortAndLimit pos q n p2) r.toPointcloud := by
          refine W.skip hcond.1 fun x hx => ⟨b, hb, far b _ ?_ x hx⟩
          intro y hy
          have := or y hy
          rw [abs_sub_comm]
          refine le_trans ?_ (le_abs_self _)
          linarith [hcond.2]
        refine ((((w1.trans w2).trans w3).trans w4).trans (W.limit hn _)).perm ?_
        simp only [toPointcloud, List.append_nil]
        exact List.perm_append_comm.append_right _
    all_goals
      obtain ⟨p2, e2, w2, -⟩ := hr hor p1
      have hp2 : p2 ≠ [] := by
        intro e
        have h1 := w2.2.1
        have h2 := List.length_pos_iff.2 hp1
        rw [e, List.length_nil] at h1; omega
      obtain ⟨b, hb, eb⟩ := last p2 hp2
      have w3 := W.limit (pos := pos) (q := q) hn p2
      simp only [e2, eb, Option.bind_some]
      split
      · obtain ⟨p4, e4, w4, -⟩ := hl hol (sortAndLimit pos q n p2)
        rw [e4]
        refine ⟨_, rfl, ?_, fun _ => by rw [sortAndLimit_length]; omega⟩
        refine ((((w1.trans w2).trans w3).trans w4).trans (W.limit hn p4)).perm ?_
        simp only [toPointcloud, List.append_nil, List.append_assoc]
        rw [← List.append_assoc]
        exact List.perm_append_comm
      · rename_i hcond
        simp only [Bool.or_eq_true, decide_eq_true_eq, Real.scalar_le, not_or, not_lt, not_le] at hcond
        refine ⟨_, rfl, ?_, fun _ => by rw [sortAndLimit_length]; omega⟩
        have w4 : W pos q n (sortAndLimit pos q n p2) (sortAndLimit pos q n p2) l.toPointcloud := by
          refine W.skip hcond.1 fun x hx => ⟨b, hb, far b _ ?_ x hx⟩
          intro y hy
          have := ol y hy
          refine le_trans ?_ (le_abs_self _)
          linarith [hcond.2]
        refine ((((w1.trans w2).trans w3).trans w4).trans (W.limit hn _)).perm ?_
        simp only [toPointcloud, List.append_nil, List.append_assoc]
        rw [← List.append_assoc]
        exact List.perm_append_comm

end KdTree
end R3D

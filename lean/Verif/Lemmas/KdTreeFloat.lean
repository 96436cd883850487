import Verif.Lemmas.KdTree
import Verif.Lemmas.F64Dist
/-!
The k-d tree with doubles.
-/
namespace R3D
open Scalar F64
namespace KdTree
variable {P : Type}

/-! ### comparisons -/

theorem le_f64 {a b : F64} (ha : F64.ok a) (hb : F64.ok b) : (a <=. b) = true ↔ F64.key a ≤ F64.key b :=
  LawfulScalar.le_of_ok (α := F64) ha hb

theorem lt_f64 {a b : F64} (ha : F64.ok a) (hb : F64.ok b) : (a <. b) = true ↔ F64.key a < F64.key b :=
  LawfulScalar.lt_of_ok (α := F64) ha hb

theorem partialCmp_f64 {a b : F64} (ha : F64.ok a) (hb : F64.ok b) : partialCmp a b = some (cmp (F64.key a) (F64.key b)) := by
  have h1 := lt_f64 ha hb
  have h2 := lt_f64 hb ha
  have h3 : (a ==. b) = true ↔ F64.key a = F64.key b := LawfulScalar.eq_of_ok (α := F64) ha hb
  unfold partialCmp
  rcases lt_trichotomy (F64.key a) (F64.key b) with h | h | h
  · rw [if_pos (h1.2 h), (cmp_eq_lt_iff _ _).2 h]
  · rw [if_neg (by rw [h1]; exact h.not_lt), if_pos (h3.2 h), (cmp_eq_eq_iff _ _).2 h]
  · rw [if_neg (by rw [h1]; exact h.not_gt), if_neg (by rw [h3]; exact h.ne'), if_pos (h2.2 h), (cmp_eq_gt_iff _ _).2 h]

theorem not_gt_f64 {a b : F64} (ha : F64.ok a) (hb : F64.ok b) :
    ((partialCmp a b).getD .eq != .gt) = true ↔ F64.key a ≤ F64.key b := by
  rw [partialCmp_f64 ha hb]
  simp [cmp_eq_gt_iff]

theorem num_coord {p : Point3D F64} (h : p.Num) (d : Nat) : F64.Num (coordOf d p) := by
  unfold coordOf; split
  · exact h.1
  · exact h.2.1
  · exact h.2.2

/-! ### order of the tree -/

/-- every node separates its subtrees along its dimension -/
def OrderedF (pos : P → Point3D F64) : KdTree P → Prop
  | nil => True
  | node l r v d => (d = 0 ∨ d = 1) ∧
      (∀ x ∈ l.toPointcloud, F64.key (coordOf d (pos x)) ≤ F64.key (coordOf d (pos v))) ∧
      (∀ x ∈ r.toPointcloud, F64.key (coordOf d (pos v)) ≤ F64.key (coordOf d (pos x))) ∧ l.OrderedF pos ∧ r.OrderedF pos

/-- sorting with a comparison that is total and transitive on the elements of the list -/
theorem stableSort_sorted_on {α : Type} {le : α → α → Bool} (l : List α)
    (tr : ∀ a ∈ l, ∀ b ∈ l, ∀ c ∈ l, le a b = true → le b c = true → le a c = true)
    (tot : ∀ a ∈ l, ∀ b ∈ l, le a b = true ∨ le b a = true) : (stableSort le l).Pairwise fun a b => le a b = true := by
  induction l with
  | nil => simp [stableSort]
  | cons a l ih =>
    have ih' := ih (fun x hx y hy z hz => tr x (List.mem_cons_of_mem _ hx) y (List.mem_cons_of_mem _ hy) z (List.mem_cons_of_mem _ hz))
      (fun x hx y hy => tot x (List.mem_cons_of_mem _ hx) y (List.mem_cons_of_mem _ hy))
    have hmem : ∀ x ∈ stableSort le l, x ∈ l := fun x hx => (mem_stableSort l).1 hx
    unfold stableSort
    generalize stableSort le l = m at ih' hmem
    clear ih
    induction m with
    | nil => simp [sortInsert]
    | cons b m ihm =>
      have hb := List.mem_cons_of_mem a (hmem b (by simp))
      unfold sortInsert
      split
      · rename_i hab
        refine List.pairwise_cons.2 ⟨?_, ih'⟩
        intro c hc
        rcases List.mem_cons.1 hc with rfl | hc'
        · exact hab
        · exact tr a (by simp) b hb c (List.mem_cons_of_mem a (hmem c hc)) hab ((List.pairwise_cons.1 ih').1 c hc')
      · rename_i hab
        have hba : le b a = true := (tot a (by simp) b hb).resolve_left hab
        refine List.pairwise_cons.2 ⟨?_, ihm (List.pairwise_cons.1 ih').2 fun x hx => hmem x (List.mem_cons_of_mem _ hx)⟩
        intro c hc
        rcases List.mem_cons.1 ((sortInsert_perm a m).mem_iff.1 hc) with rfl | hc
        · exact hba
        · exact (List.pairwise_cons.1 ih').1 c hc

theorem leDim_f64 {pos : P → Point3D F64} {d : Nat} (hd : d = 0 ∨ d = 1) {a b : P} (ha : (pos a).Num) (hb : (pos b).Num) :
    leDim pos d a b = true ↔ F64.key (coordOf d (pos a)) ≤ F64.key (coordOf d (pos b)) := by
  rcases hd with rfl | rfl
  · exact not_gt_f64 ha.1.ok hb.1.ok
  · exact not_gt_f64 ha.2.1.ok hb.2.1.ok

theorem dimensionCompare_f64 {a b : Point3D F64} {d : Nat} (hd : d = 0 ∨ d = 1) (ha : a.Num) (hb : b.Num) :
    dimensionCompare a b d = some (cmp (F64.key (coordOf d a)) (F64.key (coordOf d b))) := by
  rcases hd with rfl | rfl
  · exact partialCmp_f64 ha.1.ok hb.1.ok
  · exact partialCmp_f64 ha.2.1.ok hb.2.1.ok

theorem newNode_orderedF (pos : P → Point3D F64) : ∀ (fuel dim : Nat) (pc : List P), pc.length ≤ fuel →
    (∀ x ∈ pc, (pos x).Num) → (newNode pos fuel dim pc).OrderedF pos := by
  intro fuel
  induction fuel with
  | zero => intros; trivial
  | succ fuel ih =>
    intro dim pc h hnum
    have hd : dim % 2 = 0 ∨ dim % 2 = 1 := by omega
    match pc, h, hnum with
    | [], _, _ => trivial
    | [p], _, _ => simp [newNode, OrderedF, toPointcloud, hd]
    | p :: q :: r, h, hnum =>
      simp only [newNode]
      have hs := stableSort_sorted_on (le := leDim pos (dim % 2)) (p :: q :: r)
        (fun a ha b hb c hc h1 h2 => by
          rw [leDim_f64 hd (hnum _ ‹_›) (hnum _ ‹_›)] at *; exact le_trans h1 h2)
        (fun a ha b hb => by
          rw [leDim_f64 hd (hnum _ ha) (hnum _ hb), leDim_f64 hd (hnum _ hb) (hnum _ ha)]; exact le_total _ _)
      have hl : (stableSort (leDim pos (dim % 2)) (p :: q :: r)).length = r.length + 2 := by simp
      have hmem : ∀ x ∈ stableSort (leDim pos (dim % 2)) (p :: q :: r), (pos x).Num :=
        fun x hx => hnum x ((mem_stableSort _).1 hx)
      generalize stableSort (leDim pos (dim % 2)) (p :: q :: r) = s at hs hl hmem
      have hm : s.length / 2 < s.length := by omega
      rw [List.getElem?_eq_getElem hm]
      have hsp := split_median (List.getElem?_eq_getElem hm)
      rw [hsp, List.pairwise_append, List.pairwise_append] at hs
      have f1 : (s.take (s.length / 2)).length ≤ fuel := by simp at h ⊢; omega
      have f2 : (s.drop (s.length / 2 + 1)).length ≤ fuel := by simp at h ⊢; omega
      have n1 : ∀ x ∈ s.take (s.length / 2), (pos x).Num := fun x hx => hmem x (List.mem_of_mem_take hx)
      have n2 : ∀ x ∈ s.drop (s.length / 2 + 1), (pos x).Num := fun x hx => hmem x (List.mem_of_mem_drop hx)
      have nm : (pos s[s.length / 2]).Num := hmem _ (List.getElem_mem hm)
      refine ⟨hd, ?_, ?_, ih _ _ f1 n1, ih _ _ f2 n2⟩
      · intro x hx
        have hx' := (newNode_perm pos _ _ _ f1).mem_iff.1 hx
        exact (leDim_f64 hd (n1 x hx') nm).1 (hs.1.2.2 x hx' _ (by simp))
      · intro x hx
        have hx' := (newNode_perm pos _ _ _ f2).mem_iff.1 hx
        exact (leDim_f64 hd nm (n2 x hx')).1 (hs.2.2 _ (List.mem_append_right _ (List.mem_singleton_self _)) x hx')

/-! ### knearest -/

/-- `pc'` arises from the candidates `pc` and the points `S`: nothing invented, enough points, and a point
as near (by computed distance) as every candidate -/
def WF (pos : P → Point3D F64) (q : Point3D F64) (n : Nat) (pc pc' S : List P) : Prop :=
  pc'.Subperm (pc ++ S) ∧ min n (pc.length + S.length) ≤ pc'.length ∧
    ∀ x ∈ pc ++ S, ∃ b ∈ pc', F64.key (q.dist (pos b)) ≤ F64.key (q.dist (pos x))

variable {pos : P → Point3D F64} {q : Point3D F64} {n : Nat}

theorem WF.refl (pc : List P) : WF pos q n pc pc [] := by
  refine ⟨by rw [List.append_nil], by simp, fun x hx => ⟨x, by simpa using hx, le_rfl⟩⟩

theorem WF.trans {a b c S T : List P} (h1 : WF pos q n a b S) (h2 : WF pos q n b c T) :
    WF pos q n a c (S ++ T) := by
  refine ⟨?_, ?_, ?_⟩
  · rw [← List.append_assoc]
    exact h2.1.trans ((List.subperm_append_right T).2 h1.1)
  · have := h1.2.1; have := h2.2.1
    rw [List.length_append]; omega
  · intro x hx
    rw [← List.append_assoc, List.mem_append] at hx
    rcases hx with hx | hx
    · obtain ⟨y, hy, hxy⟩ := h1.2.2 x hx
      obtain ⟨z, hz, hyz⟩ := h2.2.2 y (List.mem_append_left _ hy)
      exact ⟨z, hz, hyz.trans hxy⟩
    · exact h2.2.2 x (List.mem_append_right _ hx)

theorem WF.perm {a b S T : List P} (h : WF pos q n a b S) (hp : S.Perm T) : WF pos q n a b T := by
  refine ⟨h.1.trans (hp.append_left a).subperm, by rw [← hp.length_eq]; exact h.2.1, ?_⟩
  intro x hx
  exact h.2.2 x (by rw [List.mem_append] at hx ⊢; rwa [hp.mem_iff])

theorem WF.num {a b S : List P} (h : WF pos q n a b S) (ha : ∀ x ∈ a, (pos x).Num) (hS : ∀ x ∈ S, (pos x).Num) :
    ∀ x ∈ b, (pos x).Num := by
  intro x hx
  rcases List.mem_append.1 (h.1.subset hx) with h | h
  · exact ha x h
  · exact hS x h

theorem WF.skip {pc S : List P} (hn : n ≤ pc.length)
    (h : ∀ x ∈ S, ∃ b ∈ pc, F64.key (q.dist (pos b)) ≤ F64.key (q.dist (pos x))) : WF pos q n pc pc S := by
  refine ⟨(List.sublist_append_left pc S).subperm, by omega, ?_⟩
  intro x hx
  rcases List.mem_append.1 hx with hx | hx
  · exact ⟨x, hx, le_rfl⟩
  · exact h x hx

theorem WF.push (pc : List P) (v : P) : WF pos q n pc (pc ++ [v]) [v] :=
  ⟨List.Subperm.refl _, by simp, fun x hx => ⟨x, hx, le_rfl⟩⟩

theorem sortAndLimit_lengthF (pc : List P) : (sortAndLimit pos q n pc).length = min n pc.length := by
  unfold sortAndLimit
  split
  · simp
  · omega

theorem key_dist_mono {a b : Point3D F64} (hq : q.Num) (ha : a.Num) (hb : b.Num)
    (h : F64.key (q.sqrDist a) ≤ F64.key (q.sqrDist b)) : F64.key (q.dist a) ≤ F64.key (q.dist b) :=
  key_sqrt_mono (Point3D.sqrDist_nonNeg hq ha) (Point3D.sqrDist_nonNeg hq hb) h

theorem WF.limit (hn : 1 ≤ n) (hq : q.Num) (pc : List P) (hpc : ∀ x ∈ pc, (pos x).Num) :
    WF pos q n pc (sortAndLimit pos q n pc) [] := by
  unfold sortAndLimit
  split
  · set le := fun a b : P => (partialCmp (q.sqrDist (pos a)) (q.sqrDist (pos b))).getD .eq != .gt
    have hle : ∀ a ∈ pc, ∀ b ∈ pc, (le a b = true ↔ F64.key (q.sqrDist (pos a)) ≤ F64.key (q.sqrDist (pos b))) :=
      fun a ha b hb => not_gt_f64 (Point3D.sqrDist_nonNeg hq (hpc a ha)).ok (Point3D.sqrDist_nonNeg hq (hpc b hb)).ok
    have hp := stableSort_perm (le := le) pc
    have hs := stableSort_sorted_on (le := le) pc (fun a ha b hb c hc h1 h2 => by
      rw [hle _ ‹_› _ ‹_›] at *; exact le_trans h1 h2) (fun a ha b hb => by
        rw [hle _ ha _ hb, hle _ hb _ ha]; exact le_total _ _)
    refine ⟨by rw [List.append_nil]; exact (List.take_sublist _ _).subperm.trans hp.subperm, by simp, ?_⟩
    intro x hx
    rw [List.append_nil, ← hp.mem_iff] at hx
    have hx0 := hp.mem_iff.1 hx
    match hsl : stableSort le pc with
    | [] => rw [hsl] at hx; simp at hx
    | a :: l =>
      rw [hsl] at hx hs
      have ha0 : a ∈ pc := hp.mem_iff.1 (by rw [hsl]; simp)
      refine ⟨a, ?_, ?_⟩
      · obtain ⟨k, rfl⟩ := Nat.exists_eq_add_of_le' hn
        simp
      · rcases List.mem_cons.1 hx with rfl | hx
        · exact le_rfl
        · exact key_dist_mono hq (hpc _ ha0) (hpc _ hx0) ((hle _ ha0 _ hx0).1 ((List.pairwise_cons.1 hs).1 x hx))
  · exact WF.refl _

/-- a point whose coordinate is beyond the border is not nearer than the best one -/
theorem dist_le_of_sq {d : Nat} {b x : Point3D F64} (hq : q.Num) (hb : b.Num) (hx : x.Num)
    (h : F64.key (q.dist b * q.dist b) ≤ F64.key (Scalar.sq (coordOf d q - coordOf d x))) :
    F64.key (q.dist b) ≤ F64.key (q.dist x) := by
  refine (key_sqrt_mul_self (Point3D.sqrDist_nonNeg hq hb)).trans ?_
  have hD := Point3D.dist_nonNeg_f64 hq hb
  refine key_sqrt_mono (mul_self_nonNeg hD.ok) (Point3D.sqrDist_nonNeg hq hx) (h.trans ?_)
  have := Point3D.sq_le_sqrDist hq hx
  unfold coordOf
  split
  · exact this.1
  · exact this.2.1
  · exact this.2.2

theorem knearestNode_specF (hn : 1 ≤ n) (hq : q.Num) : ∀ (t : KdTree P), t.OrderedF pos →
    (∀ x ∈ t.toPointcloud, (pos x).Num) → ∀ pc : List P, (∀ x ∈ pc, (pos x).Num) →
    ∃ pc', knearestNode pos q n t pc = some pc' ∧ WF pos q n pc pc' t.toPointcloud ∧
      (t ≠ nil → pc'.length ≤ n) := by
  intro t
  induction t with
  | nil => intro _ _ pc _; exact ⟨pc, rfl, WF.refl pc, fun h => absurd rfl h⟩
  | node l r v d hl hr =>
    rintro ⟨hd, ol, or, hol, hor⟩ hnum pc hpc
    have nl : ∀ x ∈ l.toPointcloud, (pos x).Num := fun x hx => hnum x (by simp [toPointcloud, hx])
    have nr : ∀ x ∈ r.toPointcloud, (pos x).Num := fun x hx => hnum x (by simp [toPointcloud, hx])
    have nv : (pos v).Num := hnum v (by simp [toPointcloud])
    -- the candidate itself
    obtain ⟨p1, e1, w1⟩ : ∃ p1, pushCandidate pos q n v pc = some p1 ∧ WF pos q n pc p1 [v] := by
      unfold pushCandidate
      by_cases h : pc.length < n
      · exact ⟨_, if_pos h, WF.push pc v⟩
      · rw [if_neg h]
        have hne : pc ≠ [] := by intro e; rw [e] at h; simp at h; omega
        rw [List.getLast?_eq_some_getLast hne]
        have ng := hpc _ (List.getLast_mem hne)
        by_cases h2 : (q.sqrDist (pos v) <. q.sqrDist (pos (pc.getLast hne))) = true
        · exact ⟨pc ++ [v], by simp only [Option.map_some, if_pos h2], WF.push pc v⟩
        · refine ⟨pc, by simp only [Option.map_some, if_neg h2], WF.skip (by omega) ?_⟩
          intro x hx
          rw [List.mem_singleton.1 hx]
          rw [lt_f64 (Point3D.sqrDist_nonNeg hq nv).ok (Point3D.sqrDist_nonNeg hq ng).ok, not_lt] at h2
          exact ⟨_, List.getLast_mem hne, key_dist_mono hq ng nv h2⟩
    have np1 := w1.num hpc (by intro x hx; rwa [List.mem_singleton.1 hx])
    have hp1 : p1 ≠ [] := by
      intro e
      have := w1.2.1
      rw [e] at this; simp at this; omega
    have last : ∀ (p2 : List P), p2 ≠ [] → ∃ b ∈ sortAndLimit pos q n p2,
        (sortAndLimit pos q n p2).getLast? = some b := by
      intro p2 h2
      have : sortAndLimit pos q n p2 ≠ [] := by
        intro e
        have hl := sortAndLimit_lengthF (pos := pos) (q := q) (n := n) p2
        rw [e] at hl
        have := List.length_pos_iff.2 h2
        simp at hl; omega
      exact ⟨_, List.getLast_mem this, List.getLast?_eq_some_getLast this⟩
    simp only [knearestNode]
    rw [e1]
    simp only [Option.bind_eq_bind, Option.bind_some, dimensionCompare_f64 hd hq nv]
    rcases hc : cmp (F64.key (coordOf d q)) (F64.key (coordOf d (pos v))) with _ | _ | _
    · obtain ⟨p2, e2, w2, -⟩ := hl hol nl p1 np1
      have np2 := w2.num np1 nl
      have hp2 : p2 ≠ [] := by
        intro e
        have h1 := w2.2.1
        have h2 := List.length_pos_iff.2 hp1
        rw [e, List.length_nil] at h1; omega
      obtain ⟨b, hb, eb⟩ := last p2 hp2
      have w3 := WF.limit (pos := pos) hn hq p2 np2
      have np3 := w3.num np2 (by simp)
      have nb := np3 b hb
      have hD := Point3D.dist_nonNeg_f64 hq nb
      simp only [e2, eb, Option.bind_some]
      split
      · obtain ⟨p4, e4, w4, -⟩ := hr hor nr (sortAndLimit pos q n p2) np3
        rw [e4]
        refine ⟨_, rfl, ?_, fun _ => by rw [sortAndLimit_lengthF]; omega⟩
        refine ((((w1.trans w2).trans w3).trans w4).trans (WF.limit hn hq p4 (w4.num np3 nr))).perm ?_
        simp only [toPointcloud, List.append_nil]
        exact List.perm_append_comm.append_right _
      · rename_i hcond
        simp only [Bool.or_eq_true, decide_eq_true_eq, not_or, not_lt] at hcond
        rw [le_f64 (num_coord nv d).ok (ok_add_fin_nonNeg (num_coord hq d).1 hD), not_le] at hcond
        refine ⟨_, rfl, ?_, fun _ => by rw [sortAndLimit_lengthF]; omega⟩
        have w4 : WF pos q n (sortAndLimit pos q n p2) (sortAndLimit pos q n p2) r.toPointcloud := by
          refine WF.skip hcond.1 fun x hx => ⟨b, hb, dist_le_of_sq (d := d) hq nb (nr x hx) ?_⟩
          exact (border_right (num_coord hq d) (num_coord nv d) (num_coord (nr x hx) d) hD hcond.2 (or x hx)).2
        refine ((((w1.trans w2).trans w3).trans w4).trans (WF.limit hn hq _ np3)).perm ?_
        simp only [toPointcloud, List.append_nil]
        exact List.perm_append_comm.append_right _
    all_goals
      obtain ⟨p2, e2, w2, -⟩ := hr hor nr p1 np1
      have np2 := w2.num np1 nr
      have hp2 : p2 ≠ [] := by
        intro e
        have h1 := w2.2.1
        have h2 := List.length_pos_iff.2 hp1
        rw [e, List.length_nil] at h1; omega
      obtain ⟨b, hb, eb⟩ := last p2 hp2
      have w3 := WF.limit (pos := pos) hn hq p2 np2
      have np3 := w3.num np2 (by simp)
      have nb := np3 b hb
      have hD := Point3D.dist_nonNeg_f64 hq nb
      simp only [e2, eb, Option.bind_some]
      split
      · obtain ⟨p4, e4, w4, -⟩ := hl hol nl (sortAndLimit pos q n p2) np3
        rw [e4]
        refine ⟨_, rfl, ?_, fun _ => by rw [sortAndLimit_lengthF]; omega⟩
        refine ((((w1.trans w2).trans w3).trans w4).trans (WF.limit hn hq p4 (w4.num np3 nl))).perm ?_
        simp only [toPointcloud, List.append_nil, List.append_assoc]
        rw [← List.append_assoc]
        exact List.perm_append_comm
      · rename_i hcond
        simp only [Bool.or_eq_true, decide_eq_true_eq, not_or, not_lt] at hcond
        rw [le_f64 (ok_sub_nonNeg (num_coord hq d).1 hD) (num_coord nv d).ok, not_le] at hcond
        refine ⟨_, rfl, ?_, fun _ => by rw [sortAndLimit_lengthF]; omega⟩
        have w4 : WF pos q n (sortAndLimit pos q n p2) (sortAndLimit pos q n p2) l.toPointcloud := by
          refine WF.skip hcond.1 fun x hx => ⟨b, hb, dist_le_of_sq (d := d) hq nb (nl x hx) ?_⟩
          exact (border_left (num_coord hq d) (num_coord nv d) (num_coord (nl x hx) d) hD hcond.2 (ol x hx)).2
        refine ((((w1.trans w2).trans w3).trans w4).trans (WF.limit hn hq _ np3)).perm ?_
        simp only [toPointcloud, List.append_nil, List.append_assoc]
        rw [← List.append_assoc]
        exact List.perm_append_comm

end KdTree
end R3D

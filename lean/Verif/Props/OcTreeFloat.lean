import Verif.Props.OcTree
import Verif.Lemmas.F64Box
/-!
# C29 with doubles: building the octree ends, whatever the coordinates
-/
namespace R3D
open Scalar LawfulScalar Spec F64
namespace OcNode

/-- more fuel than `n` changes nothing and no branch is unfinished -/
def Stable (n : Nat) (bb : BoundingBox3D F64) (pc : List (Point3D F64)) : Prop :=
  ∀ fuel, n ≤ fuel → newNode fuel bb pc = newNode n bb pc ∧ ∀ t, newNode n bb pc = .ok t → t.Complete

theorem stable_succ {n : Nat} {bb : BoundingBox3D F64} {pc : List (Point3D F64)}
    (h : ∀ bbs, subBoxes bb = .ok bbs → ∀ d,
      (pc.filter fun p => decide (cellOf bbs p = some d)) = [] ∨ Stable n (bbs d) (pc.filter fun p => decide (cellOf bbs p = some d))) :
    Stable (n + 1) bb pc := by
  intro fuel hf
  obtain ⟨fuel, rfl⟩ : ∃ k, fuel = k + 1 := ⟨fuel - 1, by omega⟩
  match pc with
  | [p] =>
    refine ⟨rfl, fun t ht => ?_⟩
    simp only [newNode] at ht
    rw [← Except.ok.inj ht]; trivial
  | [] =>
    simp only [newNode]
    cases hs : subBoxes bb with
    | error e => simp
    | ok bbs =>
      refine ⟨rfl, fun t ht => ?_⟩
      rw [← Except.ok.inj ht]; intro d; trivial
  | p :: q :: l =>
    simp only [newNode]
    cases hs : subBoxes bb with
    | error e => simp
    | ok bbs =>
      have key := h bbs hs
      refine ⟨?_, fun t ht => ?_⟩
      · simp only [Except.ok.injEq, node.injEq]
        funext d
        rcases key d with k | k
        · simp only [k, List.length_nil]
        · rw [(k fuel (by omega)).1]
      · rw [← Except.ok.inj ht]
        intro d
        rcases key d with k | k
        · simp only [k, List.length_nil]; trivial
        · beta_reduce
          split
          · trivial
          · split
            · trivial
            · rename_i x hx
              exact (k n le_rfl).2 x hx

/-- the middle the code computes, in one dimension -/
def mid1 (lo hi : F64) : F64 := lo + (hi - lo) / lit 2

theorem new_x {a b : Point3D F64} {c : BoundingBox3D F64} (h : BoundingBox3D.new a b = .ok c) :
    c = ⟨a, b⟩ ∧ Scalar.eq a.x b.x = false ∧ Scalar.lt b.x a.x = false := by
  unfold BoundingBox3D.new at h
  split at h
  · simp at h
  · split at h
    · simp at h
    · rename_i h1 h2
      simp only [Bool.or_eq_true, not_or, Bool.not_eq_true] at h1 h2
      exact ⟨(Except.ok.inj h).symm, h1.1.1, h2.1.1⟩

/-- the cells in the first dimension -/
theorem sub_x {bb : BoundingBox3D F64} {bbs : OcDir → BoundingBox3D F64} (h : subBoxes bb = .ok bbs) :
    let m := mid1 bb.min.x bb.max.x
    Scalar.eq m bb.max.x = false ∧ Scalar.lt bb.max.x m = false ∧ Scalar.eq bb.min.x m = false ∧ Scalar.lt m bb.min.x = false ∧
    ∀ d, ((bbs d).min.x = bb.min.x ∧ (bbs d).max.x = m) ∨ ((bbs d).min.x = m ∧ (bbs d).max.x = bb.max.x) := by
  have hs := subBoxes_ok h
  obtain ⟨b1, e1, -⟩ := hs .NNN
  obtain ⟨b2, e2, -⟩ := hs .PPP
  have l1 := (new_x e1).2
  have l2 := (new_x e2).2
  refine ⟨l2.1, l2.2, l1.1, l1.2, fun d => ?_⟩
  obtain ⟨b, e, hb⟩ := hs d
  rw [hb]
  cases d <;> (obtain ⟨rfl, -⟩ := new_x e; simp [center3d, mid1])

theorem contains_lt {b : BoundingBox3D F64} {p : Point3D F64} (h : b.contains p = true) :
    Scalar.lt b.min.x p.x = true ∧ Scalar.lt p.x b.max.x = true := by
  simp only [BoundingBox3D.contains, Bool.and_eq_true] at h
  tauto

theorem empty_of_nan {bb : BoundingBox3D F64} {bbs : OcDir → BoundingBox3D F64} (h : subBoxes bb = .ok bbs)
    (hm : mid1 bb.min.x bb.max.x = .nan) (pc : List (Point3D F64)) (d : OcDir) :
    (pc.filter fun p => decide (cellOf bbs p = some d)) = [] := by
  rw [List.filter_eq_nil_iff]
  intro p _ hc
  have := contains_lt (cellOf_contains (of_decide_eq_true hc))
  rcases (sub_x h).2.2.2.2 d with e | e
  · rw [e.2, hm] at this
    exact absurd this.2 (by cases p.x <;> exact Bool.false_ne_true)
  · rw [e.1, hm] at this
    exact absurd this.1 (by cases p.x <;> exact Bool.false_ne_true)

/-- boxes with a corner that is not a number, and boxes too large for their width -/
theorem mid_odd {lo hi : F64} (h : ¬ (F64.Num lo ∧ F64.Num hi)) (h1 : Rep lo) (h2 : Rep hi) :
    mid1 lo hi = .nan ∨ Scalar.eq (mid1 lo hi) hi = true ∨ Scalar.eq lo (mid1 lo hi) = true := by
  cases lo with
  | nan => left; rfl
  | inf s =>
    cases hi with
    | nan => left; rfl
    | inf t => left; cases s <;> cases t <;> decide +kernel
    | fin t m =>
      left
      have : (Scalar.lit 2 : F64) = .fin false 2 := by decide +kernel
      unfold mid1; rw [this]
      cases s <;> rfl
  | fin s m =>
    cases hi with
    | nan => left; rfl
    | inf t =>
      right; left
      have : (Scalar.lit 2 : F64) = .fin false 2 := by decide +kernel
      unfold mid1; rw [this]
      cases t <;> rfl
    | fin t k => exact absurd ⟨Num.mk' h1, Num.mk' h2⟩ h

/-- otherwise the middle is strictly between -/
theorem mid_in {bb : BoundingBox3D F64} {bbs : OcDir → BoundingBox3D F64} (h1 : F64.Num bb.min.x) (h2 : F64.Num bb.max.x)
    (h : subBoxes bb = .ok bbs) (hm : mid1 bb.min.x bb.max.x ≠ .nan) :
    let m := mid1 bb.min.x bb.max.x
    F64.Num m ∧ toR bb.min.x < toR m ∧ toR m < toR bb.max.x := by
  intro m
  obtain ⟨a1, a2, a3, a4, -⟩ := sub_x h
  have hr : Rep m := add_rep _ _
  have ok1 : F64.ok m := hm
  have n1 : ¬ F64.lt bb.max.x m = true := by rw [Bool.not_eq_true]; exact a2
  have n2 : ¬ F64.lt m bb.min.x = true := by rw [Bool.not_eq_true]; exact a4
  rw [F64.lt_iff] at n1 n2
  have k1 : F64.key m ≤ F64.key bb.max.x := not_lt.1 fun hc => n1 ⟨h2.ok, ok1, hc⟩
  have k2 : F64.key bb.min.x ≤ F64.key m := not_lt.1 fun hc => n2 ⟨ok1, h1.ok, hc⟩
  rw [h2.key] at k1
  rw [h1.key] at k2
  have hn : F64.Num m := num_of_bounded hr ok1 k2 k1
  rw [hn.key, EReal.coe_le_coe_iff] at k1 k2
  refine ⟨hn, lt_of_le_of_ne k2 fun e => ?_, lt_of_le_of_ne k1 fun e => ?_⟩
  · rw [(num_eq h1 hn).2 e] at a3; exact absurd a3 (by decide)
  · rw [(num_eq hn h2).2 e] at a1; exact absurd a1 (by decide)

theorem stable_box : ∀ (k : ℕ) (bb : BoundingBox3D F64) (pc : List (Point3D F64)), F64.Num bb.min.x → F64.Num bb.max.x →
    toR bb.max.x - toR bb.min.x ≤ k * (2:ℝ) ^ (-1074 : ℤ) → Stable (k + 1) bb pc := by
  intro k
  induction k with
  | zero =>
    intro bb pc h1 h2 h3
    refine stable_succ fun bbs hs d => Or.inl ?_
    by_cases hm : mid1 bb.min.x bb.max.x = .nan
    · exact empty_of_nan hs hm pc d
    · obtain ⟨hn, l1, l2⟩ := mid_in h1 h2 hs hm
      simp at h3
      linarith
  | succ k ih =>
    intro bb pc h1 h2 h3
    refine stable_succ fun bbs hs d => ?_
    by_cases hm : mid1 bb.min.x bb.max.x = .nan
    · exact Or.inl (empty_of_nan hs hm pc d)
    · obtain ⟨hn, l1, l2⟩ := mid_in h1 h2 hs hm
      refine Or.inr (ih _ _ ?_ ?_ ?_)
      · rcases (sub_x hs).2.2.2.2 d with e | e <;> rw [e.1] <;> assumption
      · rcases (sub_x hs).2.2.2.2 d with e | e <;> rw [e.2] <;> assumption
      · obtain ⟨a, ha⟩ := h1.multR
        obtain ⟨b, hb⟩ := h2.multR
        obtain ⟨c, hc⟩ := hn.multR
        have hη : (0:ℝ) < 2 ^ (-1074 : ℤ) := zpow_pos two_pos _
        rw [ha, hc] at l1
        rw [hb, hc] at l2
        rw [ha, hb] at h3
        have g1 : a < c := by exact_mod_cast lt_of_mul_lt_mul_right l1 hη.le
        have g2 : c < b := by exact_mod_cast lt_of_mul_lt_mul_right l2 hη.le
        have g3 : b - a ≤ k + 1 := by
          rw [← sub_mul] at h3
          exact_mod_cast le_of_mul_le_mul_right h3 hη
        have key : ∀ z : ℤ, z ≤ k → (z:ℝ) * 2 ^ (-1074 : ℤ) ≤ k * 2 ^ (-1074 : ℤ) := fun z hz =>
          mul_le_mul_of_nonneg_right (by exact_mod_cast hz) hη.le
        rcases (sub_x hs).2.2.2.2 d with e | e
        · rw [e.1, e.2, ha, hc, ← sub_mul]; exact_mod_cast key (c - a) (by omega)
        · rw [e.1, e.2, hb, hc, ← sub_mul]; exact_mod_cast key (b - c) (by omega)

/-- every box the code can build has its corners from the points -/
theorem step_rep : ∀ (l : List (Point3D F64)) (s : Point3D F64 × Point3D F64 × Nat), Rep s.1.x → Rep s.2.1.x →
    (∀ p ∈ l, Rep p.x) → Rep (l.foldl BoundingBox3D.step s).1.x ∧ Rep (l.foldl BoundingBox3D.step s).2.1.x := by
  intro l
  induction l with
  | nil => intro s h1 h2 _; exact ⟨h1, h2⟩
  | cons p l ih =>
    intro s h1 h2 h
    refine ih _ ?_ ?_ fun q hq => h q (List.mem_cons_of_mem _ hq)
    · simp only [BoundingBox3D.step]; split
      · exact h p (by simp)
      · exact h1
    · simp only [BoundingBox3D.step]; split
      · exact h p (by simp)
      · exact h2

theorem fromIterator_rep {pts : List (Point3D F64)} {b : BoundingBox3D F64} (h : ∀ p ∈ pts, Rep p.x)
    (hb : BoundingBox3D.fromIterator pts = .ok b) : Rep b.min.x ∧ Rep b.max.x := by
  match pts with
  | [] => simp [BoundingBox3D.fromIterator] at hb
  | p :: l =>
    simp only [BoundingBox3D.fromIterator] at hb
    split at hb
    · obtain ⟨rfl, -⟩ := new_x hb
      exact step_rep l (p, p, 1) (h p (by simp)) (h p (by simp)) fun q hq => h q (List.mem_cons_of_mem _ hq)
    · simp at hb

theorem num_abs_le {a : F64} (h : F64.Num a) : |toR a| ≤ (2:ℝ) ^ (1024 : ℤ) := by
  obtain ⟨s, m, rfl, r, -, e⟩ := h.form
  have h1 : ((m:ℚ) : ℝ) ≤ ((2 ^ (1024 : ℤ) : ℚ) : ℝ) := Rat.cast_le.2 r.2.1.le
  have h0 : (0:ℝ) ≤ ((m:ℚ) : ℝ) := by exact_mod_cast r.1
  rw [Rat.cast_zpow, Rat.cast_ofNat] at h1
  rw [e]
  cases s
  · simp only [val, Bool.false_eq_true, if_false]; rw [abs_of_nonneg h0]; exact h1
  · simp only [val, if_true, Rat.cast_neg, abs_neg]; rw [abs_of_nonneg h0]; exact h1

theorem stable_all : ∃ N, ∀ (bb : BoundingBox3D F64) (pc : List (Point3D F64)), Rep bb.min.x → Rep bb.max.x → Stable N bb pc := by
  obtain ⟨K, hK⟩ := exists_nat_ge (2 * (2:ℝ) ^ (1024 : ℤ) / 2 ^ (-1074 : ℤ))
  have hη : (0:ℝ) < 2 ^ (-1074 : ℤ) := zpow_pos two_pos _
  rw [div_le_iff₀ hη] at hK
  refine ⟨K + 1, fun bb pc h1 h2 => ?_⟩
  by_cases hn : F64.Num bb.min.x ∧ F64.Num bb.max.x
  · refine stable_box K bb pc hn.1 hn.2 (le_trans ?_ hK)
    have b1 := num_abs_le hn.1
    have b2 := num_abs_le hn.2
    rw [abs_le] at b1 b2
    linarith only [b1.1, b2.2]
  · refine stable_succ fun bbs hs d => Or.inl ?_
    obtain ⟨a1, a2, a3, a4, -⟩ := sub_x hs
    rcases mid_odd hn h1 h2 with e | e | e
    · exact empty_of_nan hs e pc d
    · rw [e] at a1; exact absurd a1 (by decide)
    · rw [e] at a3; exact absurd a3 (by decide)

end OcNode

namespace OcTree
/-- C29 with doubles, for all clouds whatsoever, NaN and infinities included, and in whatever way the hash set lists
the points: there is one number of nested calls that always suffices. With it the result no longer changes, and
no branch of the tree is unfinished. -/
theorem c29_terminates_f64 : ∃ N, ∀ (uniq : List (Point3D F64) → List (Point3D F64)) (old : OcTree F64) (pts : List (Point3D F64)),
    (∀ p ∈ pts, ∀ d, Rep (at3 p d)) → ∀ fuel, N ≤ fuel →
      build fuel uniq old pts = build N uniq old pts ∧
      ((build N uniq old pts).2 = .ok () → (build N uniq old pts).1.root.Complete) := by
  obtain ⟨N, hN⟩ := OcNode.stable_all
  refine ⟨N, fun uniq old pts hp fuel hf => ?_⟩
  unfold build
  cases hb : BoundingBox3D.fromIterator pts with
  | error e => simp [Except.toOption]
  | ok b =>
    simp only [Except.toOption]
    obtain ⟨r1, r2⟩ := OcNode.fromIterator_rep (fun p h => hp p h 0) hb
    obtain ⟨e1, e2⟩ := hN b (uniq pts) r1 r2 fuel hf
    rw [e1]
    refine ⟨rfl, ?_⟩
    cases hx : OcNode.newNode N b (uniq pts) with
    | error e => simp
    | ok t => intro _; exact e2 t hx

/-- the points need only be doubles -/
example : ∀ p ∈ [(⟨F64.ofRat (1/10), .nan, .inf true⟩ : Point3D F64), ⟨F64.ofRat 2, F64.ofRat 3, F64.ofRat (1/3)⟩], ∀ d, Rep (at3 p d) := by
  intro p hp
  simp only [List.mem_cons, List.not_mem_nil, or_false] at hp
  rw [forall_fin3, at3_zero, at3_one, at3_two]
  rcases hp with rfl | rfl
  · exact ⟨ofRat_rep (1/10), trivial, trivial⟩
  · exact ⟨ofRat_rep 2, ofRat_rep 3, ofRat_rep (1/3)⟩

end OcTree
end R3D

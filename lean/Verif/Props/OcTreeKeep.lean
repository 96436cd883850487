import Verif.Props.OcTreeFloat
import Verif.Props.BoxFloat
import Verif.Lemmas.F64Mid
/-!
# C28 with doubles: which points the octree keeps
-/
namespace R3D
open Scalar LawfulScalar Spec F64

namespace Spec
/-- the double the code computes as the middle of an interval -/
def middle (c : F64 × F64) : F64 := c.1 + (c.2 - c.1) / lit 2

/-- strictly between -/
def Within (x : F64) (c : F64 × F64) : Prop := toR c.1 < toR x ∧ toR x < toR c.2

/-- `c'` comes from `c` by halving `k` times, each time taking the half that has `x` strictly inside -/
inductive Narrow (x : F64) : ℕ → F64 × F64 → F64 × F64 → Prop
  | zero (c : F64 × F64) : Narrow x 0 c c
  | left {k : ℕ} {c c' : F64 × F64} : Within x (c.1, middle c) → Narrow x k (c.1, middle c) c' → Narrow x (k + 1) c c'
  | right {k : ℕ} {c c' : F64 × F64} : Within x (middle c, c.2) → Narrow x k (middle c, c.2) c' → Narrow x (k + 1) c c'

/-- extent of a box -/
def side (b : BoundingBox3D F64) (d : Fin 3) : F64 × F64 := (at3 b.min d, at3 b.max d)

/-- `p` gets alone into a cell before a plane between two cells hits it -/
def Alone (b : BoundingBox3D F64) (pc : List (Point3D F64)) (p : Point3D F64) : Prop :=
  ∃ k, 1 ≤ k ∧ ∃ c : Fin 3 → F64 × F64, (∀ d, Narrow (at3 p d) k (side b d) (c d)) ∧
    ∀ q ∈ pc, q ≠ p → ∃ d, ¬ Within (at3 q d) (c d)
end Spec

namespace OcNode

def bit : OcDir → Fin 3 → Bool
  | .PPP => ![true, true, true] | .PPN => ![true, true, false] | .PNP => ![true, false, true] | .PNN => ![true, false, false]
  | .NPP => ![false, true, true] | .NPN => ![false, true, false] | .NNP => ![false, false, true] | .NNN => ![false, false, false]

theorem bit_surj (f : Fin 3 → Bool) : ∃ c, ∀ d, bit c d = f d := by
  cases h0 : f 0 <;> cases h1 : f 1 <;> cases h2 : f 2
  · exact ⟨.NNN, forall_fin3.2 ⟨h0.symm, h1.symm, h2.symm⟩⟩
  · exact ⟨.NNP, forall_fin3.2 ⟨h0.symm, h1.symm, h2.symm⟩⟩
  · exact ⟨.NPN, forall_fin3.2 ⟨h0.symm, h1.symm, h2.symm⟩⟩
  · exact ⟨.NPP, forall_fin3.2 ⟨h0.symm, h1.symm, h2.symm⟩⟩
  · exact ⟨.PNN, forall_fin3.2 ⟨h0.symm, h1.symm, h2.symm⟩⟩
  · exact ⟨.PNP, forall_fin3.2 ⟨h0.symm, h1.symm, h2.symm⟩⟩
  · exact ⟨.PPN, forall_fin3.2 ⟨h0.symm, h1.symm, h2.symm⟩⟩
  · exact ⟨.PPP, forall_fin3.2 ⟨h0.symm, h1.symm, h2.symm⟩⟩

theorem bit_inj {a b : OcDir} (h : ∀ d, bit a d = bit b d) : a = b := by
  have h0 := h 0; have h1 := h 1; have h2 := h 2
  cases a <;> cases b <;> first | rfl | (exfalso; revert h0 h1 h2; decide)

theorem side_sub {bb : BoundingBox3D F64} {bbs : OcDir → BoundingBox3D F64} (h : subBoxes bb = .ok bbs) (c : OcDir) (d : Fin 3) :
    side (bbs c) d = if bit c d then (middle (side bb d), (side bb d).2) else ((side bb d).1, middle (side bb d)) := by
  obtain ⟨b, e, hb⟩ := subBoxes_ok h c
  rw [hb]
  revert d
  rw [forall_fin3]
  cases c <;> (obtain ⟨rfl, -⟩ := new_x e; simp [side, middle, bit, center3d])

structure Good (b : BoundingBox3D F64) (d : Fin 3) : Prop where
  lo : F64.Num (at3 b.min d)
  hi : F64.Num (at3 b.max d)
  lt : toR (at3 b.min d) < toR (at3 b.max d)
  le : toR (at3 b.max d) - toR (at3 b.min d) ≤ 2 ^ (1023 : ℤ)

def NumP (p : Point3D F64) : Prop := ∀ d, F64.Num (at3 p d)

theorem contains_iff {b : BoundingBox3D F64} (hb : ∀ d, Good b d) {p : Point3D F64} (hp : NumP p) :
    b.contains p = true ↔ ∀ d, Within (at3 p d) (side b d) := by
  have g0 := hb 0; have g1 := hb 1; have g2 := hb 2
  have p0 := hp 0; have p1 := hp 1; have p2 := hp 2
  rw [forall_fin3]
  simp only [BoundingBox3D.contains, Bool.and_eq_true, Within, side]
  simp only [at3_zero, at3_one, at3_two] at *
  have a0 := num_lt (b := p.x) g0.lo p0; have b0 := num_lt (a := p.x) p0 g0.hi
  have a1 := num_lt (b := p.y) g1.lo p1; have b1 := num_lt (a := p.y) p1 g1.hi
  have a2 := num_lt (b := p.z) g2.lo p2; have b2 := num_lt (a := p.z) p2 g2.hi
  simp only [at3_zero, at3_one, at3_two] at a0 b0 a1 b1 a2 b2
  rw [a0, b0, a1, b1, a2, b2]
  tauto

theorem mid_good {bb : BoundingBox3D F64} (hb : ∀ d, Good bb d) {bbs : OcDir → BoundingBox3D F64} (h : subBoxes bb = .ok bbs) (d : Fin 3) :
    F64.Num (middle (side bb d)) ∧ toR (at3 bb.min d) < toR (middle (side bb d)) ∧ toR (middle (side bb d)) < toR (at3 bb.max d) := by
  have g := hb d
  obtain ⟨m1, m2, m3, -⟩ := center1 g.lo g.hi g.lt g.le
  have hm : F64.Num (middle (side bb d)) := m1
  obtain ⟨b1, e1, h1⟩ := subBoxes_ok h .NNN
  obtain ⟨b2, e2, h2⟩ := subBoxes_ok h .PPP
  have k1 := (new_ok e1).2 d
  have k2 := (new_ok e2).2 d
  have q1 : at3 (center3d bb.min bb.max) d = middle (side bb d) := by
    revert d; rw [forall_fin3]; simp [center3d, middle, side]
  rw [q1] at k1 k2
  have k1 := k1 g.lo.ok hm.ok
  have k2 := k2 hm.ok g.hi.ok
  rw [show LawfulScalar.key (at3 bb.min d) = F64.key (at3 bb.min d) from rfl, show LawfulScalar.key (middle (side bb d)) = F64.key (middle (side bb d)) from rfl,
    g.lo.key, hm.key] at k1
  rw [show LawfulScalar.key (at3 bb.max d) = F64.key (at3 bb.max d) from rfl, show LawfulScalar.key (middle (side bb d)) = F64.key (middle (side bb d)) from rfl,
    g.hi.key, hm.key] at k2
  exact ⟨hm, by exact_mod_cast k1, by exact_mod_cast k2⟩

theorem good_sub {bb : BoundingBox3D F64} (hb : ∀ d, Good bb d) {bbs : OcDir → BoundingBox3D F64} (h : subBoxes bb = .ok bbs)
    (c : OcDir) (d : Fin 3) : Good (bbs c) d := by
  have g := hb d
  obtain ⟨m1, m2, m3⟩ := mid_good hb h d
  have e := side_sub h c d
  have e1 : at3 (bbs c).min d = (side (bbs c) d).1 := rfl
  have e2 : at3 (bbs c).max d = (side (bbs c) d).2 := rfl
  have hM := g.le
  split_ifs at e <;> rw [e] at e1 e2 <;> simp only [side] at e1 e2 m1 m2 m3 <;> refine ⟨?_, ?_, ?_, ?_⟩ <;> simp only [e1, e2]
  · exact m1
  · exact g.hi
  · exact m3
  · linarith only [hM, m2]
  · exact g.lo
  · exact m1
  · exact m2
  · linarith only [hM, m3]

/-- a box with a double strictly inside can be split -/
theorem good_split {bb : BoundingBox3D F64} (hb : ∀ d, Good bb d) {p : Point3D F64} (hp : NumP p)
    (hs : ∀ d, toR (at3 p d) = 0 ∨ (2:ℝ) ^ (-1020 : ℤ) ≤ |toR (at3 p d)|) (hin : ∀ d, Within (at3 p d) (side bb d)) :
    ∃ bbs, subBoxes bb = .ok bbs := by
  have hmid : ∀ d, F64.Num (middle (side bb d)) ∧ toR (at3 bb.min d) < toR (middle (side bb d)) ∧ toR (middle (side bb d)) < toR (at3 bb.max d) :=
    fun d => mid_inside (hb d).lo (hb d).hi (hp d) (hin d).1 (hin d).2 (hb d).le (hs d)
  have hnew : ∀ a b : Point3D F64, (∀ d, F64.Num (at3 a d) ∧ F64.Num (at3 b d) ∧ toR (at3 a d) < toR (at3 b d)) →
      BoundingBox3D.new a b = .ok ⟨a, b⟩ := by
    intro a b h
    have n : ∀ d, Scalar.eq (at3 a d) (at3 b d) = false ∧ Scalar.lt (at3 b d) (at3 a d) = false := by
      intro d
      obtain ⟨i1, i2, i3⟩ := h d
      rw [← Bool.not_eq_true, ← Bool.not_eq_true, num_eq i1 i2, num_lt i2 i1]
      exact ⟨i3.ne, not_lt.2 i3.le⟩
    rw [forall_fin3] at n
    simp only [at3_zero, at3_one, at3_two] at n
    obtain ⟨⟨x1, x2⟩, ⟨y1, y2⟩, z1, z2⟩ := n
    unfold BoundingBox3D.new
    rw [x1, y1, z1, x2, y2, z2]
    rfl
  have g := hb
  rw [forall_fin3] at hmid g
  simp only [middle, side, at3_zero, at3_one, at3_two] at hmid
  obtain ⟨⟨a1, a2, a3⟩, ⟨b1, b2, b3⟩, c1, c2, c3⟩ := hmid
  obtain ⟨⟨l1, h1, -, -⟩, ⟨l2, h2, -, -⟩, l3, h3, -, -⟩ := g
  simp only [at3_zero, at3_one, at3_two] at l1 l2 l3 h1 h2 h3
  have e : ∀ d, ∃ b, calcSubMinMax d bb = .ok b := by
    intro d
    unfold calcSubMinMax
    simp only [center3d]
    cases d <;> refine ⟨_, hnew _ _ ?_⟩ <;> rw [forall_fin3] <;> simp only [at3_zero, at3_one, at3_two] <;>
      refine ⟨⟨?_, ?_, ?_⟩, ⟨?_, ?_, ?_⟩, ?_, ?_, ?_⟩ <;> assumption
  choose f hf using e
  unfold subBoxes
  simp only [hf, bind, Except.bind, pure, Except.pure]
  exact ⟨_, rfl⟩

theorem cellOf_iff {bb : BoundingBox3D F64} (hb : ∀ d, Good bb d) {bbs : OcDir → BoundingBox3D F64} (h : subBoxes bb = .ok bbs)
    {p : Point3D F64} (hp : NumP p) (c : OcDir) : cellOf bbs p = some c ↔ ∀ d, Within (at3 p d) (side (bbs c) d) := by
  constructor
  · intro hc
    exact (contains_iff (good_sub hb h c) hp).1 (cellOf_contains hc)
  · intro hc
    obtain ⟨c', hc'⟩ : ∃ c', cellOf bbs p = some c' := by
      rw [← Option.isSome_iff_exists]
      unfold cellOf
      rw [List.find?_isSome]
      exact ⟨c, mem_all c, (contains_iff (good_sub hb h c) hp).2 hc⟩
    have h2 := (contains_iff (good_sub hb h c') hp).1 (cellOf_contains hc')
    rw [hc']
    congr 1
    refine bit_inj fun d => ?_
    have w1 := hc d
    have w2 := h2 d
    rw [side_sub h] at w1 w2
    cases k1 : bit c d <;> cases k2 : bit c' d <;> rw [k1] at w1 <;> rw [k2] at w2 <;> try rfl
    · exact absurd (w1.2.trans w2.1) (lt_irrefl _)
    · exact absurd (w2.2.trans w1.1) (lt_irrefl _)

theorem narrow_sub {x q : F64} : ∀ {k : ℕ} {c c' : F64 × F64}, Narrow x k c c' → F64.Num c.1 → F64.Num c.2 → toR c.1 < toR c.2 →
    toR c.2 - toR c.1 ≤ 2 ^ (1023 : ℤ) → Within q c' → Within q c := by
  intro k c c' h
  induction h with
  | zero c => intro _ _ _ _ h; exact h
  | left hw hn ih =>
    intro h1 h2 h3 h4 hq
    obtain ⟨m1, m2, m3, -⟩ := center1 h1 h2 h3 h4
    have := ih h1 m1 (hw.1.trans hw.2) (by
      show toR (_ + (_ - _) / lit 2) - toR _ ≤ _
      linarith only [m3, h4]) hq
    exact ⟨this.1, this.2.trans_le m3⟩
  | right hw hn ih =>
    intro h1 h2 h3 h4 hq
    obtain ⟨m1, m2, m3, -⟩ := center1 h1 h2 h3 h4
    have := ih m1 h2 (hw.1.trans hw.2) (by
      show toR _ - toR (_ + (_ - _) / lit 2) ≤ _
      linarith only [m2, h4]) hq
    exact ⟨m2.trans_lt this.1, this.2⟩

theorem narrow_zero {x : F64} {c c' : F64 × F64} (h : Narrow x 0 c c') : c' = c := by
  cases h; rfl

/-- one step of halving is a choice of a cell -/
theorem narrow_succ {p : Point3D F64} {bb : BoundingBox3D F64} {bbs : OcDir → BoundingBox3D F64} (h : subBoxes bb = .ok bbs) {k : ℕ}
    {c : Fin 3 → F64 × F64} :
    (∀ d, Narrow (at3 p d) (k + 1) (side bb d) (c d)) ↔
      ∃ o, (∀ d, Within (at3 p d) (side (bbs o) d)) ∧ ∀ d, Narrow (at3 p d) k (side (bbs o) d) (c d) := by
  constructor
  · intro hn
    have key : ∀ d, ∃ b : Bool, Within (at3 p d) (if b then (middle (side bb d), (side bb d).2) else ((side bb d).1, middle (side bb d))) ∧
        Narrow (at3 p d) k (if b then (middle (side bb d), (side bb d).2) else ((side bb d).1, middle (side bb d))) (c d) := by
      intro d
      cases hn d with
      | left hw hn => exact ⟨false, hw, hn⟩
      | right hw hn => exact ⟨true, hw, hn⟩
    choose f hf using key
    obtain ⟨o, ho⟩ := bit_surj f
    refine ⟨o, fun d => ?_, fun d => ?_⟩ <;> rw [side_sub h, ho]
    · exact (hf d).1
    · exact (hf d).2
  · rintro ⟨o, hw, hn⟩ d
    have hw := hw d
    have hn := hn d
    rw [side_sub h] at hw hn
    cases hb : bit o d <;> rw [hb] at hw hn
    · exact .left hw hn
    · exact .right hw hn

theorem nodup_single {β : Type} {l : List β} {p : β} (hn : l.Nodup) (hp : p ∈ l) (h : ∀ q ∈ l, q = p) : l = [p] := by
  obtain ⟨x, rfl⟩ | hl : (∃ x, l = [x]) ∨ ∀ x, l ≠ [x] := by
    by_cases h : ∃ x, l = [x]
    · exact .inl h
    · push Not at h; exact .inr h
  · rw [List.mem_singleton] at hp; rw [hp]
  · match l, hl, hn, h with
    | [], _, _, _ => simp at hp
    | [x], hl, _, _ => exact absurd rfl (hl x)
    | x :: y :: l, _, hn, h =>
      have e1 := h x (by simp)
      have e2 := h y (by simp)
      rw [e1, e2] at hn
      simp at hn

theorem newNode_ok_of_split {bb : BoundingBox3D F64} {bbs : OcDir → BoundingBox3D F64} (h : subBoxes bb = .ok bbs) (fuel : ℕ)
    (pc : List (Point3D F64)) : ∃ t, newNode fuel bb pc = .ok t := by
  cases fuel with
  | zero => exact ⟨_, rfl⟩
  | succ fuel =>
    unfold newNode
    split
    · exact ⟨_, rfl⟩
    · rw [h]; exact ⟨_, rfl⟩

/-- what a node with several points keeps -/
theorem newNode_alone (p : Point3D F64) (hp : NumP p) (hs : ∀ d, toR (at3 p d) = 0 ∨ (2:ℝ) ^ (-1020 : ℤ) ≤ |toR (at3 p d)|) :
    ∀ (fuel : ℕ) (bb : BoundingBox3D F64) (pc : List (Point3D F64)) (t : OcNode F64), (∀ d, Good bb d) → pc.Nodup → (∀ q ∈ pc, NumP q) →
      p ∈ pc → pc ≠ [p] → newNode fuel bb pc = .ok t → t.Complete → (p ∈ t.points ↔ Alone bb pc p) := by
  intro fuel
  induction fuel with
  | zero => intro bb pc t _ _ _ _ _ h hc; simp only [newNode, Except.ok.injEq] at h; rw [← h] at hc; exact absurd hc id
  | succ fuel ih =>
    intro bb pc t hb hnd hnum hmem hne h hc
    unfold newNode at h
    split at h
    · rename_i x; rw [List.mem_singleton] at hmem; exact absurd (by rw [hmem]) hne
    · cases hsub : subBoxes bb with
      | error e => rw [hsub] at h; simp at h
      | ok bbs =>
        rw [hsub] at h
        simp only [Except.ok.injEq] at h
        subst h
        rw [mem_points_node]
        have hgood := good_sub hb hsub
        have hmemsub : ∀ o q, q ∈ (pc.filter fun p => decide (cellOf bbs p = some o)) ↔ q ∈ pc ∧ ∀ d, Within (at3 q d) (side (bbs o) d) := by
          intro o q
          rw [List.mem_filter, decide_eq_true_iff]
          constructor
          · rintro ⟨h1, h2⟩; exact ⟨h1, (cellOf_iff hb hsub (hnum q h1) o).1 h2⟩
          · rintro ⟨h1, h2⟩; exact ⟨h1, (cellOf_iff hb hsub (hnum q h1) o).2 h2⟩
        constructor
        · rintro ⟨o, ho⟩
          have hco := hc o
          dsimp only at ho hco
          split at ho
          · simp [points] at ho
          · split at ho
            · simp [points] at ho
            · rename_i hl x hx
              rw [hx] at hco
              have hin := (hmemsub o p).1 (newNode_mem _ _ _ _ hx p ho)
              by_cases h1 : (pc.filter fun p => decide (cellOf bbs p = some o)) = [p]
              · refine ⟨1, le_rfl, fun d => side (bbs o) d, (narrow_succ hsub).2 ⟨o, hin.2, fun d => .zero _⟩, fun q hq hqp => ?_⟩
                by_contra hcon
                push Not at hcon
                have := (hmemsub o q).2 ⟨hq, hcon⟩
                rw [h1, List.mem_singleton] at this
                exact hqp this
              · have hco : x.Complete := by
                  split at hco
                  · rename_i h0; rw [List.length_eq_zero_iff] at h0
                    have := (hmemsub o p).2 hin
                    rw [h0] at this; simp at this
                  · exact hco
                obtain ⟨k, hk, c, hn, hall⟩ := (ih (bbs o) _ x (hgood o) (hnd.filter _) (fun q hq => hnum q (List.mem_filter.1 hq).1)
                  ((hmemsub o p).2 hin) h1 hx hco).1 ho
                refine ⟨k + 1, by omega, c, (narrow_succ hsub).2 ⟨o, hin.2, hn⟩, fun q hq hqp => ?_⟩
                by_contra hcon
                push Not at hcon
                obtain ⟨d, hd⟩ := hall q ((hmemsub o q).2 ⟨hq, fun d => narrow_sub (hn d) (hgood o d).lo (hgood o d).hi (hgood o d).lt
                  (hgood o d).le (hcon d)⟩) hqp
                exact hd (hcon d)
        · rintro ⟨k, hk, c, hn, hall⟩
          obtain ⟨k, rfl⟩ : ∃ j, k = j + 1 := ⟨k - 1, by omega⟩
          obtain ⟨o, hw, hn⟩ := (narrow_succ hsub).1 hn
          have hin := (hmemsub o p).2 ⟨hmem, hw⟩
          refine ⟨o, ?_⟩
          have hco := hc o
          dsimp only at hco ⊢
          obtain ⟨bbs', hs'⟩ := good_split (hgood o) hp hs hw
          obtain ⟨x, hx⟩ := newNode_ok_of_split hs' fuel (pc.filter fun p => decide (cellOf bbs p = some o))
          rw [hx] at hco ⊢
          split at hco
          · rename_i h0; rw [List.length_eq_zero_iff] at h0
            rw [h0] at hin; simp at hin
          · by_cases h1 : (pc.filter fun p => decide (cellOf bbs p = some o)) = [p]
            · rw [h1] at hx
              cases fuel with
              | zero => simp only [newNode, Except.ok.injEq] at hx; rw [← hx] at hco; exact absurd hco id
              | succ fuel => simp only [newNode, Except.ok.injEq] at hx; rw [← hx]; simp [points]
            · refine (ih (bbs o) _ x (hgood o) (hnd.filter _) (fun q hq => hnum q (List.mem_filter.1 hq).1) hin h1 hx hco).2
                ⟨k, ?_, c, hn, fun q hq hqp => hall q (List.mem_filter.1 hq).1 hqp⟩
              by_contra hk0
              obtain rfl : k = 0 := by omega
              refine h1 (nodup_single (hnd.filter _) hin fun q hq => ?_)
              by_contra hqp
              obtain ⟨d, hd⟩ := hall q (List.mem_filter.1 hq).1 hqp
              have hz := hn d
              rw [narrow_zero hz] at hd
              exact hd (((hmemsub o q).1 hq).2 d)

end OcNode

namespace OcTree
/-- C28 with doubles, what holds: for finite coordinates that are zero or not tiny, and distances that do not
overflow, a point of the cloud is kept if and only if it gets alone into a cell before a plane between two cells
hits it, and what is kept is collected exactly once. The cells are the ones of the rounded middles. Missing: the
points on such planes, above all those that span the box, are lost, see `c28_violated`. -/
theorem c28_keeps_f64_partial (fuel : Nat) (uniq : List (Point3D F64) → List (Point3D F64)) (old t : OcTree F64)
    (pts r : List (Point3D F64)) (hnum : ∀ q ∈ pts, ∀ d, F64.Num (at3 q d))
    (hext : ∀ q ∈ pts, ∀ q' ∈ pts, ∀ d, toR (at3 q d) - toR (at3 q' d) ≤ 2 ^ (1023 : ℤ))
    (hu : Enumerates (uniq pts) pts) (hnd : (uniq pts).Nodup)
    (h : build fuel uniq old pts = (t, .ok ())) (hc : t.root.Complete) (hr : t.toPointcloud = some r)
    (p : Point3D F64) (hp : p ∈ uniq pts) (hs : ∀ d, toR (at3 p d) = 0 ∨ (2:ℝ) ^ (-1020 : ℤ) ≤ |toR (at3 p d)|) :
    (p ∈ r ↔ Alone t.bb (uniq pts) p) ∧ (p ∈ r → ∃ a b, r = a ++ p :: b ∧ p ∉ a ∧ p ∉ b) := by
  have hsound := c29_sound fuel uniq old t pts r hu.1 hnd h hr
  refine ⟨?_, fun hmem => ?_⟩
  · obtain ⟨hfew, heq, hbox⟩ := c16_from_iterator_3d pts (fun p hp d => (hnum p hp d).ok)
    unfold build at h
    split at h
    · simp at h
    · rename_i b hb
      split at h
      · simp at h
      · rename_i x hx
        simp only [Prod.mk.injEq, and_true] at h
        subst h
        have hb' : BoundingBox3D.fromIterator pts = .ok b := by
          cases hq : BoundingBox3D.fromIterator pts with
          | error e => rw [hq] at hb; simp [Except.toOption] at hb
          | ok c => rw [hq] at hb; simp only [Except.toOption, Option.some.injEq] at hb; rw [hb]
        have h2 : 2 ≤ pts.length := by
          by_contra hc
          rw [hfew (by omega)] at hb'; simp at hb'
        have hd : ¬ ∃ d, ∀ p ∈ pts, ∀ q ∈ pts, LawfulScalar.key (at3 p d) = LawfulScalar.key (at3 q d) := by
          intro hc
          rw [heq h2 hc] at hb'; simp at hb'
        push Not at hd
        obtain ⟨b', hb'', hv, hin, hat, -⟩ := hbox h2 hd
        rw [hb'] at hb''
        obtain rfl := Except.ok.inj hb''
        rw [OcNode.collectNode_neg (-1) (by decide) x 0 r hr]
        refine OcNode.newNode_alone p (hnum p (hu.1 p hp)) hs fuel b (uniq pts) x (fun d => ?_) hnd (fun q hq => hnum q (hu.1 q hq)) hp ?_ hx hc
        · obtain ⟨⟨p1, hp1, e1⟩, p2, hp2, e2⟩ := hat d
          have e1 : at3 b.min d = at3 p1 d := e1
          have e2 : at3 b.max d = at3 p2 d := e2
          refine ⟨?_, ?_, ?_, ?_⟩
          · rw [e1]; exact hnum p1 hp1 d
          · rw [e2]; exact hnum p2 hp2 d
          · have hlt : F64.key (at3 b.min d) < F64.key (at3 b.max d) := hv.2 d
            rw [e1, e2, (hnum p1 hp1 d).key, (hnum p2 hp2 d).key] at hlt
            rw [e1, e2]
            exact_mod_cast hlt
          · rw [e1, e2]; exact hext p2 hp2 p1 hp1 d
        · intro hl
          obtain ⟨p, hp, q, hq, hpq⟩ := hd 0
          obtain ⟨p', hp', e1⟩ := hu.2 p hp
          obtain ⟨q', hq', e2⟩ := hu.2 q hq
          rw [hl, List.mem_singleton] at hp' hq'
          rw [← e1 0, ← e2 0, hp', hq'] at hpq
          exact hpq rfl
  · obtain ⟨a, b, e⟩ := List.append_of_mem hmem
    refine ⟨a, b, e, ?_, ?_⟩
    · intro ha
      have := hsound.2.1
      rw [e, List.nodup_append] at this
      exact this.2.2 p ha p (by simp) rfl
    · intro hb
      have := hsound.2.1
      rw [e, List.nodup_append, List.nodup_cons] at this
      exact this.2.1.1 hb

/-- points on the diagonal of the unit cube -/
def cube0 : BoundingBox3D F64 := ⟨⟨f 0, f 0, f 0⟩, ⟨f 1, f 1, f 1⟩⟩
def diag0 : List (Point3D F64) := [⟨f 0, f 0, f 0⟩, ⟨f 1, f 1, f 1⟩, ⟨f (1/8), f (1/8), f (1/8)⟩, ⟨f (1/4), f (1/4), f (1/4)⟩,
  ⟨f (3/8), f (3/8), f (3/8)⟩]

/-- the second halving leaves three eighths alone -/
example : Alone cube0 diag0 ⟨f (3/8), f (3/8), f (3/8)⟩ := by
  have r0 := (ex_num 0 false 0 (by decide +kernel)).2
  have r1 := (ex_num 1 false 1 (by decide +kernel)).2
  have r2 := (ex_num (1/2) false (1/2) (by decide +kernel)).2
  have r4 := (ex_num (1/4) false (1/4) (by decide +kernel)).2
  have r8 := (ex_num (1/8) false (1/8) (by decide +kernel)).2
  have r3 := (ex_num (3/8) false (3/8) (by decide +kernel)).2
  have m1 : middle (f 0, f 1) = f (1/2) := by decide +kernel
  have m2 : middle (f 0, f (1/2)) = f (1/4) := by decide +kernel
  simp only [val] at r0 r1 r2 r4 r8 r3
  have hn : Narrow (f (3/8)) 2 (f 0, f 1) (f (1/4), f (1/2)) := by
    refine .left ?_ ?_
    · rw [m1]; simp only [Within, r0, r2, r3]; norm_num
    · rw [m1]
      refine .right ?_ ?_
      · rw [m2]; simp only [Within, r4, r2, r3]; norm_num
      · rw [m2]; exact .zero _
  refine ⟨2, by decide, fun _ => (f (1/4), f (1/2)), forall_fin3.2 ⟨hn, hn, hn⟩, fun q hq hqp => ⟨0, ?_⟩⟩
  simp only [diag0, List.mem_cons, List.not_mem_nil, or_false] at hq
  rcases hq with rfl | rfl | rfl | rfl | rfl
  · simp only [Within, at3_zero, r0, r4]; norm_num
  · simp only [Within, at3_zero, r1, r2]; norm_num
  · simp only [Within, at3_zero, r8, r4]; norm_num
  · simp only [Within, at3_zero, r4]; norm_num
  · exact absurd rfl hqp

/-- one quarter is hit by a plane when it still shares its cell -/
example : ¬ Alone cube0 diag0 ⟨f (1/4), f (1/4), f (1/4)⟩ := by
  have r0 := (ex_num 0 false 0 (by decide +kernel)).2
  have r2 := (ex_num (1/2) false (1/2) (by decide +kernel)).2
  have r4 := (ex_num (1/4) false (1/4) (by decide +kernel)).2
  have r8 := (ex_num (1/8) false (1/8) (by decide +kernel)).2
  have m1 : middle (f 0, f 1) = f (1/2) := by decide +kernel
  have m2 : middle (f 0, f (1/2)) = f (1/4) := by decide +kernel
  simp only [val] at r0 r2 r4 r8
  have key : ∀ k c, Narrow (f (1/4)) (k + 1) (f 0, f 1) c → c = (f 0, f (1/2)) := by
    intro k c h
    cases h with
    | left hw hn =>
      simp only [m1] at hn
      cases hn with
      | zero => rfl
      | left hw hn => rw [m2] at hw; exact absurd hw.2 (lt_irrefl _)
      | right hw hn => rw [m2] at hw; exact absurd hw.1 (lt_irrefl _)
    | right hw hn => rw [m1] at hw; simp only [Within, r2, r4] at hw; norm_num at hw
  rintro ⟨k, hk, c, hn, hall⟩
  obtain ⟨k, rfl⟩ : ∃ j, k = j + 1 := ⟨k - 1, by omega⟩
  obtain ⟨d, hd⟩ := hall ⟨f (1/8), f (1/8), f (1/8)⟩ (by simp [diag0]) (by decide +kernel)
  refine hd ?_
  revert d
  rw [forall_fin3]
  refine ⟨fun _ => ?_, fun _ => ?_, fun _ => ?_⟩
  · rw [key k _ (hn 0)]; simp only [Within, at3_zero, r0, r8, r2]; norm_num
  · rw [key k _ (hn 1)]; simp only [Within, at3_one, r0, r8, r2]; norm_num
  · rw [key k _ (hn 2)]; simp only [Within, at3_two, r0, r8, r2]; norm_num

instance decComplete : (t : OcNode F64) → Decidable t.Complete
  | .nil => isTrue trivial
  | .diverged => isFalse id
  | .leaf _ => isTrue trivial
  | .node c =>
    haveI := fun d => decComplete (c d)
    decidable_of_iff (∀ d ∈ OcDir.all, (c d).Complete) ⟨fun h d => h d (OcNode.mem_all d), fun h d _ => h d⟩

/-- the octree of these points is built, complete, and keeps the two of them -/
example : (build 4 id old0 diag0).2 = .ok () ∧ (build 4 id old0 diag0).1.root.Complete ∧
    (build 4 id old0 diag0).1.toPointcloud = some [⟨f (3/8), f (3/8), f (3/8)⟩, ⟨f (1/8), f (1/8), f (1/8)⟩] ∧
    (build 4 id old0 diag0).1.bb = cube0 ∧ diag0.Nodup := by
  decide +kernel

end OcTree
end R3D

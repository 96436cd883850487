import Verif.Model.OcTree
import Verif.Props.BoundingBoxReal
import Mathlib.Data.List.Nodup
import Mathlib.Algebra.Order.Archimedean.Basic
namespace R3D
open Scalar LawfulScalar Spec
namespace OcNode

theorem mem_all (d : OcDir) : d ∈ OcDir.all := by cases d <;> decide
theorem nodup_all : OcDir.all.Nodup := by decide

section
variable {α : Type}

/-- the points of the leaves -/
def points : OcNode α → List (Point3D α)
  | nil => []
  | diverged => []
  | leaf p => [p]
  | node c => OcDir.all.flatMap fun d => (c d).points

/-- the construction came to its end everywhere -/
def Complete : OcNode α → Prop
  | nil => True
  | diverged => False
  | leaf _ => True
  | node c => ∀ d, (c d).Complete

theorem mem_points_node {c : OcDir → OcNode α} {p : Point3D α} :
    p ∈ (node c).points ↔ ∃ d, p ∈ (c d).points := by
  simp only [points, List.mem_flatMap]
  exact ⟨fun ⟨d, _, h⟩ => ⟨d, h⟩, fun ⟨d, h⟩ => ⟨d, mem_all d, h⟩⟩

theorem mapM_some {β γ : Type} (f : β → Option γ) : ∀ (l : List β) (r : List γ),
    l.mapM f = some r → l.map f = r.map some := by
  intro l
  induction l with
  | nil => intro r h; simp at h; simp [h]
  | cons a l ih =>
    intro r h
    rw [List.mapM_cons] at h
    cases hfa : f a with
    | none => rw [hfa] at h; simp at h
    | some b =>
      rw [hfa] at h
      cases hl : l.mapM f with
      | none => rw [hl] at h; simp at h
      | some bs =>
        rw [hl] at h
        simp at h
        rw [← h, List.map_cons, List.map_cons, ih bs hl, hfa]

theorem size_eq (t : OcNode α) : t.size = t.points.length := by
  induction t with
  | nil => rfl
  | diverged => rfl
  | leaf p => rfl
  | node c ih =>
    simp only [size, points, List.length_flatMap]
    congr 1
    exact List.map_congr_left fun d _ => ih d

theorem isNil_points {t : OcNode α} (h : t.isNil = true) : t.points = [] := by
  cases t <;> simp [isNil] at h; rfl

variable [Scalar α]

theorem collectNode_neg (m : Int) (hm : m < 0) (t : OcNode α) : ∀ (depth : Nat) (r : List (Point3D α)),
    t.collectNode m depth = some r → r = t.points := by
  induction t with
  | nil => intro d r h; simp [collectNode] at h; simp [← h, points]
  | diverged => intro d r h; simp [collectNode] at h; simp [← h, points]
  | leaf p => intro d r h; simp [collectNode] at h; simp [← h, points]
  | node c ih =>
    intro depth r h
    simp only [collectNode, Option.map_eq_some_iff] at h
    obtain ⟨rs, h1, rfl⟩ := h
    have h2 := mapM_some _ _ _ h1
    rw [points, List.flatMap]
    congr 1
    have : OcDir.all.map (fun d => some (c d).points) = rs.map some := by
      rw [← h2]
      refine List.map_congr_left fun d hd => ?_
      have hs : ∃ x, (if (c d).isNil then some [] else if depth + 1 > 127 then none
          else if (decide (m ≥ 0) && decide ((depth : Int) > m)) = true then
            (collectNode m (c d) (depth + 1)).map fun sub => (centerOfGravity3d sub).toList
          else collectNode m (c d) (depth + 1)) = some x := by
        have : (if (c d).isNil then some [] else if depth + 1 > 127 then none
          else if (decide (m ≥ 0) && decide ((depth : Int) > m)) = true then
            (collectNode m (c d) (depth + 1)).map fun sub => (centerOfGravity3d sub).toList
          else collectNode m (c d) (depth + 1)) ∈ rs.map some := by
          rw [← h2]; exact List.mem_map_of_mem hd
        obtain ⟨x, _, hx⟩ := List.mem_map.1 this
        exact ⟨x, hx.symm⟩
      by_cases hn : (c d).isNil = true
      · rw [if_pos hn, isNil_points hn]
      · rw [if_neg hn] at hs ⊢
        by_cases h127 : depth + 1 > 127
        · rw [if_pos h127] at hs; simp at hs
        · rw [if_neg h127] at hs ⊢
          have : ¬ (decide (m ≥ 0) && decide ((depth : Int) > m)) = true := by
            simp; omega
          rw [if_neg this] at hs ⊢
          obtain ⟨x, hx⟩ := hs
          rw [hx, ih d _ _ hx]
    have h3 := congrArg (List.map (fun o : Option (List (Point3D α)) => o.getD [])) this
    simp only [List.map_map, Function.comp_def, Option.getD_some, List.map_id'] at h3
    exact h3.symm

theorem newNode_mem : ∀ (fuel : Nat) (bb : BoundingBox3D α) (pc : List (Point3D α)) (t : OcNode α),
    newNode fuel bb pc = .ok t → ∀ p ∈ t.points, p ∈ pc := by
  intro fuel
  induction fuel with
  | zero => intro bb pc t h p hp; simp [newNode] at h; rw [← h] at hp; simp [points] at hp
  | succ fuel ih =>
    intro bb pc t h p hp
    unfold newNode at h
    split at h
    · injection h with h; rw [← h] at hp; simpa [points] using hp
    · split at h
      · simp at h
      · rename_i bbs _
        injection h with h
        rw [← h, mem_points_node] at hp
        obtain ⟨d, hd⟩ := hp
        dsimp only at hd
        split at hd
        · simp [points] at hd
        · split at hd
          · simp [points] at hd
          · rename_i x hx
            exact (List.mem_filter.1 (ih _ _ _ hx p hd)).1

theorem newNode_nodup : ∀ (fuel : Nat) (bb : BoundingBox3D α) (pc : List (Point3D α)) (t : OcNode α),
    newNode fuel bb pc = .ok t → pc.Nodup → t.points.Nodup := by
  intro fuel
  induction fuel with
  | zero => intro bb pc t h _; simp [newNode] at h; rw [← h]; simp [points]
  | succ fuel ih =>
    intro bb pc t h hnd
    unfold newNode at h
    split at h
    · injection h with h; rw [← h]; simp [points]
    · split at h
      · simp at h
      · rename_i bbs _
        injection h with h
        rw [← h, points, List.nodup_flatMap]
        have hsub : ∀ d, ∀ p ∈ (match (pc.filter fun p => decide (cellOf bbs p = some d)).length with
            | 0 => nil
            | _ => match newNode fuel (bbs d) (pc.filter fun p => decide (cellOf bbs p = some d)) with
              | .error _ => nil
              | .ok x => x).points, cellOf bbs p = some d := by
          intro d p hp
          split at hp
          · simp [points] at hp
          · split at hp
            · simp [points] at hp
            · rename_i x hx
              simpa using (List.mem_filter.1 (newNode_mem _ _ _ _ hx p hp)).2
        refine ⟨fun d _ => ?_, ?_⟩
        · dsimp only
          split
          · simp [points]
          · split
            · simp [points]
            · rename_i x hx
              exact ih _ _ _ hx (hnd.filter _)
        · refine nodup_all.imp fun {a b} hab => ?_
          intro p hpa hpb
          have h1 := hsub a p hpa
          have h2 := hsub b p hpb
          rw [h1] at h2
          exact hab (Option.some.inj h2)

theorem cellOf_contains {bbs : OcDir → BoundingBox3D α} {p : Point3D α} {d : OcDir}
    (h : cellOf bbs p = some d) : (bbs d).contains p = true := by
  unfold cellOf at h
  exact List.find?_some (p := fun d => (bbs d).contains p) h

variable [LawfulScalar α]

theorem new_ok {a b : Point3D α} {c : BoundingBox3D α} (h : BoundingBox3D.new a b = .ok c) :
    c = ⟨a, b⟩ ∧ ∀ d, ok (at3 a d) → ok (at3 b d) → key (at3 a d) < key (at3 b d) := by
  unfold BoundingBox3D.new at h
  split at h
  · simp at h
  · split at h
    · simp at h
    · rename_i h1 h2
      injection h with h
      refine ⟨h.symm, ?_⟩
      simp only [Bool.or_eq_true, not_or] at h1 h2
      rw [forall_fin3]
      simp only [at3_zero, at3_one, at3_two]
      refine ⟨fun ha hb => ?_, fun ha hb => ?_, fun ha hb => ?_⟩
      · have e1 := h1.1.1; have e2 := h2.1.1
        rw [eq_of_ok ha hb] at e1; rw [lt_of_ok hb ha, not_lt] at e2
        exact lt_of_le_of_ne e2 e1
      · have e1 := h1.1.2; have e2 := h2.1.2
        rw [eq_of_ok ha hb] at e1; rw [lt_of_ok hb ha, not_lt] at e2
        exact lt_of_le_of_ne e2 e1
      · have e1 := h1.2; have e2 := h2.2
        rw [eq_of_ok ha hb] at e1; rw [lt_of_ok hb ha, not_lt] at e2
        exact lt_of_le_of_ne e2 e1

omit [LawfulScalar α] in
/-- the eight boxes come from the eight calls -/
theorem subBoxes_ok {bb : BoundingBox3D α} {bbs : OcDir → BoundingBox3D α} (h : subBoxes bb = .ok bbs) :
    (∀ d, ∃ b, calcSubMinMax d bb = .ok b ∧ bbs d = b) := by
  unfold subBoxes at h
  simp only [bind, Except.bind, pure, Except.pure] at h
  repeat' split at h
  all_goals first
    | (exfalso; simp at h; done)
    | skip
  injection h with h
  subst h
  intro d
  cases d <;> exact ⟨_, by assumption, rfl⟩

theorem sub_interior {bb : BoundingBox3D α} {bbs : OcDir → BoundingBox3D α} (h : subBoxes bb = .ok bbs)
    (hbb : (box3 bb).Ok) {d : OcDir} {p : Point3D α} (hp : (bbs d).contains p = true) :
    (box3 bb).MemInt (at3 p) := by
  have hs := subBoxes_ok h
  obtain ⟨b1, e1, -⟩ := hs .NNN
  obtain ⟨b2, e2, -⟩ := hs .PPP
  have l := (new_ok e1).2
  have u := (new_ok e2).2
  have hbb' := hbb
  simp only [Box.Ok, box3, forall_fin3, at3_zero, at3_one, at3_two] at hbb' l u
  obtain ⟨⟨o1, o2⟩, ⟨o3, o4⟩, o5, o6⟩ := hbb'
  obtain ⟨b, eb, ebb⟩ := hs d
  rw [ebb] at hp
  obtain ⟨l1, l2, l3⟩ := l
  obtain ⟨u1, u2, u3⟩ := u
  have l1 := l1 o1; have l2 := l2 o3; have l3 := l3 o5
  have u1 := fun h => u1 h o2; have u2 := fun h => u2 h o4; have u3 := fun h => u3 h o6
  simp only [Box.MemInt, box3, forall_fin3, at3_zero, at3_one, at3_two]
  cases d <;>
  · have hb := (new_ok eb).1
    subst hb
    simp only [BoundingBox3D.contains, Bool.and_eq_true, lt_iff] at hp
    obtain ⟨⟨⟨⟨⟨a1, a2⟩, a3⟩, a4⟩, a5⟩, a6⟩ := hp
    refine ⟨⟨?_, ?_⟩, ⟨?_, ?_⟩, ?_, ?_⟩
    all_goals first
      | exact a1.2.2
      | exact a2.2.2
      | exact a3.2.2
      | exact a4.2.2
      | exact a5.2.2
      | exact a6.2.2
      | exact (l1 a1.1).trans a1.2.2
      | exact (l2 a3.1).trans a3.2.2
      | exact (l3 a5.1).trans a5.2.2
      | exact a2.2.2.trans (u1 a2.2.1)
      | exact a4.2.2.trans (u2 a4.2.1)
      | exact a6.2.2.trans (u3 a6.2.1)

/-- every point kept in an inner node is strictly inside the box of the node -/
theorem newNode_interior (fuel : Nat) (bb : BoundingBox3D α) (pc : List (Point3D α)) (t : OcNode α)
    (h : newNode fuel bb pc = .ok t) (hbb : (box3 bb).Ok) (hpc : pc.length ≠ 1) :
    ∀ p ∈ t.points, (box3 bb).MemInt (at3 p) := by
  intro p hp
  match fuel with
  | 0 => simp [newNode] at h; rw [← h] at hp; simp [points] at hp
  | fuel + 1 =>
    unfold newNode at h
    split at h
    · simp at hpc
    · split at h
      · simp at h
      · rename_i bbs hb
        injection h with h
        rw [← h, mem_points_node] at hp
        obtain ⟨d, hd⟩ := hp
        dsimp only at hd
        split at hd
        · simp [points] at hd
        · split at hd
          · simp [points] at hd
          · rename_i x hx
            have := (List.mem_filter.1 (newNode_mem _ _ _ _ hx p hd)).2
            exact sub_interior hb hbb (cellOf_contains (of_decide_eq_true this))

end

/-! ### exact arithmetic -/

/-- the sub box of a direction -/
noncomputable def subBox (bb : BoundingBox3D ℝ) : OcDir → BoundingBox3D ℝ :=
  let mx := (bb.min.x + bb.max.x) / 2
  let my := (bb.min.y + bb.max.y) / 2
  let mz := (bb.min.z + bb.max.z) / 2
  fun
  | .PPP => ⟨⟨mx, my, mz⟩, ⟨bb.max.x, bb.max.y, bb.max.z⟩⟩
  | .PPN => ⟨⟨mx, my, bb.min.z⟩, ⟨bb.max.x, bb.max.y, mz⟩⟩
  | .PNP => ⟨⟨mx, bb.min.y, mz⟩, ⟨bb.max.x, my, bb.max.z⟩⟩
  | .PNN => ⟨⟨mx, bb.min.y, bb.min.z⟩, ⟨bb.max.x, my, mz⟩⟩
  | .NPP => ⟨⟨bb.min.x, my, mz⟩, ⟨mx, bb.max.y, bb.max.z⟩⟩
  | .NPN => ⟨⟨bb.min.x, my, bb.min.z⟩, ⟨mx, bb.max.y, mz⟩⟩
  | .NNP => ⟨⟨bb.min.x, bb.min.y, mz⟩, ⟨mx, my, bb.max.z⟩⟩
  | .NNN => ⟨⟨bb.min.x, bb.min.y, bb.min.z⟩, ⟨mx, my, mz⟩⟩

theorem new_real {a b : Point3D ℝ} (hx : a.x < b.x) (hy : a.y < b.y) (hz : a.z < b.z) :
    BoundingBox3D.new a b = .ok ⟨a, b⟩ := by
  simp [BoundingBox3D.new, hx.ne, hy.ne, hz.ne, hx.le, hy.le, hz.le]

theorem center_real (p q : Point3D ℝ) :
    center3d p q = ⟨(p.x + q.x) / 2, (p.y + q.y) / 2, (p.z + q.z) / 2⟩ := by
  simp only [center3d, Real.scalar_lit, Rat.cast_ofNat, Point3D.mk.injEq]
  refine ⟨?_, ?_, ?_⟩ <;> ring

theorem subBoxes_real {bb : BoundingBox3D ℝ} (h : (box3 bb).Valid) : subBoxes bb = .ok (subBox bb) := by
  obtain ⟨hx, hy, hz⟩ := (valid_real_3d bb).1 h
  have x1 : bb.min.x < (bb.min.x + bb.max.x) / 2 := by linarith
  have x2 : (bb.min.x + bb.max.x) / 2 < bb.max.x := by linarith
  have y1 : bb.min.y < (bb.min.y + bb.max.y) / 2 := by linarith
  have y2 : (bb.min.y + bb.max.y) / 2 < bb.max.y := by linarith
  have z1 : bb.min.z < (bb.min.z + bb.max.z) / 2 := by linarith
  have z2 : (bb.min.z + bb.max.z) / 2 < bb.max.z := by linarith
  have e : ∀ d, calcSubMinMax d bb = .ok (subBox bb d) := by
    intro d
    unfold calcSubMinMax
    simp only [center_real]
    cases d <;> exact new_real (by assumption) (by assumption) (by assumption)
  unfold subBoxes
  simp only [e, bind, Except.bind, pure, Except.pure]
  congr 1

/-- one dimension of a sub box is a half of the box -/
def Half (lo hi lo' hi' : ℝ) : Prop :=
  (lo' = lo ∧ hi' = (lo + hi) / 2) ∨ (lo' = (lo + hi) / 2 ∧ hi' = hi)

theorem subBox_half (bb : BoundingBox3D ℝ) (c : OcDir) (d : Fin 3) :
    Half ((box3 bb).lo d) ((box3 bb).hi d) ((box3 (subBox bb c)).lo d) ((box3 (subBox bb c)).hi d) := by
  revert d
  rw [forall_fin3]
  simp only [box3, at3_zero, at3_one, at3_two, Half]
  cases c <;> simp [subBox]

theorem subBox_valid {bb : BoundingBox3D ℝ} (h : (box3 bb).Valid) (c : OcDir) :
    (box3 (subBox bb c)).Valid := by
  refine ⟨fun d => ⟨trivial, trivial⟩, fun d => ?_⟩
  have h1 := h.2 d
  rw [Real.key_lt] at h1 ⊢
  rcases subBox_half bb c d with ⟨e1, e2⟩ | ⟨e1, e2⟩ <;> rw [e1, e2] <;> linarith

theorem contains_real (b : BoundingBox3D ℝ) (p : Point3D ℝ) :
    b.contains p = true ↔ ∀ d, (box3 b).lo d < at3 p d ∧ at3 p d < (box3 b).hi d := by
  rw [forall_fin3]
  simp only [BoundingBox3D.contains, Bool.and_eq_true, Real.scalar_lt, decide_eq_true_eq, box3, at3_zero,
    at3_one, at3_two]
  tauto

/-- different points differ by at least `δ` somewhere -/
def Sep (δ : ℝ) (pc : List (Point3D ℝ)) : Prop :=
  ∀ p ∈ pc, ∀ q ∈ pc, p ≠ q → ∃ d, δ ≤ |at3 p d - at3 q d|

theorem exists_sep (pc : List (Point3D ℝ)) : ∃ δ, 0 < δ ∧ Sep δ pc := by
  have one : ∀ (p : Point3D ℝ) (l : List (Point3D ℝ)), ∃ δ, 0 < δ ∧ ∀ q ∈ l, p ≠ q →
      ∃ d, δ ≤ |at3 p d - at3 q d| := by
    intro p l
    induction l with
    | nil => exact ⟨1, one_pos, by simp⟩
    | cons a l ih =>
      obtain ⟨δ, h0, h⟩ := ih
      by_cases hpa : p = a
      · refine ⟨δ, h0, fun q hq hne => ?_⟩
        rcases List.mem_cons.1 hq with rfl | hq
        · exact absurd hpa hne
        · exact h q hq hne
      · obtain ⟨d, hd⟩ : ∃ d, at3 p d ≠ at3 a d := by
          by_contra hc
          push Not at hc
          exact hpa (ext3 hc)
        refine ⟨min δ |at3 p d - at3 a d|, lt_min h0 (abs_pos.2 (sub_ne_zero.2 hd)), fun q hq hne => ?_⟩
        rcases List.mem_cons.1 hq with rfl | hq
        · exact ⟨d, min_le_right _ _⟩
        · obtain ⟨d', hd'⟩ := h q hq hne
          exact ⟨d', (min_le_left _ _).trans hd'⟩
  have all : ∀ l : List (Point3D ℝ), ∃ δ, 0 < δ ∧ ∀ p ∈ l, ∀ q ∈ pc, p ≠ q →
      ∃ d, δ ≤ |at3 p d - at3 q d| := by
    intro l
    induction l with
    | nil => exact ⟨1, one_pos, by simp⟩
    | cons a l ih =>
      obtain ⟨δ, h0, h⟩ := ih
      obtain ⟨ε, h1, h2⟩ := one a pc
      refine ⟨min δ ε, lt_min h0 h1, fun p hp q hq hne => ?_⟩
      rcases List.mem_cons.1 hp with rfl | hp
      · obtain ⟨d, hd⟩ := h2 q hq hne; exact ⟨d, (min_le_right _ _).trans hd⟩
      · obtain ⟨d, hd⟩ := h p hp q hq hne; exact ⟨d, (min_le_left _ _).trans hd⟩
  exact all pc

theorem newNode_terminates (δ : ℝ) : ∀ (k : Nat) (bb : BoundingBox3D ℝ)
    (pc : List (Point3D ℝ)), (box3 bb).Valid → Sep δ pc → pc.Nodup → pc ≠ [] →
    (∀ p ∈ pc, ∀ d, (box3 bb).lo d ≤ at3 p d ∧ at3 p d ≤ (box3 bb).hi d) →
    (∀ d, (box3 bb).hi d - (box3 bb).lo d < δ * 2 ^ k) →
    ∃ t : OcNode ℝ, t.Complete ∧ ∀ fuel, k + 1 ≤ fuel → newNode fuel bb pc = .ok t := by
  intro k
  induction k with
  | zero =>
    intro bb pc _ hsep hnd hne hin hsz
    match pc with
    | [] => exact absurd rfl hne
    | [p] =>
      refine ⟨leaf p, trivial, fun fuel hf => ?_⟩
      obtain ⟨f, rfl⟩ := Nat.exists_eq_add_of_le' hf
      rfl
    | p :: q :: r =>
      exfalso
      have hpq : p ≠ q := by
        intro e; subst e; simp at hnd
      obtain ⟨d, hd⟩ := hsep p (by simp) q (by simp) hpq
      have h1 := hin p (by simp) d
      have h2 := hin q (by simp) d
      have h3 := hsz d
      rw [pow_zero, mul_one] at h3
      have : |at3 p d - at3 q d| ≤ (box3 bb).hi d - (box3 bb).lo d := by
        rw [abs_le]; constructor <;> linarith [h1.1, h1.2, h2.1, h2.2]
      linarith
  | succ k ih =>
    intro bb pc hv hsep hnd hne hin hsz
    match pc with
    | [] => exact absurd rfl hne
    | [p] =>
      refine ⟨leaf p, trivial, fun fuel hf => ?_⟩
      obtain ⟨f, rfl⟩ := Nat.exists_eq_add_of_le' hf
      rfl
    | p :: q :: r =>
      generalize hl : p :: q :: r = l at hsep hnd hin
      have hsub : ∀ c, ∃ t : OcNode ℝ, t.Complete ∧ ∀ fuel, k + 1 ≤ fuel →
          (match (l.filter fun p => decide (cellOf (subBox bb) p = some c)).length with
            | 0 => nil
            | _ => match newNode fuel (subBox bb c) (l.filter fun p => decide (cellOf (subBox bb) p = some c)) with
              | .error _ => nil
              | .ok x => x) = t := by
        intro c
        by_cases he : (l.filter fun p => decide (cellOf (subBox bb) p = some c)) = []
        · exact ⟨nil, trivial, fun fuel _ => by rw [he]; rfl⟩
        · obtain ⟨t, ht, hf⟩ := ih (subBox bb c) _ (subBox_valid hv c)
            (fun p hp q hq => hsep p (List.mem_filter.1 hp).1 q (List.mem_filter.1 hq).1)
            (hnd.filter _) he (fun p hp d => by
              have := (contains_real _ _).1 (cellOf_contains (of_decide_eq_true (List.mem_filter.1 hp).2)) d
              exact ⟨this.1.le, this.2.le⟩) (fun d => by
              have h1 := hsz d
              rw [pow_succ] at h1
              rcases subBox_half bb c d with ⟨e1, e2⟩ | ⟨e1, e2⟩ <;> rw [e1, e2] <;> linarith)
          refine ⟨t, ht, fun fuel hk => ?_⟩
          obtain ⟨a, b, hab⟩ := List.exists_cons_of_ne_nil he
          rw [hf fuel hk, hab]
          rfl
      choose t ht hft using hsub
      refine ⟨node t, ht, fun fuel hf => ?_⟩
      obtain ⟨f, rfl⟩ := Nat.exists_eq_add_of_le' (Nat.le_of_succ_le hf)
      rw [← Nat.add_assoc] at hf ⊢
      unfold newNode
      split
      · exact absurd hl (by simp)
      · rw [subBoxes_real hv]
        simp only
        congr 2
        funext c
        rw [← hft c (f + k) (by omega)]
        generalize List.filter (fun p => decide (cellOf (subBox bb) p = some c)) l = s
        cases s.length with
        | zero => rfl
        | succ n => cases newNode (f + k) (subBox bb c) s <;> rfl

/-- on a plane that bounds some cell of the tree over `[lo, hi]` -/
def Dyadic (lo hi x : ℝ) : Prop := ∃ m k : ℕ, x = lo + m / 2 ^ k * (hi - lo)

theorem dyadic_half {lo hi lo' hi' x : ℝ} (h : Half lo hi lo' hi') (hx : Dyadic lo' hi' x) :
    Dyadic lo hi x := by
  obtain ⟨m, k, rfl⟩ := hx
  have h2 : (2:ℝ) ^ k ≠ 0 := by positivity
  rcases h with ⟨rfl, rfl⟩ | ⟨rfl, rfl⟩
  · refine ⟨m, k + 1, ?_⟩
    rw [pow_succ]; field_simp; ring
  · refine ⟨2 ^ k + m, k + 1, ?_⟩
    push_cast
    rw [pow_succ]; field_simp; ring

theorem newNode_keeps : ∀ (fuel : Nat) (bb : BoundingBox3D ℝ) (pc : List (Point3D ℝ)) (t : OcNode ℝ)
    (p : Point3D ℝ), newNode fuel bb pc = .ok t → t.Complete → (box3 bb).Valid → p ∈ pc →
    (∀ d, (box3 bb).lo d ≤ at3 p d ∧ at3 p d ≤ (box3 bb).hi d) →
    (∀ d, ¬ Dyadic ((box3 bb).lo d) ((box3 bb).hi d) (at3 p d)) → p ∈ t.points := by
  intro fuel
  induction fuel with
  | zero =>
    intro bb pc t p h hc
    simp [newNode] at h; rw [← h] at hc; exact absurd hc id
  | succ fuel ih =>
    intro bb pc t p h hc hv hp hin hdy
    unfold newNode at h
    split at h
    · injection h with h; rw [← h]; simpa [points] using hp
    · rw [subBoxes_real hv] at h
      simp only at h
      injection h with h
      rw [← h, mem_points_node]
      -- the cell of `p`
      have hne : ∀ d, (box3 bb).lo d < at3 p d ∧ at3 p d < (box3 bb).hi d ∧
          at3 p d ≠ ((box3 bb).lo d + (box3 bb).hi d) / 2 := by
        intro d
        refine ⟨lt_of_le_of_ne (hin d).1 ?_, lt_of_le_of_ne (hin d).2 ?_, ?_⟩
        · intro e; exact hdy d ⟨0, 0, by simp [e]⟩
        · intro e; exact hdy d ⟨1, 0, by simp [e]⟩
        · intro e; exact hdy d ⟨1, 1, by rw [e]; norm_num; ring⟩
      have hex : ∃ c, (subBox bb c).contains p = true := by
        simp only [forall_fin3, box3, at3_zero, at3_one, at3_two] at hne
        obtain ⟨⟨a1, a2, a3⟩, ⟨b1, b2, b3⟩, c1, c2, c3⟩ := hne
        simp only [contains_real, forall_fin3, box3, at3_zero, at3_one, at3_two]
        rcases lt_or_gt_of_ne a3 with a3 | a3 <;> rcases lt_or_gt_of_ne b3 with b3 | b3 <;>
          rcases lt_or_gt_of_ne c3 with c3 | c3
        · exact ⟨.NNN, ⟨a1, a3⟩, ⟨b1, b3⟩, c1, c3⟩
        · exact ⟨.NNP, ⟨a1, a3⟩, ⟨b1, b3⟩, c3, c2⟩
        · exact ⟨.NPN, ⟨a1, a3⟩, ⟨b3, b2⟩, c1, c3⟩
        · exact ⟨.NPP, ⟨a1, a3⟩, ⟨b3, b2⟩, c3, c2⟩
        · exact ⟨.PNN, ⟨a3, a2⟩, ⟨b1, b3⟩, c1, c3⟩
        · exact ⟨.PNP, ⟨a3, a2⟩, ⟨b1, b3⟩, c3, c2⟩
        · exact ⟨.PPN, ⟨a3, a2⟩, ⟨b3, b2⟩, c1, c3⟩
        · exact ⟨.PPP, ⟨a3, a2⟩, ⟨b3, b2⟩, c3, c2⟩
      obtain ⟨c, hcell⟩ : ∃ c, cellOf (subBox bb) p = some c := by
        rw [← Option.isSome_iff_exists]
        unfold cellOf
        rw [List.find?_isSome]
        obtain ⟨c, h⟩ := hex
        exact ⟨c, mem_all c, h⟩
      have hmem : p ∈ pc.filter fun p => decide (cellOf (subBox bb) p = some c) :=
        List.mem_filter.2 ⟨hp, decide_eq_true hcell⟩
      refine ⟨c, ?_⟩
      rw [← h] at hc
      have hcc := hc c
      dsimp only at hcc
      split
      · rename_i h0
        rw [List.length_eq_zero_iff.1 h0] at hmem
        simp at hmem
      · split
        · rename_i e he
          -- no error with exact arithmetic
          exfalso
          match fuel, he with
          | 0, he => simp [newNode] at he
          | f + 1, he =>
            unfold newNode at he
            split at he
            · simp at he
            · rw [subBoxes_real (subBox_valid hv c)] at he
              simp at he
        · rename_i x hx
          split at hcc
          · contradiction
          · rw [hx] at hcc
            refine ih _ _ x p hx hcc (subBox_valid hv c) hmem (fun d => ?_) (fun d hd => ?_)
            · have := (contains_real _ _).1 (cellOf_contains hcell) d
              exact ⟨this.1.le, this.2.le⟩
            · exact hdy d (dyadic_half (subBox_half bb c d) hd)

end OcNode
end R3D

namespace R3D
open Scalar LawfulScalar Spec
namespace OcNode

/-- a chain of `n` inner nodes in the lowest corner -/
def Spine {α : Type} : Nat → OcNode α → Prop
  | 0, _ => True
  | n + 1, node c => Spine n (c .NNN)
  | _ + 1, _ => False

theorem collectNode_deep {α : Type} [Scalar α] (m : Int) : ∀ (n : Nat) (t : OcNode α) (depth : Nat), Spine (n + 2) t →
    127 < depth + 1 + n → t.collectNode m depth = none := by
  intro n
  induction n with
  | zero =>
    intro t depth ht hd
    match t, ht with
    | node c, ht =>
      cases hm : (node c).collectNode m depth with
      | none => rfl
      | some r =>
        exfalso
        simp only [collectNode, Option.map_eq_some_iff] at hm
        obtain ⟨rs, h1, -⟩ := hm
        have h2 := mapM_some _ _ _ h1
        have := List.mem_map_of_mem (f := fun d => if (c d).isNil then some [] else if depth + 1 > 127 then none
          else if (decide (m ≥ 0) && decide ((depth : Int) > m)) = true then
            (collectNode m (c d) (depth + 1)).map fun sub => (centerOfGravity3d sub).toList
          else collectNode m (c d) (depth + 1)) (mem_all .NNN)
        rw [h2] at this
        have hn : (c .NNN).isNil = false := by
          have ht : Spine 1 (c .NNN) := ht
          cases h : c .NNN <;> rw [h] at ht <;> first | rfl | exact absurd ht id
        rw [hn, if_neg (by simp), if_pos (by omega)] at this
        simp at this
  | succ n ih =>
    intro t depth ht hd
    match t, ht with
    | node c, ht =>
      cases hm : (node c).collectNode m depth with
      | none => rfl
      | some r =>
        exfalso
        simp only [collectNode, Option.map_eq_some_iff] at hm
        obtain ⟨rs, h1, -⟩ := hm
        have h2 := mapM_some _ _ _ h1
        have := List.mem_map_of_mem (f := fun d => if (c d).isNil then some [] else if depth + 1 > 127 then none
          else if (decide (m ≥ 0) && decide ((depth : Int) > m)) = true then
            (collectNode m (c d) (depth + 1)).map fun sub => (centerOfGravity3d sub).toList
          else collectNode m (c d) (depth + 1)) (mem_all .NNN)
        rw [h2] at this
        have ht : Spine (n + 2) (c .NNN) := ht
        have hn : (c .NNN).isNil = false := by
          cases h : c .NNN <;> rw [h] at ht <;> first | rfl | exact absurd ht id
        rw [ih (c .NNN) (depth + 1) ht (by omega), hn, if_neg (by simp)] at this
        simp at this

theorem newNode_spine : ∀ (n fuel : Nat) (s : ℝ) (pc : List (Point3D ℝ)) (t : OcNode ℝ) (p q : Point3D ℝ),
    newNode fuel ⟨⟨0, 0, 0⟩, ⟨s, s, s⟩⟩ pc = .ok t → t.Complete → 0 < s → p ∈ pc → q ∈ pc → p ≠ q →
    (∀ d, 0 < at3 p d ∧ at3 p d < s / 2 ^ n) → (∀ d, 0 < at3 q d ∧ at3 q d < s / 2 ^ n) →
    Spine (n + 1) t := by
  intro n
  induction n with
  | zero =>
    intro fuel s pc t p q h hc hs hp hq hpq _ _
    match fuel with
    | 0 => simp [newNode] at h; rw [← h] at hc; exact absurd hc id
    | f + 1 =>
      unfold newNode at h
      split at h
      · rw [List.mem_singleton] at hp hq; exact absurd (hp.trans hq.symm) hpq
      · split at h
        · simp at h
        · injection h with h
          rw [← h]; trivial
  | succ n ih =>
    intro fuel s pc t p q h hc hs hp hq hpq hpn hqn
    match fuel with
    | 0 => simp [newNode] at h; rw [← h] at hc; exact absurd hc id
    | f + 1 =>
      have hv : (box3 (⟨⟨0, 0, 0⟩, ⟨s, s, s⟩⟩ : BoundingBox3D ℝ)).Valid := by
        rw [valid_real_3d]; exact ⟨hs, hs, hs⟩
      have hbox : subBox ⟨⟨0, 0, 0⟩, ⟨s, s, s⟩⟩ .NNN = ⟨⟨0, 0, 0⟩, ⟨s / 2, s / 2, s / 2⟩⟩ := by
        simp [subBox]
      have hle : s / 2 ^ (n + 1) ≤ s / 2 := by
        apply div_le_div_of_nonneg_left hs.le (by norm_num)
        calc (2:ℝ) = 2 ^ 1 := by norm_num
          _ ≤ 2 ^ (n + 1) := pow_le_pow_right₀ one_le_two (by omega)
      have hdiv : s / 2 ^ (n + 1) = s / 2 / 2 ^ n := by rw [pow_succ, mul_comm, div_div]
      -- both fall into the lowest cell
      have cell : ∀ x : Point3D ℝ, (∀ d, 0 < at3 x d ∧ at3 x d < s / 2 ^ (n + 1)) →
          cellOf (subBox ⟨⟨0, 0, 0⟩, ⟨s, s, s⟩⟩) x = some .NNN := by
        intro x hx
        have hin : (subBox ⟨⟨0, 0, 0⟩, ⟨s, s, s⟩⟩ .NNN).contains x = true := by
          rw [hbox, contains_real]
          intro d
          have := hx d
          revert d
          rw [forall_fin3]
          exact ⟨fun h => ⟨h.1, h.2.trans_le hle⟩, fun h => ⟨h.1, h.2.trans_le hle⟩,
            fun h => ⟨h.1, h.2.trans_le hle⟩⟩
        obtain ⟨c, hc⟩ : ∃ c, cellOf (subBox ⟨⟨0, 0, 0⟩, ⟨s, s, s⟩⟩) x = some c := by
          rw [← Option.isSome_iff_exists]
          unfold cellOf
          rw [List.find?_isSome]
          exact ⟨_, mem_all .NNN, hin⟩
        rw [hc]
        have h1 := (contains_real _ _).1 (cellOf_contains hc)
        have h2 := hx 0; have h3 := hx 1; have h4 := hx 2
        simp only [forall_fin3, box3, at3_zero, at3_one, at3_two] at h1 h2 h3 h4
        cases c <;> simp only [subBox] at h1 <;> first | rfl | (exfalso; linarith [h1.1.1, h1.2.1.1, h1.2.2.1])
      unfold newNode at h
      split at h
      · rw [List.mem_singleton] at hp hq; exact absurd (hp.trans hq.symm) hpq
      · rw [subBoxes_real hv] at h
        simp only at h
        injection h with h
        have hp' : p ∈ pc.filter fun p => decide (cellOf (subBox ⟨⟨0, 0, 0⟩, ⟨s, s, s⟩⟩) p = some .NNN) :=
          List.mem_filter.2 ⟨hp, decide_eq_true (cell p hpn)⟩
        have hq' : q ∈ pc.filter fun p => decide (cellOf (subBox ⟨⟨0, 0, 0⟩, ⟨s, s, s⟩⟩) p = some .NNN) :=
          List.mem_filter.2 ⟨hq, decide_eq_true (cell q hqn)⟩
        rw [← h] at hc ⊢
        have hcc := hc .NNN
        dsimp only at hcc
        show Spine (n + 1) _
        dsimp only
        split
        · rename_i h0
          rw [List.length_eq_zero_iff.1 h0] at hp'
          simp at hp'
        · split
          · rename_i e he
            exfalso
            match f, he with
            | 0, he => simp [newNode] at he
            | f + 1, he =>
              unfold newNode at he
              split at he
              · simp at he
              · rw [subBoxes_real (subBox_valid hv .NNN)] at he
                simp at he
          · rename_i x hx
            split at hcc
            · contradiction
            · rw [hx] at hcc
              rw [hbox] at hx
              refine ih f (s / 2) _ x p q hx hcc (by linarith) hp' hq' hpq ?_ ?_
              · rw [← hdiv]; exact hpn
              · rw [← hdiv]; exact hqn

end OcNode
end R3D

import Verif.Lemmas.OcDepth
import Verif.Props.KdTree
import Verif.Props.AABBTree
import Verif.Props.SimplifyFloat
/-!
C129: how deep the trees get, and with them the nested calls that build and read them.
-/
namespace R3D
open Scalar LawfulScalar Spec F64

namespace Spec
/-- levels of a kd-tree -/
def kdDepth {P : Type} : KdTree P → Nat
  | .nil => 0
  | .node l r _ _ => max (kdDepth l) (kdDepth r) + 1

/-- levels of a tree of boxes -/
def boxDepth {B HB : Type} : AABBTree B HB → Nat
  | .empty => 0
  | .leaf _ _ => 1
  | .branch l r _ => max (boxDepth l) (boxDepth r) + 1

/-- levels of an octree -/
def ocDepth {α : Type} : OcNode α → Nat
  | .nil => 0
  | .diverged => 0
  | .leaf _ => 1
  | .node c => ((OcDir.all.map fun d => ocDepth (c d)).foldr max 0) + 1

/-- number of binary digits -/
def digits (n : Nat) : Nat := if n = 0 then 0 else Nat.log2 n + 1
end Spec

theorem digits_half {n : Nat} (h : 1 ≤ n) : digits n = digits (n / 2) + 1 := by
  unfold digits
  rw [if_neg (by omega), Nat.log2_def]
  split
  · rw [if_neg (by omega)]
  · rw [if_pos (by omega)]

theorem digits_mono (b : Nat) : ∀ a, a ≤ b → digits a ≤ digits b := by
  induction b using Nat.strong_induction_on with
  | _ b ih =>
    intro a h
    by_cases ha : a = 0
    · rw [ha]; exact Nat.zero_le _
    · rw [digits_half (by omega : 1 ≤ a), digits_half (by omega : 1 ≤ b)]
      exact Nat.add_le_add_right (ih (b / 2) (by omega) _ (by omega)) 1

theorem digits_le (n : Nat) : digits n ≤ n := by
  induction n using Nat.strong_induction_on with
  | _ n ih =>
    by_cases hn : n = 0
    · rw [hn]; exact Nat.zero_le _
    · rw [digits_half (by omega : 1 ≤ n)]
      have := ih (n / 2) (by omega)
      omega

theorem kd_depth {α P : Type} [Scalar α] (pos : P → Point3D α) : ∀ (fuel dim : Nat) (pc : List P), digits pc.length ≤ fuel →
    kdDepth (KdTree.newNode pos fuel dim pc) = digits pc.length
  | 0, dim, pc, h => by
    have : pc.length = 0 := by
      by_contra hc
      rw [digits_half (by omega)] at h; omega
    rw [this]; rfl
  | fuel + 1, dim, pc, h => by
    match pc with
    | [] => rfl
    | [p] => rfl
    | a :: b :: l =>
      unfold KdTree.newNode
      simp only
      have hlen : (stableSort (KdTree.leDim pos (dim % 2)) (a :: b :: l)).length = (a :: b :: l).length := stableSort_length _
      generalize hg : stableSort (KdTree.leDim pos (dim % 2)) (a :: b :: l) = s at *
      rw [← hlen] at h ⊢
      have h2 : 2 ≤ s.length := by rw [hlen]; simp
      rw [List.getElem?_eq_getElem (by omega : s.length / 2 < s.length)]
      simp only [kdDepth]
      have hd := digits_half (n := s.length) (by omega)
      rw [kd_depth pos fuel _ _ (by rw [List.length_take, min_eq_left (by omega)]; omega),
        kd_depth pos fuel _ _ (by
          rw [List.length_drop]
          have := digits_mono (s.length / 2) (s.length - (s.length / 2 + 1)) (by omega)
          omega),
        List.length_take, List.length_drop, min_eq_left (by omega : s.length / 2 ≤ s.length), hd,
        max_eq_left (digits_mono _ _ (by omega))]

theorem kd_fuel {α P : Type} [Scalar α] (pos : P → Point3D α) : ∀ (fuel fuel' dim : Nat) (pc : List P), digits pc.length ≤ fuel → digits pc.length ≤ fuel' →
    KdTree.newNode pos fuel dim pc = KdTree.newNode pos fuel' dim pc
  | 0, fuel', dim, pc, h, h' => by
    have : pc.length = 0 := by
      by_contra hc
      rw [digits_half (by omega)] at h; omega
    rw [List.length_eq_zero_iff.1 this]
    cases fuel' <;> rfl
  | fuel + 1, 0, dim, pc, h, h' => by
    have : pc.length = 0 := by
      by_contra hc
      rw [digits_half (by omega)] at h'; omega
    rw [List.length_eq_zero_iff.1 this]
    rfl
  | fuel + 1, fuel' + 1, dim, pc, h, h' => by
    match pc with
    | [] => rfl
    | [p] => rfl
    | a :: b :: l =>
      unfold KdTree.newNode
      simp only
      have hlen : (stableSort (KdTree.leDim pos (dim % 2)) (a :: b :: l)).length = (a :: b :: l).length := stableSort_length _
      generalize hg : stableSort (KdTree.leDim pos (dim % 2)) (a :: b :: l) = s at *
      rw [← hlen] at h h'
      have h2 : 2 ≤ s.length := by rw [hlen]; simp
      have hd := digits_half (n := s.length) (by omega)
      have hm := digits_mono (s.length / 2) (s.length - (s.length / 2 + 1)) (by omega)
      rw [kd_fuel pos fuel fuel' _ (s.take _) (by rw [List.length_take, min_eq_left (by omega)]; omega) (by rw [List.length_take, min_eq_left (by omega)]; omega),
        kd_fuel pos fuel fuel' _ (s.drop _) (by rw [List.length_drop]; omega) (by rw [List.length_drop]; omega)]

/-- C129, kd-tree: for every cloud and whatever the coordinates, NaN included, the tree of `n` points has exactly as many levels as
`n` has binary digits, and as many nested calls are enough to build it. -/
theorem c129_kd_tree {α P : Type} [Scalar α] (pos : P → Point3D α) (old : KdTree P) (pts : List P) (h : pts ≠ []) :
    kdDepth (KdTree.build pos old pts).1 = digits pts.length ∧
    (KdTree.build pos old pts).1 = KdTree.newNode pos (digits pts.length) 0 pts := by
  have hb : (KdTree.build pos old pts).1 = KdTree.newNode pos pts.length 0 pts := by
    unfold KdTree.build
    split
    · next h0 => exact absurd (List.length_eq_zero_iff.1 h0) h
    · rfl
  have hd := digits_le pts.length
  rw [hb]
  exact ⟨kd_depth pos _ _ _ hd, kd_fuel pos _ _ _ _ hd le_rfl⟩

/-- a million points make twenty levels -/
example : digits 1000000 = 20 := by decide

theorem box_depth {B P HB : Type} (ops : BoxOps B P) (bb : HB → B) (bucket : Nat) : ∀ (rem depth : Nat) (data : List HB) (t : AABBTree B HB),
    AABBTree.newRec ops bb bucket rem depth data = some t → boxDepth t ≤ rem + 1
  | rem, _, [], t, h => by
    cases rem <;> (simp only [AABBTree.newRec, Option.some.injEq] at h; rw [← h]; simp [boxDepth])
  | rem, _, [d], t, h => by
    cases rem <;>
    · simp only [AABBTree.newRec, bind, Option.bind_eq_some_iff, pure, Option.some.injEq] at h
      obtain ⟨b, -, rfl⟩ := h
      simp [boxDepth]
  | 0, _, a :: b :: l, t, h => by
    simp only [AABBTree.newRec, bind, Option.bind_eq_some_iff, pure, Option.some.injEq] at h
    obtain ⟨b, -, rfl⟩ := h
    simp [boxDepth]
  | rem + 1, depth, a :: b :: l, t, h => by
    simp only [AABBTree.newRec, bind, pure] at h
    split at h
    · simp only [Option.bind_eq_some_iff, Option.some.injEq] at h
      obtain ⟨b, -, rfl⟩ := h
      simp [boxDepth]
    · rw [Option.bind_eq_some_iff] at h
      obtain ⟨b, -, h⟩ := h
      split at h
      · simp only [Option.some.injEq] at h
        rw [← h]; simp [boxDepth]
      · simp only [Option.bind_eq_some_iff, Option.some.injEq] at h
        obtain ⟨x, hx, y, hy, rfl⟩ := h
        have h1 := box_depth ops bb bucket rem _ _ x hx
        have h2 := box_depth ops bb bucket rem _ _ y hy
        simp only [boxDepth]
        omega

/-- C129, trees of boxes: never more levels than asked for (and one for the leaves), whatever the data -/
theorem c129_box_trees {α HB : Type} [Scalar α] (maxdepth bucket : Nat) (data : List HB) :
    (∀ (bb : HB → BoundingBox2D α) t, AABBTree2D.new bb data maxdepth bucket = some t → boxDepth t ≤ maxdepth + 1) ∧
    (∀ (bb : HB → BoundingBox3D α) t, AABBTree3D.new bb data maxdepth bucket = some t → boxDepth t ≤ maxdepth + 1) :=
  ⟨fun _ t h => box_depth _ _ _ _ _ _ t h, fun _ t h => box_depth _ _ _ _ _ _ t h⟩

theorem le_foldr_max {l : List Nat} {x : Nat} (h : x ∈ l) : x ≤ l.foldr max 0 := by
  induction l with
  | nil => simp at h
  | cons a l ih =>
    rcases List.mem_cons.1 h with rfl | h
    · exact le_max_left _ _
    · exact (ih h).trans (le_max_right _ _)

theorem foldr_max_le {l : List Nat} {n : Nat} (h : ∀ x ∈ l, x ≤ n) : l.foldr max 0 ≤ n := by
  induction l with
  | nil => simp
  | cons a l ih => exact max_le (h a (by simp)) (ih fun x hx => h x (List.mem_cons_of_mem _ hx))

theorem ocDepth_node_le {α : Type} {c : OcDir → OcNode α} {n : Nat} : ocDepth (.node c) ≤ n + 1 ↔ ∀ d, ocDepth (c d) ≤ n := by
  simp only [ocDepth, Nat.add_le_add_iff_right]
  constructor
  · exact fun h d => (le_foldr_max (List.mem_map_of_mem (OcNode.mem_all d))).trans h
  · intro h
    refine foldr_max_le fun x hx => ?_
    obtain ⟨d, -, rfl⟩ := List.mem_map.1 hx
    exact h d

theorem oc_depth {α : Type} [Scalar α] : ∀ (fuel : Nat) (bb : BoundingBox3D α) (pc : List (Point3D α)) (t : OcNode α),
    OcNode.newNode fuel bb pc = .ok t → ocDepth t ≤ fuel
  | 0, _, _, t, h => by simp only [OcNode.newNode, Except.ok.injEq] at h; rw [← h]; simp [ocDepth]
  | fuel + 1, bb, pc, t, h => by
    unfold OcNode.newNode at h
    split at h
    · simp only [Except.ok.injEq] at h; rw [← h]; simp [ocDepth]
    · split at h
      · simp at h
      · simp only [Except.ok.injEq] at h
        rw [← h, ocDepth_node_le]
        intro d
        split
        · simp [ocDepth]
        · split
          · simp [ocDepth]
          · next x hx => exact oc_depth fuel _ _ x hx

theorem mapM_isSome {β γ : Type} {f : β → Option γ} : ∀ {l : List β}, (∃ r, l.mapM f = some r) ↔ ∀ x ∈ l, ∃ y, f x = some y
  | [] => by simp
  | a :: l => by
    have ih := mapM_isSome (f := f) (l := l)
    rw [List.mapM_cons]
    constructor
    · rintro ⟨r, h⟩ x hx
      simp only [bind, Option.bind_eq_some_iff] at h
      obtain ⟨y, hy, ys, hys, -⟩ := h
      rcases List.mem_cons.1 hx with rfl | hx
      · exact ⟨y, hy⟩
      · exact ih.1 ⟨ys, hys⟩ x hx
    · intro h
      obtain ⟨y, hy⟩ := h a (by simp)
      obtain ⟨ys, hys⟩ := ih.2 fun x hx => h x (List.mem_cons_of_mem _ hx)
      exact ⟨y :: ys, by simp [hy, hys]⟩

theorem collect_some {α : Type} [Scalar α] (m : Int) (t : OcNode α) : ∀ depth : Nat, t.Complete → depth ≤ 127 →
    ((∃ r, t.collectNode m depth = some r) ↔ ocDepth t + depth ≤ 128) := by
  induction t with
  | nil => intro depth _ h; simp [OcNode.collectNode, ocDepth]; omega
  | diverged => intro depth h; exact absurd h id
  | leaf p => intro depth _ h; simp [OcNode.collectNode, ocDepth]; omega
  | node c ih =>
    intro depth hc hd
    have e1 : (∃ r, (OcNode.node c).collectNode m depth = some r) ↔ ∀ d, ocDepth (c d) + (depth + 1) ≤ 128 := by
      simp only [OcNode.collectNode, Option.map_eq_some_iff]
      have : (∃ r a, (OcDir.all.mapM fun d =>
          if (c d).isNil then some []
          else if depth + 1 > 127 then none
          else if (decide (m ≥ 0) && decide ((depth : Int) > m)) then
            ((c d).collectNode m (depth + 1)).map fun sub => (centerOfGravity3d sub).toList
          else (c d).collectNode m (depth + 1)) = some a ∧ a.flatten = r) ↔ ∃ a, (OcDir.all.mapM fun d =>
          if (c d).isNil then some []
          else if depth + 1 > 127 then none
          else if (decide (m ≥ 0) && decide ((depth : Int) > m)) then
            ((c d).collectNode m (depth + 1)).map fun sub => (centerOfGravity3d sub).toList
          else (c d).collectNode m (depth + 1)) = some a :=
        ⟨fun ⟨r, a, h, _⟩ => ⟨a, h⟩, fun ⟨a, h⟩ => ⟨_, a, h, rfl⟩⟩
      rw [this, mapM_isSome]
      constructor
      · intro h d
        obtain ⟨y, hy⟩ := h d (OcNode.mem_all d)
        split at hy
        · next hn =>
          have : ocDepth (c d) = 0 := by cases hcd : c d <;> rw [hcd] at hn <;> simp [OcNode.isNil] at hn; rfl
          omega
        · split at hy
          · simp at hy
          · next h127 =>
            refine (ih d (depth + 1) (hc d) (by omega)).1 ?_
            split at hy
            · rw [Option.map_eq_some_iff] at hy
              obtain ⟨a, ha, -⟩ := hy
              exact ⟨a, ha⟩
            · exact ⟨y, hy⟩
      · intro h d _
        split
        · exact ⟨_, rfl⟩
        · next hn =>
          have hpos : 1 ≤ ocDepth (c d) := by
            have hcd' := hc d
            cases hcd : c d with
            | nil => rw [hcd] at hn; simp [OcNode.isNil] at hn
            | diverged => rw [hcd] at hcd'; exact absurd hcd' id
            | leaf p => simp [ocDepth]
            | node c' => simp [ocDepth]
          have := h d
          split
          · omega
          · obtain ⟨r, hr⟩ := (ih d (depth + 1) (hc d) (by omega)).2 (h d)
            split
            · rw [hr]; exact ⟨_, rfl⟩
            · exact ⟨r, hr⟩
    rw [e1]
    obtain ⟨k, hk⟩ : ∃ k, 128 = k + 1 + depth := ⟨127 - depth, by omega⟩
    rw [hk, Nat.add_le_add_iff_right, ocDepth_node_le]
    exact forall_congr' fun d => by omega

/-- C129, octree: `collect` and `to_pointcloud` give the points exactly when the tree has no more than 128 levels, whatever the
depth limit; otherwise the counter of the levels, an `i8`, overflows. -/
theorem c129_collect {α : Type} [Scalar α] (t : OcTree α) (h : t.root.Complete) (maxdepth : Int) :
    (∃ r, t.collect maxdepth = some r) ↔ ocDepth t.root ≤ 128 :=
  collect_some maxdepth t.root 0 h (by norm_num)

/-- C129, octree with exact arithmetic: when no side of the bounding box reaches `2^k` times the distance (in the coordinate that
differs the most) between different points, the tree has at most `k + 1` levels and as many nested calls build it. -/
theorem c129_octree (δ : ℝ) (k : ℕ) (uniq : List (Point3D ℝ) → List (Point3D ℝ)) (old : OcTree ℝ) (pts : List (Point3D ℝ))
    (hu : ∀ p, p ∈ uniq pts ↔ p ∈ pts) (hnd : (uniq pts).Nodup) (b : BoundingBox3D ℝ) (hb : BoundingBox3D.fromIterator pts = .ok b)
    (hsep : ∀ p ∈ pts, ∀ q ∈ pts, p ≠ q → ∃ d, δ ≤ |at3 p d - at3 q d|)
    (hext : ∀ p ∈ pts, ∀ q ∈ pts, ∀ d, at3 p d - at3 q d < δ * 2 ^ k) :
    ∃ t : OcTree ℝ, t.root.Complete ∧ ocDepth t.root ≤ k + 1 ∧ ∀ fuel, k + 1 ≤ fuel → OcTree.build fuel uniq old pts = (t, .ok ()) := by
  obtain ⟨hfew, heq, hbox⟩ := c16_from_iterator_3d pts (fun _ _ _ => trivial)
  have h2 : 2 ≤ pts.length := by
    by_contra hc
    rw [hfew (by omega)] at hb; simp at hb
  have hd : ¬ ∃ d, ∀ p ∈ pts, ∀ q ∈ pts, key (at3 p d) = key (at3 q d) := by
    intro hc
    rw [heq h2 hc] at hb; simp at hb
  push Not at hd
  obtain ⟨b', hb', hv, hin, hat, -⟩ := hbox h2 hd
  rw [hb] at hb'
  obtain rfl := Except.ok.inj hb'
  have hne : uniq pts ≠ [] := by
    match pts, h2 with
    | p :: _, _ => exact List.ne_nil_of_mem ((hu p).2 (by simp))
  obtain ⟨t, ht, hf⟩ := OcNode.newNode_terminates δ k b (uniq pts) hv
    (fun p hp q hq => hsep p ((hu p).1 hp) q ((hu q).1 hq)) hnd hne
    (fun p hp d => by
      have := hin p ((hu p).1 hp) d
      simpa [Real.key_le] using this)
    (fun d => by
      obtain ⟨⟨p, hp, e1⟩, q, hq, e2⟩ := hat d
      have e1 : (box3 b).lo d = at3 p d := e1
      have e2 : (box3 b).hi d = at3 q d := e2
      rw [e1, e2]; exact hext q hq p hp d)
  refine ⟨⟨t, b⟩, ht, oc_depth _ _ _ _ (hf (k + 1) le_rfl), fun fuel hk => ?_⟩
  unfold OcTree.build
  rw [hb]
  simp only [Except.toOption, hf fuel hk]


/-- three points with sides of one and differences of at least a quarter -/
example : (∀ p ∈ [(⟨0, 0, 0⟩ : Point3D ℝ), ⟨1, 1, 1⟩, ⟨1 / 4, 1 / 2, 1 / 2⟩], ∀ q ∈ [(⟨0, 0, 0⟩ : Point3D ℝ), ⟨1, 1, 1⟩, ⟨1 / 4, 1 / 2, 1 / 2⟩],
      p ≠ q → ∃ d, (1 / 4 : ℝ) ≤ |at3 p d - at3 q d|) ∧
    (∀ p ∈ [(⟨0, 0, 0⟩ : Point3D ℝ), ⟨1, 1, 1⟩, ⟨1 / 4, 1 / 2, 1 / 2⟩], ∀ q ∈ [(⟨0, 0, 0⟩ : Point3D ℝ), ⟨1, 1, 1⟩, ⟨1 / 4, 1 / 2, 1 / 2⟩],
      ∀ d, at3 p d - at3 q d < (1 / 4 : ℝ) * 2 ^ 3) ∧
    BoundingBox3D.fromIterator [(⟨0, 0, 0⟩ : Point3D ℝ), ⟨1, 1, 1⟩, ⟨1 / 4, 1 / 2, 1 / 2⟩] = .ok ⟨⟨0, 0, 0⟩, ⟨1, 1, 1⟩⟩ := by
  refine ⟨?_, ?_, ?_⟩
  · intro p hp q hq hne
    refine ⟨0, ?_⟩
    simp only [List.mem_cons, List.not_mem_nil, or_false] at hp hq
    rcases hp with rfl | rfl | rfl <;> rcases hq with rfl | rfl | rfl <;>
      first | exact absurd rfl hne | (rw [at3_zero, at3_zero]; norm_num [abs_of_pos, abs_of_neg, le_abs])
  · intro p hp q hq
    simp only [List.mem_cons, List.not_mem_nil, or_false] at hp hq
    rw [forall_fin3]
    simp only [at3_zero, at3_one, at3_two]
    rcases hp with rfl | rfl | rfl <;> rcases hq with rfl | rfl | rfl <;> norm_num
  · norm_num [BoundingBox3D.fromIterator, BoundingBox3D.step, BoundingBox3D.new]

/-- C129, octree with doubles: whatever the coordinates, NaN and infinities included, and however the hash set lists the points, 2652
nested calls are always enough, and the tree has no more levels than that. -/
theorem c129_octree_any_f64 (uniq : List (Point3D F64) → List (Point3D F64)) (old : OcTree F64) (pts : List (Point3D F64))
    (hp : ∀ p ∈ pts, ∀ d, Rep (at3 p d)) :
    (∀ fuel, 2652 ≤ fuel → OcTree.build fuel uniq old pts = OcTree.build 2652 uniq old pts) ∧
    ((OcTree.build 2652 uniq old pts).2 = .ok () →
      (OcTree.build 2652 uniq old pts).1.root.Complete ∧ ocDepth (OcTree.build 2652 uniq old pts).1.root ≤ 2652) := by
  unfold OcTree.build
  cases hb : BoundingBox3D.fromIterator pts with
  | error e => simp [Except.toOption]
  | ok b =>
    simp only [Except.toOption]
    obtain ⟨r1, r2⟩ := OcNode.fromIterator_rep (fun p h => hp p h 0) hb
    have hst := OcNode.stable_2652 b (uniq pts) r1 r2
    refine ⟨fun fuel hf => by rw [(hst fuel hf).1], ?_⟩
    cases hx : OcNode.newNode 2652 b (uniq pts) with
    | error e => simp
    | ok t => intro _; exact ⟨(hst 2652 le_rfl).2 t hx, oc_depth _ _ _ _ hx⟩

/-- C129, octree with doubles, points of a usual cloud: coordinates up to `M`, and any two different points at least `δ` apart in some
coordinate, where `δ` may be as small as `2^-49 M`. Then `k + 1` nested calls are enough and the tree has at most `k + 1` levels as soon
as `2^k δ` reaches `8 M`; at most 53 whatever `δ`. `collect` and `to_pointcloud` then never panic. -/
theorem c129_octree_f64 (M δ : ℝ) (hM : 2 ^ (-1023 : ℤ) ≤ M) (hM' : M ≤ 2 ^ (1022 : ℤ)) (hδ : 2 ^ (-49 : ℤ) * M ≤ δ) (k : ℕ) (hk : 8 * M ≤ δ * 2 ^ k)
    (uniq : List (Point3D F64) → List (Point3D F64)) (old : OcTree F64) (pts : List (Point3D F64))
    (hnum : ∀ q ∈ pts, ∀ d, F64.Num (at3 q d) ∧ |toR (at3 q d)| ≤ M) (hu : ∀ p ∈ uniq pts, p ∈ pts) (hnd : (uniq pts).Nodup)
    (hsep : ∀ p ∈ uniq pts, ∀ q ∈ uniq pts, p ≠ q → ∃ d, δ ≤ |toR (at3 p d) - toR (at3 q d)|) :
    (∀ fuel, k + 1 ≤ fuel → OcTree.build fuel uniq old pts = OcTree.build (k + 1) uniq old pts) ∧
    ((OcTree.build (k + 1) uniq old pts).2 = .ok () → (OcTree.build (k + 1) uniq old pts).1.root.Complete ∧
      ocDepth (OcTree.build (k + 1) uniq old pts).1.root ≤ min (k + 1) 53 ∧
      ∀ maxdepth, ∃ r, (OcTree.build (k + 1) uniq old pts).1.collect maxdepth = some r) := by
  cases hb : BoundingBox3D.fromIterator pts with
  | error e => unfold OcTree.build; rw [hb]; simp [Except.toOption]
  | ok b =>
    obtain ⟨hfew, heq, hbox⟩ := c16_from_iterator_3d pts (fun p hp d => (hnum p hp d).1.ok)
    have h2 : 2 ≤ pts.length := by
      by_contra hc
      rw [hfew (by omega)] at hb; simp at hb
    have hd : ¬ ∃ d, ∀ p ∈ pts, ∀ q ∈ pts, LawfulScalar.key (at3 p d) = LawfulScalar.key (at3 q d) := by
      intro hc
      rw [heq h2 hc] at hb; simp at hb
    push Not at hd
    obtain ⟨b', hb'', hv, hin, hat, -⟩ := hbox h2 hd
    rw [hb] at hb''
    obtain rfl := Except.ok.inj hb''
    have corner : ∀ d, F64.Num (at3 b.min d) ∧ |toR (at3 b.min d)| ≤ M ∧ F64.Num (at3 b.max d) ∧ |toR (at3 b.max d)| ≤ M := by
      intro d
      obtain ⟨⟨p1, hp1, e1⟩, p2, hp2, e2⟩ := hat d
      have e1 : at3 b.min d = at3 p1 d := e1
      have e2 : at3 b.max d = at3 p2 d := e2
      rw [e1, e2]
      exact ⟨(hnum p1 hp1 d).1, (hnum p1 hp1 d).2, (hnum p2 hp2 d).1, (hnum p2 hp2 d).2⟩
    have hgood : ∀ d, OcNode.Good b d := by
      intro d
      obtain ⟨c1, c2, c3, c4⟩ := corner d
      refine ⟨c1, c3, ?_, ?_⟩
      · have hlt : F64.key (at3 b.min d) < F64.key (at3 b.max d) := hv.2 d
        rw [c1.key, c3.key] at hlt
        exact_mod_cast hlt
      · have e : (2:ℝ) ^ (1023 : ℤ) = 2 * 2 ^ (1022 : ℤ) := by rw [← zpow_one_add₀ two_ne_zero]; norm_num
        rw [e]
        generalize (2:ℝ) ^ (1022 : ℤ) = Z at *
        rw [abs_le] at c2 c4
        linarith [c2.1, c4.2]
    have hM0 : 0 < M := lt_of_lt_of_le (by positivity) hM
    have hst : ∀ j : ℕ, 8 * M ≤ δ * 2 ^ j → OcNode.Stable (j + 1) b (uniq pts) := by
      intro j hj
      refine OcNode.stable_sep hM hδ j b (uniq pts) hgood (fun d => ⟨(corner d).2.1, (corner d).2.2.2⟩) hnd (fun q hq d => (hnum q (hu q hq) d).1) hsep
        (fun q hq d => ?_) (fun d => ?_)
      · obtain ⟨i1, i2⟩ := hin q (hu q hq) d
        have i1 : F64.key (at3 b.min d) ≤ F64.key (at3 q d) := i1
        have i2 : F64.key (at3 q d) ≤ F64.key (at3 b.max d) := i2
        rw [(corner d).1.key, (hnum q (hu q hq) d).1.key] at i1
        rw [(corner d).2.2.1.key, (hnum q (hu q hq) d).1.key] at i2
        exact ⟨by exact_mod_cast i1, by exact_mod_cast i2⟩
      · obtain ⟨-, c2, -, c4⟩ := corner d
        have : (0:ℝ) ≤ 2 ^ (-50 : ℤ) * M := by positivity
        rw [abs_le] at c2 c4
        linarith [c2.1, c4.2]
    have h52 : 8 * M ≤ δ * 2 ^ 52 := by
      have e : (2:ℝ) ^ (-49 : ℤ) = 1 / 562949953421312 := by norm_num
      rw [e] at hδ
      have : (2:ℝ) ^ 52 = 4503599627370496 := by norm_num
      rw [this]
      linarith
    have hk1 := hst k hk
    have hk2 := hst 52 h52
    have hbuild : ∀ f, OcTree.build f uniq old pts = match OcNode.newNode f b (uniq pts) with
        | .error e => (⟨old.root, b⟩, .error e)
        | .ok r => (⟨r, b⟩, .ok ()) := by
      intro f
      unfold OcTree.build
      rw [hb]
      simp only [Except.toOption]
      cases OcNode.newNode f b (uniq pts) <;> rfl
    simp only [hbuild]
    refine ⟨fun fuel hf => by rw [(hk1 fuel hf).1], ?_⟩
    cases hx : OcNode.newNode (k + 1) b (uniq pts) with
    | error e => simp
    | ok t =>
      intro _
      have hc := (hk1 (k + 1) le_rfl).2 t hx
      have hdep : ocDepth t ≤ min (k + 1) 53 := by
        refine le_min (oc_depth _ _ _ _ hx) (oc_depth _ b (uniq pts) _ ?_)
        rw [← (hk2 (max 53 (k + 1)) (le_max_left _ _)).1, (hk1 (max 53 (k + 1)) (le_max_right _ _)).1, hx]
      exact ⟨hc, hdep, fun m => (c129_collect ⟨t, b⟩ hc m).2 (hdep.trans ((min_le_right _ _).trans (by norm_num)))⟩


/-- the doubles next to `q` on the diagonal -/
def diagF (q : ℚ) : Point3D F64 := ⟨F64.ofRat q, F64.ofRat q, F64.ofRat q⟩

theorem toR_diag (q : ℚ) (h : F64.ofRat q = .fin false q) (d : Fin 3) : at3 (diagF q) d = .fin false q ∧ toR (at3 (diagF q) d) = q := by
  have e : at3 (diagF q) d = .fin false q := by
    revert d
    rw [forall_fin3, at3_zero, at3_one, at3_two]
    exact ⟨h, h, h⟩
  exact ⟨e, by rw [e, real_fin]; simp [val]⟩

/-- three points with coordinates up to one and differences of at least a quarter -/
example : (2 ^ (-49 : ℤ) * (1:ℝ) ≤ 1 / 4 ∧ 8 * (1:ℝ) ≤ 1 / 4 * 2 ^ 5) ∧
    (∀ q ∈ [0, 1, 1 / 4].map diagF, ∀ d, F64.Num (at3 q d) ∧ |toR (at3 q d)| ≤ 1) ∧
    ∀ p ∈ [0, 1, 1 / 4].map diagF, ∀ q ∈ [0, 1, 1 / 4].map diagF, p ≠ q → ∃ d, (1 / 4 : ℝ) ≤ |toR (at3 p d) - toR (at3 q d)| := by
  have e : ∀ q : ℚ, q = 0 ∨ q = 1 ∨ q = 1 / 4 → F64.ofRat q = .fin false q := by
    rintro q (rfl | rfl | rfl) <;> decide +kernel
  refine ⟨by norm_num, fun p hp d => ?_, fun p hp q hq hne => ⟨0, ?_⟩⟩
  · obtain ⟨q, hq, rfl⟩ := List.mem_map.1 hp
    simp only [List.mem_cons, List.not_mem_nil, or_false] at hq
    obtain ⟨h1, h2⟩ := toR_diag q (e q hq) d
    refine ⟨?_, ?_⟩
    · rw [h1, ← e q hq]; exact ⟨⟨false, q, e q hq⟩, ofRat_rep q⟩
    · rw [h2]; rcases hq with rfl | rfl | rfl <;> norm_num [abs_of_pos]
  · obtain ⟨a, ha, rfl⟩ := List.mem_map.1 hp
    obtain ⟨b, hb, rfl⟩ := List.mem_map.1 hq
    simp only [List.mem_cons, List.not_mem_nil, or_false] at ha hb
    rw [(toR_diag a (e a ha) 0).2, (toR_diag b (e b hb) 0).2]
    rcases ha with rfl | rfl | rfl <;> rcases hb with rfl | rfl | rfl <;> first | exact absurd rfl hne | norm_num [abs_of_pos, abs_of_neg, le_abs]

/-- two points near the corner of the unit box -/
def deepF : List (Point3D F64) := [0, 1, 3 / 2 ^ 132, 3 / 2 ^ 133].map diagF

/-- a tree not yet built -/
def freshF : OcTree F64 := ⟨.nil, ⟨diagF 0, diagF 1⟩⟩

theorem deepF_build : (OcTree.build 2652 id freshF deepF).2 = .ok () ∧ 128 < ocDepth (OcTree.build 2652 id freshF deepF).1.root := by
  decide +kernel

theorem deepF_rep : ∀ p ∈ deepF, ∀ d, Rep (at3 p d) := by
  intro p hp
  obtain ⟨q, -, rfl⟩ := List.mem_map.1 hp
  rw [forall_fin3, at3_zero, at3_one, at3_two]
  exact ⟨ofRat_rep q, ofRat_rep q, ofRat_rep q⟩

/-- **C129 violated**, octree: four finite doubles whose tree is built and complete, but has more than 128 levels, so that `collect`
panics for every depth limit. -/
theorem c129_violated : ∃ (pts : List (Point3D F64)) (old t : OcTree F64), pts.length = 4 ∧ (∀ p ∈ pts, ∀ d, Rep (at3 p d)) ∧
    (∀ fuel, 2652 ≤ fuel → OcTree.build fuel id old pts = (t, .ok ())) ∧ t.root.Complete ∧ ∀ maxdepth, t.collect maxdepth = none := by
  obtain ⟨h1, h2⟩ := deepF_build
  obtain ⟨h3, h4⟩ := c129_octree_any_f64 id freshF deepF deepF_rep
  refine ⟨deepF, freshF, (OcTree.build 2652 id freshF deepF).1, rfl, deepF_rep, fun fuel hf => ?_, (h4 h1).1, fun m => ?_⟩
  · rw [h3 fuel hf, ← h1]
  · rw [Option.eq_none_iff_forall_ne_some]
    intro r hr
    have := (c129_collect _ (h4 h1).1 m).1 ⟨r, hr⟩
    omega

/-! ### line simplification -/

namespace Spec
/-- corner `m` from the end of a zigzag that gets smaller to its end -/
noncomputable def corner (m : ℕ) : Point2D ℝ := ⟨-m, (-1) ^ m * m⟩

/-- the zigzag of `m + 1` corners -/
noncomputable def zigzag : ℕ → List (Point2D ℝ)
  | 0 => [corner 0]
  | m + 1 => corner (m + 1) :: zigzag m
end Spec

theorem corner_dist {m j : ℕ} (hm : 1 ≤ m) : distancePointLine (corner j) (corner m) (corner 0) =
    if (-1 : ℝ) ^ m * (-1) ^ j = 1 then 0 else √2 * j := by
  have hm0 : (m:ℝ) ≠ 0 := by positivity
  have hs : ((-1:ℝ) ^ m) * (-1) ^ m = 1 := by rw [← mul_pow]; simp
  have ht : ((-1:ℝ) ^ j) * (-1) ^ j = 1 := by rw [← mul_pow]; simp
  have hst : (-1:ℝ) ^ m * (-1) ^ j = 1 ∨ (-1:ℝ) ^ m * (-1) ^ j = -1 := by rw [← pow_add]; exact neg_one_pow_eq_or ℝ _
  have hx : footX (corner j) (corner m) (corner 0) = -(j * (1 + (-1:ℝ) ^ m * (-1) ^ j) / 2) := by
    simp only [footX, footNum, footDen, corner, Real.scalar_lit, Nat.cast_zero, pow_zero]
    generalize (-1:ℝ) ^ m = σ at *
    generalize (-1:ℝ) ^ j = τ at *
    have hden : (-(m:ℝ)) * (-(m:ℝ)) - ((2:ℚ):ℝ) * (-(m:ℝ)) * (-0) + σ * m * (σ * m) - ((2:ℚ):ℝ) * (σ * m) * (1 * 0) + -0 * -0 + 1 * 0 * (1 * 0) = 2 * (m * m) := by
      push_cast
      linear_combination (m:ℝ) * m * hs
    rw [hden, div_eq_iff (by positivity)]
    push_cast
    ring
  have hy : footY (corner j) (corner m) (corner 0) = -((-1:ℝ) ^ m * footX (corner j) (corner m) (corner 0)) := by
    unfold footY
    generalize footX (corner j) (corner m) (corner 0) = x
    simp only [corner, Nat.cast_zero, pow_zero]
    generalize (-1:ℝ) ^ m = σ at *
    rw [div_eq_iff (by simpa using hm0)]
    ring
  rw [distancePointLine_foot, hy, hx]
  have hd : ∀ p q : Point2D ℝ, p.dist q = √((p.x - q.x) ^ 2 + (p.y - q.y) ^ 2) := by
    intro p q
    simp only [Point2D.dist, Point2D.sqrDist, Scalar.sq, Real.scalar_sqrt]
    congr 1
    try ring
  rw [hd]
  simp only [corner]
  generalize (-1:ℝ) ^ m = σ at *
  generalize (-1:ℝ) ^ j = τ at *
  rcases hst with h | h
  · rw [if_pos h, Real.sqrt_eq_zero (by positivity), h]
    have : τ = σ := by linear_combination (-τ) * hs + σ * h
    rw [this]; ring
  · have hn : ¬ σ * τ = 1 := by rw [h]; norm_num
    rw [if_neg hn, h, ← Real.sqrt_sq (by positivity : 0 ≤ √2 * (j:ℝ))]
    congr 1
    rw [mul_pow, Real.sq_sqrt (by norm_num)]
    linear_combination (j:ℝ) ^ 2 * ht

theorem dpFind_stay (first last : Point2D ℝ) (d : ℝ) (idx : ℕ) : ∀ (l : List (Point2D ℝ)) (i : ℕ),
    (∀ p ∈ l, distancePointLine p first last ≤ d) → dpFind first last l i (idx, d) = (idx, d)
  | [], _, _ => rfl
  | p :: l, i, h => by
    have h1 : ¬ (distancePointLine p first last >. d) = true := by
      rw [Real.scalar_lt, decide_eq_true_eq, not_lt]; exact h p (by simp)
    rw [dpFind]
    simp only [if_neg h1]
    exact dpFind_stay first last d idx l (i + 1) fun q hq => h q (List.mem_cons_of_mem _ hq)

theorem zigzag_last : ∀ m, (zigzag m).getLast? = some (corner 0)
  | 0 => rfl
  | m + 1 => by
    have h := zigzag_last m
    have hne : zigzag m ≠ [] := by cases m <;> simp [zigzag]
    rw [zigzag, List.getLast?_cons_of_ne_nil hne, h]

theorem zigzag_mem : ∀ m p, p ∈ zigzag m → ∃ j, j ≤ m ∧ p = corner j
  | 0, p, h => by simp only [zigzag, List.mem_singleton] at h; exact ⟨0, le_rfl, h⟩
  | m + 1, p, h => by
    rcases List.mem_cons.1 h with h | h
    · exact ⟨m + 1, le_rfl, h⟩
    · obtain ⟨j, hj, rfl⟩ := zigzag_mem m p h
      exact ⟨j, by omega, rfl⟩

theorem zigzag_length : ∀ m, (zigzag m).length = m + 1
  | 0 => rfl
  | m + 1 => by rw [zigzag, List.length_cons, zigzag_length m]

/-- the furthest corner is always the next one -/
theorem zigzag_find (m : ℕ) : dpFind (corner (m + 2)) (corner 0) (zigzag (m + 1)).dropLast 1 (0, zero) = (1, √2 * (m + 1 : ℕ)) := by
  have h2 : (0:ℝ) < √2 := by positivity
  have hne : zigzag m ≠ [] := by cases m <;> simp [zigzag]
  have e : (zigzag (m + 1)).dropLast = corner (m + 1) :: (zigzag m).dropLast := by
    rw [zigzag, List.dropLast_cons_of_ne_nil hne]
  have hs : ((-1:ℝ) ^ (m + 1)) * (-1) ^ (m + 1) = 1 := by rw [← mul_pow]; simp
  have d1 : distancePointLine (corner (m + 1)) (corner (m + 2)) (corner 0) = √2 * (m + 1 : ℕ) := by
    rw [corner_dist (by omega), if_neg]
    rw [pow_succ (-1:ℝ) (m + 1)]
    intro h
    have : (-1:ℝ) = 1 := by linear_combination h + hs
    norm_num at this
  rw [e, dpFind]
  have hpos : (0:ℝ) < √2 * (m + 1 : ℕ) := by positivity
  have h1 : (distancePointLine (corner (m + 1)) (corner (m + 2)) (corner 0) >. (zero : ℝ)) = true := by
    rw [d1, Real.scalar_lt, decide_eq_true_eq, Real.scalar_zero]; exact hpos
  simp only [if_pos h1]
  rw [d1]
  refine dpFind_stay _ _ _ _ _ _ fun p hp => ?_
  obtain ⟨j, hj, rfl⟩ := zigzag_mem m p (List.mem_of_mem_dropLast hp)
  rw [corner_dist (by omega)]
  split
  · exact hpos.le
  · exact mul_le_mul_of_nonneg_left (by exact_mod_cast (by omega : j ≤ m + 1)) h2.le

theorem zigzag_deep : ∀ (n fuel : ℕ), fuel < n → douglasPeucker (1:ℝ) fuel (zigzag n) = none
  | 0, _, h => by omega
  | n + 1, 0, _ => by rw [zigzag, douglasPeucker]
  | 1, fuel + 1, h => by omega
  | n + 2, fuel + 1, h => by
    have ih := zigzag_deep (n + 1) fuel (by omega)
    have hl := zigzag_last (n + 2)
    have hf := zigzag_find n
    rw [zigzag] at hl ⊢
    rw [douglasPeucker]
    simp only [hl, bind, Option.bind_some, hf]
    have h2 : (1:ℝ) < √2 := by
      rw [show (1:ℝ) = √1 by simp]; exact Real.sqrt_lt_sqrt (by norm_num) (by norm_num)
    have h1 : (√2 * ((n + 1 : ℕ) : ℝ) >. (1:ℝ)) = true := by
      rw [Real.scalar_lt, decide_eq_true_eq]
      have : (1:ℝ) ≤ ((n + 1 : ℕ) : ℝ) := by exact_mod_cast Nat.le_add_left 1 n
      nlinarith
    rw [if_pos h1]
    simp only [List.drop_succ_cons, List.drop_zero, ih, Option.bind_none, Option.bind_fun_none]

/-- **C129 violated**, line simplification: as many nested calls as the line has points are always enough (for a tolerance that is not
negative), but there are lines of every length, zigzags that get smaller to their end, that need one call per point: the
nesting is not bounded by anything smaller than the length of the line. -/
theorem c129_simplify_violated :
    (∀ (e : ℝ) (l : List (Point2D ℝ)), 0 ≤ e → ∀ fuel, l.length ≤ fuel → ∃ r, douglasPeucker e fuel l = some r) ∧
    (∀ n, ∃ l : List (Point2D ℝ), l.length = n + 1 ∧ l.Nodup ∧ ∀ fuel, fuel < n → douglasPeucker (1:ℝ) fuel l = none) := by
  refine ⟨fun e l he fuel hf => ?_, fun n => ⟨zigzag n, zigzag_length n, ?_, fun fuel hf => zigzag_deep n fuel hf⟩⟩
  · have := dp_main e (by simpa using he) fuel l hf
    match l, this with
    | [], t => exact ⟨_, t.1 rfl⟩
    | [p], t => exact ⟨_, t.2.1 p rfl⟩
    | p :: q :: l, t => obtain ⟨r, hr, -⟩ := t.2.2 (by simp); exact ⟨r, hr⟩
  · induction n with
    | zero => simp [zigzag]
    | succ n ih =>
      rw [zigzag, List.nodup_cons]
      refine ⟨fun h => ?_, ih⟩
      obtain ⟨j, hj, e⟩ := zigzag_mem n _ h
      have := congrArg Point2D.x e
      simp only [corner, neg_inj, Nat.cast_inj] at this
      omega

end R3D

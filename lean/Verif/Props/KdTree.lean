import Verif.Lemmas.KdTree
import Verif.Model.F64
import Verif.Spec.Geom
import Mathlib.Algebra.BigOperators.Fin
/-
C24 - C27: the k-d tree.
-/
namespace R3D
open Scalar Spec
namespace KdTree
variable {P : Type}

/-- the tree `build` gives for a non empty input -/
def Built {α : Type} [Scalar α] (pos : P → Point3D α) (pts : List P) (t : KdTree P) : Prop :=
  build pos nil pts = (t, .ok ())

theorem built_eq {α : Type} [Scalar α] {pos : P → Point3D α} {pts : List P} {t : KdTree P}
    (h : Built pos pts t) : pts ≠ [] ∧ t = newNode pos pts.length 0 pts := by
  unfold Built build at h
  match pts with
  | [] => simp at h
  | p :: ps =>
    simp only [List.length_cons, Prod.mk.injEq, and_true] at h
    exact ⟨by simp, h.symm⟩

/-- C24, every scalar type (NaN included): a non empty input is accepted whatever the tree held before,
the tree then holds exactly the input points with multiplicity; an empty input is rejected and the tree
is left as it was. -/
theorem c24_build {α : Type} [Scalar α] (pos : P → Point3D α) (old : KdTree P) (pts : List P) :
    (pts = [] → build pos old pts = (old, .error .TooFewPoints)) ∧
    (pts ≠ [] → ∃ t, build pos old pts = (t, .ok ()) ∧ t.toPointcloud.Perm pts ∧ t.size = pts.length) := by
  constructor
  · rintro rfl; rfl
  · intro h
    refine ⟨newNode pos pts.length 0 pts, ?_, newNode_perm pos _ _ _ le_rfl, ?_⟩
    · unfold build
      match pts with
      | [] => simp at h
      | p :: ps => rfl
    · rw [size_eq, (newNode_perm pos _ _ _ le_rfl).length_eq]

/-- C24: the tree before `build` holds nothing -/
theorem c24_default : (nil : KdTree P).size = 0 ∧ (nil : KdTree P).toPointcloud = [] := ⟨rfl, rfl⟩

theorem spec_sqrDist (a b : Point3D ℝ) : a.sqrDist b = Spec.sqrDist (at3 a) (at3 b) := by
  rw [sqrDist_real]; simp [Spec.sqrDist, Fin.sum_univ_three]

/-- C26 (partial): for every `n ≥ 1` exactly `min n size` points of the input are returned (a
sub-multiset), and a point of minimal distance is among them; `n = 0` returns nothing.
Missing for the full claim: the other points need not be the next nearest ones, see `c26_violated`. -/
theorem c26_knearest_partial (pos : P → Point3D ℝ) (pts : List P) (t : KdTree P) (ht : Built pos pts t)
    (q : Point3D ℝ) (n : Nat) :
    ∃ r, t.knearest pos q n [] = some r ∧ r.length = min n pts.length ∧ r.Subperm pts ∧
      (1 ≤ n → ∃ b ∈ r, ∀ x ∈ pts,
        Spec.sqrDist (at3 q) (at3 (pos b)) ≤ Spec.sqrDist (at3 q) (at3 (pos x))) := by
  obtain ⟨hne, rfl⟩ := built_eq ht
  have hp := newNode_perm pos pts.length 0 pts le_rfl
  have ho := newNode_ordered pos pts.length 0 pts le_rfl
  by_cases hn : n < 1
  · obtain rfl : n = 0 := by omega
    exact ⟨[], rfl, by simp, List.nil_subperm, fun h => absurd h (by simp)⟩
  have hn' : 1 ≤ n := by omega
  obtain ⟨r, hr, hw, hlen⟩ := knearestNode_spec (q := q) hn' _ ho []
  have hnil : newNode pos pts.length 0 pts ≠ nil := by
    intro e
    rw [e] at hp
    exact hne hp.symm.eq_nil
  refine ⟨r, by simp only [knearest, if_neg hn, hr], ?_, ?_, fun _ => ?_⟩
  · have h1 := hw.2.1
    have h2 := hw.1.length_le
    have h3 := hlen hnil
    simp only [List.nil_append, List.length_nil, hp.length_eq] at h1 h2
    omega
  · exact hw.1.trans hp.subperm
  · -- one of the points of the input is nearest
    obtain ⟨m, hm, hmin⟩ : ∃ m ∈ pts, ∀ x ∈ pts, q.sqrDist (pos m) ≤ q.sqrDist (pos x) := by
      have : ∀ l : List P, l ≠ [] → ∃ m ∈ l, ∀ x ∈ l, q.sqrDist (pos m) ≤ q.sqrDist (pos x) := by
        intro l
        induction l with
        | nil => intro h; exact absurd rfl h
        | cons a l ih =>
          intro _
          by_cases hl : l = []
          · subst hl; exact ⟨a, by simp, by simp⟩
          · obtain ⟨m, hm, hx⟩ := ih hl
            rcases le_total (q.sqrDist (pos a)) (q.sqrDist (pos m)) with h | h
            · refine ⟨a, by simp, fun x hx' => ?_⟩
              rcases List.mem_cons.1 hx' with rfl | hx'
              · exact le_rfl
              · exact h.trans (hx x hx')
            · refine ⟨m, List.mem_cons_of_mem _ hm, fun x hx' => ?_⟩
              rcases List.mem_cons.1 hx' with rfl | hx'
              · exact h
              · exact hx x hx'
      exact this pts hne
    obtain ⟨b, hb, hbm⟩ := hw.2.2 m (by simpa using hp.mem_iff.2 hm)
    refine ⟨b, hb, fun x hx => ?_⟩
    rw [← spec_sqrDist, ← spec_sqrDist]
    exact hbm.trans (hmin x hx)

/-- C25: `nearest` returns an input point of minimal distance. -/
theorem c25_nearest (pos : P → Point3D ℝ) (pts : List P) (t : KdTree P) (ht : Built pos pts t)
    (q : Point3D ℝ) :
    ∃ b ∈ pts, t.nearest pos q = some (some b) ∧
      ∀ x ∈ pts, Spec.sqrDist (at3 q) (at3 (pos b)) ≤ Spec.sqrDist (at3 q) (at3 (pos x)) := by
  obtain ⟨r, hr, hlen, hsub, hmin⟩ := c26_knearest_partial pos pts t ht q 1
  obtain ⟨b, hb, hx⟩ := hmin le_rfl
  have hpos : 0 < pts.length := List.length_pos_iff.2 (built_eq ht).1
  have : r = [b] := by
    match r with
    | [c] => rw [List.mem_singleton.1 hb]
    | [] => simp at hlen; omega
    | _ :: _ :: _ => simp at hlen; omega
  subst this
  exact ⟨b, hsub.subset hb, by simp [nearest, hr], hx⟩

/-- C25: an empty tree has no nearest point -/
theorem c25_empty {α : Type} [Scalar α] (pos : P → Point3D α) (q : Point3D α) :
    (nil : KdTree P).nearest pos q = some none := rfl

/-- C26 holds in full when at least as many points are asked for as there are. -/
theorem c26_all (pos : P → Point3D ℝ) (pts : List P) (t : KdTree P) (ht : Built pos pts t)
    (q : Point3D ℝ) (n : Nat) (hn : pts.length ≤ n) :
    ∃ r, t.knearest pos q n [] = some r ∧ r.Perm pts := by
  obtain ⟨r, hr, hlen, hsub, -⟩ := c26_knearest_partial pos pts t ht q n
  exact ⟨r, hr, hsub.perm_of_length_le (by omega)⟩

/-- the witness of `c26_violated` -/
def w26 (x y : Nat) : Point3D F64 := ⟨F64.ofRat x, F64.ofRat y, F64.ofRat 0⟩

/-- C26 violated: of (1,3,0), (3,1,0), (2,4,0) the two nearest to (2,0,0) are (3,1,0) and (1,3,0)
(squared distances 2 and 10), but `knearest(2)` returns (2,4,0) (16) instead of (1,3,0). All numbers are
small integers, so no rounding is involved. -/
theorem c26_violated : ∃ (pts : List (Point3D F64)) (t : KdTree (Point3D F64)) (q : Point3D F64),
    Built id pts t ∧ t.knearest id q 2 [] = some [w26 2 4, w26 3 1] ∧ w26 1 3 ∈ pts ∧
      (q.sqrDist (w26 1 3) <. q.sqrDist (w26 2 4)) = true := by
  refine ⟨[w26 1 3, w26 3 1, w26 2 4], newNode id 3 0 [w26 1 3, w26 3 1, w26 2 4], w26 2 0, rfl, ?_, ?_, ?_⟩
  all_goals decide +kernel

/-! ### C27 -/

theorem inSphere_spec (pos : P → Point3D ℝ) (s : Sphere ℝ) : ∀ (t : KdTree P), t.Ordered pos →
    ∀ pc : List P, ∃ r, t.inSphere pos s pc = pc ++ r ∧
      r.Perm (t.toPointcloud.filter fun x => decide (s.center.dist (pos x) ≤ s.radius.val)) := by
  intro t
  induction t with
  | nil => intro _ pc; exact ⟨[], by simp [inSphere], .refl _⟩
  | node l r v d hl hr =>
    rintro ⟨hd, ol, or, hol, hor⟩ pc
    set F := fun x => decide (s.center.dist (pos x) ≤ s.radius.val) with hF
    have hcoord : coordOf d (⟨s.x, s.y, s.z⟩ : Point3D ℝ) = coordOf d s.center := by
      rcases hd with rfl | rfl <;> rfl
    have habs : ∀ x, F x = true → |coordOf d s.center - coordOf d (pos x)| ≤ s.radius.val := by
      intro x hx
      have hx' : s.center.dist (pos x) ≤ s.radius.val := by simpa [hF] using hx
      refine le_trans ?_ hx'
      apply abs_le_of_sq_le_sq _ (dist_nonneg _ _)
      rw [dist_sq]; exact coord_le _ _ _
    obtain ⟨a, ha, hav⟩ : ∃ a, (if s.center.dist (pos v) <=. s.radius.val then pc ++ [v] else pc) = pc ++ a ∧
        a = [v].filter F := by
      by_cases h : s.center.dist (pos v) ≤ s.radius.val
      · exact ⟨[v], by simp [h], by simp [hF, h]⟩
      · exact ⟨[], by simp [h], by simp [hF, h]⟩
    simp only [inSphere]
    rw [ha]
    by_cases hleaf : (node l r v d).isLeaf = true
    · rw [if_pos hleaf]
      refine ⟨a, rfl, ?_⟩
      unfold isLeaf at hleaf
      split at hleaf
      · rename_i h; injection h with h1 h2 h3 h4; subst h1 h2 h3 h4
        simp [toPointcloud, hav]
      · simp at hleaf
    rw [if_neg hleaf, dimensionCompare_real _ _ _ hd, hcoord]
    simp only [Real.scalar_le, decide_eq_true_eq, toPointcloud, List.filter_append, ← hav]
    rcases hc : cmp (coordOf d s.center) (coordOf d (pos v)) with _ | _ | _
    · obtain ⟨b, hb, pb⟩ := hl hol (pc ++ a)
      simp only [hb]
      split
      · obtain ⟨c, hc', pc'⟩ := hr hor (pc ++ a ++ b)
        refine ⟨a ++ b ++ c, by rw [hc']; simp, ?_⟩
        exact ((List.perm_append_comm.trans (pb.append_right _)).append pc')
      · rename_i hn
        refine ⟨a ++ b, by simp, ?_⟩
        rw [show r.toPointcloud.filter F = [] from List.filter_eq_nil_iff.2 fun x hx hFx => hn (by
          have h1 := or x hx
          have h2 := (abs_le.1 (habs x hFx)).1
          linarith)]
        rw [List.append_nil]
        exact List.perm_append_comm.trans (pb.append_right _)
    all_goals
      obtain ⟨b, hb, pb⟩ := hr hor (pc ++ a)
      simp only [hb]
      split
      · obtain ⟨c, hc', pc'⟩ := hl hol (pc ++ a ++ b)
        refine ⟨a ++ b ++ c, by rw [hc']; simp, ?_⟩
        rw [List.append_assoc (List.filter F l.toPointcloud)]
        exact List.perm_append_comm.trans (pc'.append ((List.Perm.refl a).append pb))
      · rename_i hn
        refine ⟨a ++ b, by simp, ?_⟩
        rw [show l.toPointcloud.filter F = [] from List.filter_eq_nil_iff.2 fun x hx hFx => hn (by
          have h1 := ol x hx
          have h2 := (abs_le.1 (habs x hFx)).2
          linarith)]
        rw [List.nil_append]
        exact (List.Perm.refl a).append pb

theorem inBox_spec (pos : P → Point3D ℝ) (b : Box3D ℝ) : ∀ (t : KdTree P), t.Ordered pos →
    ∀ pc : List P, ∃ r, t.inBox pos b pc = pc ++ r ∧
      r.Perm (t.toPointcloud.filter fun x => decide (
        |b.center.x - (pos x).x| ≤ 1 / 2 * b.sizeX.val ∧ |b.center.y - (pos x).y| ≤ 1 / 2 * b.sizeY.val ∧
        |b.center.z - (pos x).z| ≤ 1 / 2 * b.sizeZ.val)) := by
  intro t
  induction t with
  | nil => intro _ pc; exact ⟨[], by simp [inBox], .refl _⟩
  | node l r v d hl hr =>
    rintro ⟨hd, ol, or, hol, hor⟩ pc
    set F := fun x => decide (
        |b.center.x - (pos x).x| ≤ 1 / 2 * b.sizeX.val ∧ |b.center.y - (pos x).y| ≤ 1 / 2 * b.sizeY.val ∧
        |b.center.z - (pos x).z| ≤ 1 / 2 * b.sizeZ.val) with hF
    have hcoord : coordOf d (⟨b.x, b.y, b.z⟩ : Point3D ℝ) = coordOf d b.center := by
      rcases hd with rfl | rfl <;> rfl
    have habs : ∀ x, F x = true → |coordOf d b.center - coordOf d (pos x)| ≤
        1 / 2 * coordOf d (⟨b.sizeX.val, b.sizeY.val, b.sizeZ.val⟩ : Point3D ℝ) := by
      intro x hx
      have hx' := of_decide_eq_true hx
      rcases hd with rfl | rfl
      · exact hx'.1
      · exact hx'.2.1
    obtain ⟨a, ha, hav⟩ : ∃ a, (if (Scalar.abs (b.center.x - (pos v).x) <=. lit (1/2) * b.sizeX.val &&
        Scalar.abs (b.center.y - (pos v).y) <=. lit (1/2) * b.sizeY.val
            && Scalar.abs (b.center.z - (pos v).z) <=. lit (1/2) * b.sizeZ.val) = true
            then pc ++ [v] else pc) = pc ++ a ∧
        a = [v].filter F := by
      by_cases h : F v = true
      · refine ⟨[v], ?_, by simp [h]⟩
        have h' := of_decide_eq_true h
        rw [if_pos]
        simp only [Bool.and_eq_true, Real.scalar_le, Real.scalar_abs, Real.scalar_lit, decide_eq_true_eq,
          Rat.cast_div, Rat.cast_one, Rat.cast_ofNat]
        exact ⟨⟨h'.1, h'.2.1⟩, h'.2.2⟩
      · refine ⟨[], ?_, by simp [h]⟩
        rw [if_neg, List.append_nil]
        intro hc
        apply h
        simp only [Bool.and_eq_true, Real.scalar_le, Real.scalar_abs, Real.scalar_lit, decide_eq_true_eq,
          Rat.cast_div, Rat.cast_one, Rat.cast_ofNat] at hc
        exact decide_eq_true ⟨hc.1.1, hc.1.2, hc.2⟩
    simp only [inBox, dimensionDist]
    rw [ha]
    by_cases hleaf : (node l r v d).isLeaf = true
    · rw [if_pos hleaf]
      refine ⟨a, rfl, ?_⟩
      unfold isLeaf at hleaf
      split at hleaf
      · rename_i h; injection h with h1 h2 h3 h4; subst h1 h2 h3 h4
        simp [toPointcloud, hav]
      · simp at hleaf
    rw [if_neg hleaf, dimensionCompare_real _ _ _ hd, hcoord]
    simp only [Real.scalar_le, Real.scalar_lit, Rat.cast_div, Rat.cast_one, Rat.cast_ofNat,
      decide_eq_true_eq, toPointcloud, List.filter_append, ← hav]
    rcases hc : cmp (coordOf d b.center) (coordOf d (pos v)) with _ | _ | _
    · obtain ⟨c, hb, pb⟩ := hl hol (pc ++ a)
      simp only [hb]
      split
      · obtain ⟨e, hc', pc'⟩ := hr hor (pc ++ a ++ c)
        refine ⟨a ++ c ++ e, by rw [hc']; simp, ?_⟩
        exact ((List.perm_append_comm.trans (pb.append_right _)).append pc')
      · rename_i hn
        refine ⟨a ++ c, by simp, ?_⟩
        rw [show r.toPointcloud.filter F = [] from List.filter_eq_nil_iff.2 fun x hx hFx => hn (by
          have h1 := or x hx
          have h2 := (abs_le.1 (habs x hFx)).1
          linarith)]
        rw [List.append_nil]
        exact List.perm_append_comm.trans (pb.append_right _)
    all_goals
      obtain ⟨c, hb, pb⟩ := hr hor (pc ++ a)
      simp only [hb]
      split
      · obtain ⟨e, hc', pc'⟩ := hl hol (pc ++ a ++ c)
        refine ⟨a ++ c ++ e, by rw [hc']; simp, ?_⟩
        rw [List.append_assoc (List.filter F l.toPointcloud)]
        exact List.perm_append_comm.trans (pc'.append ((List.Perm.refl a).append pb))
      · rename_i hn
        refine ⟨a ++ c, by simp, ?_⟩
        rw [show l.toPointcloud.filter F = [] from List.filter_eq_nil_iff.2 fun x hx hFx => hn (by
          have h1 := ol x hx
          have h2 := (abs_le.1 (habs x hFx)).2
          linarith)]
        rw [List.nil_append]
        exact (List.Perm.refl a).append pb

/-- C27: `in_sphere` appends, with multiplicity, exactly the input points whose distance to the center is
at most the radius. -/
theorem c27_in_sphere (pos : P → Point3D ℝ) (pts : List P) (t : KdTree P) (ht : Built pos pts t)
    (s : Sphere ℝ) (hs : 0 < s.radius.val) (res : List P) :
    ∃ r, t.inSphere pos s res = res ++ r ∧ ∀ p : P → Bool,
      (∀ x, p x = true ↔ Spec.sqrDist (at3 s.center) (at3 (pos x)) ≤ s.radius.val ^ 2) →
      r.Perm (pts.filter p) := by
  obtain ⟨hne, rfl⟩ := built_eq ht
  obtain ⟨r, hr, hp⟩ := inSphere_spec pos s _ (newNode_ordered pos pts.length 0 pts le_rfl) res
  refine ⟨r, hr, fun p hpx => ?_⟩
  have e : p = fun x => decide (s.center.dist (pos x) ≤ s.radius.val) := by
    funext x
    rw [Bool.eq_iff_iff, hpx, ← spec_sqrDist, ← dist_sq, decide_eq_true_eq]
    exact pow_le_pow_iff_left₀ (dist_nonneg _ _) hs.le (by norm_num)
  rw [e]
  exact hp.trans ((newNode_perm pos pts.length 0 pts le_rfl).filter _)

/-- C27: `in_box` appends, with multiplicity, exactly the input points inside the closed box of the given
sizes around the center. -/
theorem c27_in_box (pos : P → Point3D ℝ) (pts : List P) (t : KdTree P) (ht : Built pos pts t)
    (b : Box3D ℝ) (res : List P) :
    ∃ r, t.inBox pos b res = res ++ r ∧ ∀ p : P → Bool,
      (∀ x, p x = true ↔ ∀ d : Fin 3,
        at3 b.center d - ![b.sizeX.val, b.sizeY.val, b.sizeZ.val] d / 2 ≤ at3 (pos x) d ∧
        at3 (pos x) d ≤ at3 b.center d + ![b.sizeX.val, b.sizeY.val, b.sizeZ.val] d / 2) →
      r.Perm (pts.filter p) := by
  obtain ⟨hne, rfl⟩ := built_eq ht
  obtain ⟨r, hr, hp⟩ := inBox_spec pos b _ (newNode_ordered pos pts.length 0 pts le_rfl) res
  refine ⟨r, hr, fun p hpx => ?_⟩
  refine hp.trans (((newNode_perm pos pts.length 0 pts le_rfl).filter _).trans (.of_eq ?_))
  congr 1
  funext x
  rw [Bool.eq_iff_iff, hpx, decide_eq_true_eq, forall_fin3]
  simp only [abs_le, at3_zero, at3_one, at3_two, Matrix.cons_val_zero, Matrix.cons_val_one,
    Matrix.cons_val]
  constructor
  · rintro ⟨⟨h1, h2⟩, ⟨h3, h4⟩, h5, h6⟩
    refine ⟨⟨?_, ?_⟩, ⟨?_, ?_⟩, ?_, ?_⟩ <;> linarith
  · rintro ⟨⟨h1, h2⟩, ⟨h3, h4⟩, h5, h6⟩
    refine ⟨⟨?_, ?_⟩, ⟨?_, ?_⟩, ?_, ?_⟩ <;> linarith

/-- C27: queries on an empty tree leave the result as it is -/
theorem c27_empty {α : Type} [Scalar α] (pos : P → Point3D α) (s : Sphere α) (b : Box3D α) (res : List P) :
    (nil : KdTree P).inSphere pos s res = res ∧ (nil : KdTree P).inBox pos b res = res := ⟨rfl, rfl⟩

/-- the hypotheses are met: every non empty list is built -/
example : ∃ t, Built id [(⟨1, 3, 0⟩ : Point3D ℝ), ⟨3, 1, 0⟩, ⟨2, 4, 0⟩, ⟨1, 3, 0⟩] t := ⟨_, rfl⟩
example : 0 < (⟨⟨0, 0, 0⟩, ⟨2⟩⟩ : Sphere ℝ).radius.val := by norm_num

end KdTree
end R3D

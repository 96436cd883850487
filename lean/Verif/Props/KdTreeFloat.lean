import Verif.Lemmas.KdTreeFloat
import Verif.Props.KdTree
import Verif.Props.AABBTree
/-
C25, C26 and C91 for doubles: every operation rounded, distances as the code computes them. `Point3D.Num`: the
coordinates are finite doubles (no infinity, no NaN).
-/
namespace R3D
open Scalar F64
namespace KdTree
variable {P : Type}

theorem knearest_f64 {pos : P → Point3D F64} {pts : List P} {t : KdTree P} (ht : Built pos pts t)
    (hnum : ∀ x ∈ pts, (pos x).Num) {q : Point3D F64} (hq : q.Num) (n : Nat) :
    ∃ r, t.knearest pos q n [] = some r ∧ r.length = min n pts.length ∧ r.Subperm pts ∧
      (1 ≤ n → ∀ x ∈ pts, ∃ b ∈ r, F64.key (q.dist (pos b)) ≤ F64.key (q.dist (pos x))) := by
  obtain ⟨hne, rfl⟩ := built_eq ht
  have hp := newNode_perm pos pts.length 0 pts le_rfl
  have ho := newNode_orderedF pos pts.length 0 pts le_rfl hnum
  by_cases hn : n < 1
  · obtain rfl : n = 0 := by omega
    exact ⟨[], rfl, by simp, List.nil_subperm, fun h => absurd h (by simp)⟩
  have hn' : 1 ≤ n := by omega
  obtain ⟨r, hr, hw, hlen⟩ := knearestNode_specF (q := q) hn' hq _ ho (fun x hx => hnum x (hp.mem_iff.1 hx)) [] (by simp)
  have hpos : 0 < pts.length := List.length_pos_iff.2 hne
  have h2 := hw.2.1
  rw [List.length_nil, Nat.zero_add, hp.length_eq] at h2
  have hsub : r.Subperm pts := by have := hw.1; rw [List.nil_append] at this; exact this.trans hp.subperm
  have hnil : newNode pos pts.length 0 pts ≠ nil := by
    intro e
    have := hp.length_eq
    rw [e] at this; simp [toPointcloud] at this; omega
  refine ⟨r, by simp [knearest, hn, hr], ?_, hsub, fun _ x hx => ?_⟩
  · have := hlen hnil; have := hsub.length_le; omega
  · exact hw.2.2 x (by rw [List.nil_append]; exact hp.mem_iff.2 hx)

/-- C26 (partial), doubles: for finite coordinates `knearest` returns exactly `min n size` points of the
input (a sub-multiset), and for every point of the input one whose computed distance is not greater.
Missing for the full claim: the other points need not be the next nearest,
see `c26_violated`. -/
theorem c26_knearest_f64_partial (pos : P → Point3D F64) (pts : List P) (t : KdTree P) (ht : Built pos pts t)
    (hnum : ∀ x ∈ pts, (pos x).Num) (q : Point3D F64) (hq : q.Num) (n : Nat) :
    ∃ r, t.knearest pos q n [] = some r ∧ r.length = min n pts.length ∧ r.Subperm pts ∧
      (1 ≤ n → ∀ x ∈ pts, ∃ b ∈ r, (q.dist (pos b) <=. q.dist (pos x)) = true) := by
  obtain ⟨r, h1, h2, h3, h4⟩ := knearest_f64 ht hnum hq n
  refine ⟨r, h1, h2, h3, fun hn x hx => ?_⟩
  obtain ⟨b, hb, hbx⟩ := h4 hn x hx
  have nb := hnum b (h3.subset hb)
  exact ⟨b, hb, (le_f64 (Point3D.dist_nonNeg_f64 hq nb).ok (Point3D.dist_nonNeg_f64 hq (hnum x hx)).ok).2 hbx⟩

/-- C26, doubles: all points are returned when at least as many are asked for as there are. -/
theorem c26_all_f64 (pos : P → Point3D F64) (pts : List P) (t : KdTree P) (ht : Built pos pts t)
    (hnum : ∀ x ∈ pts, (pos x).Num) (q : Point3D F64) (hq : q.Num) (n : Nat) (hn : pts.length ≤ n) :
    ∃ r, t.knearest pos q n [] = some r ∧ r.Perm pts := by
  obtain ⟨r, hr, hlen, hsub, -⟩ := knearest_f64 ht hnum hq n
  exact ⟨r, hr, hsub.perm_of_length_le (by omega)⟩

/-- C25, doubles: for finite coordinates `nearest` returns a point of the input whose computed distance
(`dist_3d`) to the search point is at most that of every other, in spite of the rounding of the borders
used to skip branches, of overflow and of underflow. -/
theorem c25_nearest_f64 (pos : P → Point3D F64) (pts : List P) (t : KdTree P) (ht : Built pos pts t)
    (hnum : ∀ x ∈ pts, (pos x).Num) (q : Point3D F64) (hq : q.Num) :
    ∃ b ∈ pts, t.nearest pos q = some (some b) ∧ ∀ x ∈ pts, (q.dist (pos b) <=. q.dist (pos x)) = true := by
  obtain ⟨r, hr, hlen, hsub, hmin⟩ := c26_knearest_f64_partial pos pts t ht hnum q hq 1
  have hpos : 0 < pts.length := List.length_pos_iff.2 (built_eq ht).1
  match r, hlen with
  | [b], _ =>
    refine ⟨b, hsub.subset (by simp), by simp [nearest, hr], fun x hx => ?_⟩
    obtain ⟨c, hc, h⟩ := hmin le_rfl x hx
    rwa [List.mem_singleton.1 hc] at h
  | [], h => simp at h; omega
  | _ :: _ :: _, h => simp at h; omega

/-! ### C91 -/

/-- a list between two filters of another one -/
def Between (r S : List P) (lo hi : P → Bool) : Prop := (S.filter lo).Subperm r ∧ r.Subperm (S.filter hi)

theorem Between.append {r r' S S' : List P} {lo hi : P → Bool} (h : Between r S lo hi) (h' : Between r' S' lo hi) :
    Between (r ++ r') (S ++ S') lo hi := by
  unfold Between
  rw [List.filter_append, List.filter_append]
  exact ⟨h.1.append h'.1, h.2.append h'.2⟩

theorem Between.nil {S : List P} {lo hi : P → Bool} (h : ∀ x ∈ S, ¬ lo x = true) : Between [] S lo hi :=
  ⟨by rw [List.filter_eq_nil_iff.2 h], List.nil_subperm⟩

theorem Between.perm {r S S' : List P} {lo hi : P → Bool} (h : Between r S lo hi) (hp : S.Perm S') : Between r S' lo hi :=
  ⟨(hp.filter lo).symm.subperm.trans h.1, h.2.trans (hp.filter hi).subperm⟩

/-- what a pruned search returns: the points of the skipped branches do not pass `lo`, those taken pass `hi` -/
theorem inSphere_between {pos : P → Point3D F64} {s : Sphere F64} (hc : s.center.Num) (hr : NonNeg s.radius.val)
    (hmin : F64.key (.fin false (2 ^ (-511 : ℤ))) ≤ F64.key s.radius.val) :
    ∀ (t : KdTree P), t.OrderedF pos → (∀ x ∈ t.toPointcloud, (pos x).Num) → ∀ pc : List P,
    ∃ r, t.inSphere pos s pc = pc ++ r ∧ Between r t.toPointcloud
      (fun x => s.center.dist (pos x) <. s.radius.val) (fun x => s.center.dist (pos x) <=. s.radius.val) := by
  intro t
  induction t with
  | nil => intro _ _ pc; exact ⟨[], by simp [inSphere], Between.nil (by simp [toPointcloud])⟩
  | node l r v d hl hrr =>
    rintro ⟨hd, ol, or, hol, hor⟩ hnum pc
    have nl : ∀ x ∈ l.toPointcloud, (pos x).Num := fun x hx => hnum x (by simp [toPointcloud, hx])
    have nr : ∀ x ∈ r.toPointcloud, (pos x).Num := fun x hx => hnum x (by simp [toPointcloud, hx])
    have nv : (pos v).Num := hnum v (by simp [toPointcloud])
    have hcoord : coordOf d (⟨s.x, s.y, s.z⟩ : Point3D F64) = coordOf d s.center := by
      rcases hd with rfl | rfl <;> rfl
    set lo := fun x => s.center.dist (pos x) <. s.radius.val with hlo
    set hi := fun x => s.center.dist (pos x) <=. s.radius.val with hhi
    have hD : ∀ {x}, (pos x).Num → F64.ok (s.center.dist (pos x)) := fun h => (Point3D.dist_nonNeg_f64 hc h).ok
    have far : ∀ x, (pos x).Num →
        F64.key (s.radius.val * s.radius.val) ≤ F64.key (Scalar.sq (coordOf d s.center - coordOf d (pos x))) → ¬ lo x = true := by
      intro x hx h
      rw [hlo, lt_f64 (hD hx) hr.ok, not_lt]
      refine (key_sqrt_mul_self_of_le hr hmin).trans ?_
      refine key_sqrt_mono (mul_self_nonNeg hr.ok) (Point3D.sqrDist_nonNeg hc hx) (h.trans ?_)
      have := Point3D.sq_le_sqrDist hc hx
      unfold coordOf
      split
      · exact this.1
      · exact this.2.1
      · exact this.2.2
    obtain ⟨a, ha, hav⟩ : ∃ a, (if s.center.dist (pos v) <=. s.radius.val then pc ++ [v] else pc) = pc ++ a ∧
        Between a [v] lo hi := by
      by_cases h : (s.center.dist (pos v) <=. s.radius.val) = true
      · exact ⟨[v], by simp [h], List.filter_sublist.subperm, by simp [hhi, h]⟩
      · refine ⟨[], by simp [h], Between.nil fun x hx => ?_⟩
        rw [List.mem_singleton.1 hx, hlo, lt_f64 (hD nv) hr.ok, not_lt]
        rw [le_f64 (hD nv) hr.ok, not_le] at h
        exact h.le
    simp only [inSphere]
    rw [ha]
    by_cases hleaf : (node l r v d).isLeaf = true
    · rw [if_pos hleaf]
      refine ⟨a, rfl, ?_⟩
      unfold isLeaf at hleaf
      split at hleaf
      · rename_i h; injection h with h1 h2 h3 h4; subst h1 h2 h3 h4
        simpa [toPointcloud] using hav
      · simp at hleaf
    rw [if_neg hleaf, dimensionCompare_f64 hd hc nv, hcoord]
    simp only [toPointcloud]
    rcases hcmp : cmp (F64.key (coordOf d s.center)) (F64.key (coordOf d (pos v))) with _ | _ | _
    · obtain ⟨b, hb, pb⟩ := hl hol nl (pc ++ a)
      simp only [hb]
      split
      · obtain ⟨c, hc', pc'⟩ := hrr hor nr (pc ++ a ++ b)
        refine ⟨a ++ b ++ c, by rw [hc']; simp, ?_⟩
        exact ((hav.append pb).append pc').perm (List.perm_append_comm.append_right _)
      · rename_i hn
        rw [le_f64 (num_coord nv d).ok (ok_add_fin_nonNeg (num_coord hc d).1 hr), not_le] at hn
        refine ⟨a ++ b, by simp, ?_⟩
        have pr : Between [] r.toPointcloud lo hi := Between.nil fun x hx => far x (nr x hx)
          (border_right (num_coord hc d) (num_coord nv d) (num_coord (nr x hx) d) hr hn (or x hx)).2
        have := ((hav.append pb).append pr).perm (List.perm_append_comm.append_right _)
        rwa [List.append_nil] at this
    all_goals
      obtain ⟨b, hb, pb⟩ := hrr hor nr (pc ++ a)
      simp only [hb]
      split
      · obtain ⟨c, hc', pc'⟩ := hl hol nl (pc ++ a ++ b)
        refine ⟨a ++ b ++ c, by rw [hc']; simp, ?_⟩
        rw [List.append_assoc l.toPointcloud]
        exact ((hav.append pb).append pc').perm List.perm_append_comm
      · rename_i hn
        rw [le_f64 (ok_sub_nonNeg (num_coord hc d).1 hr) (num_coord nv d).ok, not_le] at hn
        refine ⟨a ++ b, by simp, ?_⟩
        have pl : Between [] l.toPointcloud lo hi := Between.nil fun x hx => far x (nl x hx)
          (border_left (num_coord hc d) (num_coord nv d) (num_coord (nl x hx) d) hr hn (ol x hx)).2
        rw [List.append_assoc l.toPointcloud]
        exact (pl.append (hav.append pb))

/-- C91 (partial): for finite coordinates and a radius of at least `2^-511` (infinite allowed)
`in_sphere` appends, with multiplicity, all input points of computed distance smaller than the radius and
no point of a greater one. Missing for the full claim: a point of computed distance equal to the radius
may be left out, and for tiny radii also nearer ones, see `c91_violated_tie` and `c91_violated_tiny`. -/
theorem c91_in_sphere_partial (pos : P → Point3D F64) (pts : List P) (t : KdTree P) (ht : Built pos pts t)
    (hnum : ∀ x ∈ pts, (pos x).Num) (s : Sphere F64) (hc : s.center.Num)
    (hr : Rep s.radius.val) (hmin : (F64.fin false (2 ^ (-511 : ℤ)) <=. s.radius.val) = true) (res : List P) :
    ∃ r, t.inSphere pos s res = res ++ r ∧
      (pts.filter fun x => s.center.dist (pos x) <. s.radius.val).Subperm r ∧
      r.Subperm (pts.filter fun x => s.center.dist (pos x) <=. s.radius.val) := by
  obtain ⟨hne, rfl⟩ := built_eq ht
  have hp := newNode_perm pos pts.length 0 pts le_rfl
  have hok : F64.ok s.radius.val := by
    intro e; rw [e] at hmin; exact absurd hmin (by decide)
  have hmin' := (le_f64 (a := F64.fin false (2 ^ (-511 : ℤ))) F64.noConfusion hok).1 hmin
  have hnn : NonNeg s.radius.val := by
    have h0 : (0 : EReal) < F64.key (F64.fin false (2 ^ (-511 : ℤ))) := by
      rw [key_fin_false]
      have : (0:ℝ) < ((2 ^ (-511 : ℤ) : ℚ) : ℝ) := by positivity
      exact_mod_cast this
    have h1 := h0.trans_le hmin'
    revert hr h1 hok
    generalize s.radius.val = v
    intro hr hok h1
    match v with
    | .nan => exact absurd rfl hok
    | .inf false => exact .inl rfl
    | .inf true => simp [F64.key] at h1
    | .fin false m => exact .inr ⟨m, rfl, hr⟩
    | .fin true m =>
      exfalso
      have : F64.key (.fin true m) = (((-m : ℚ) : ℝ) : EReal) := by simp [F64.key, F64.val]
      rw [this] at h1
      have h2 : (0:ℝ) < ((-m : ℚ) : ℝ) := by exact_mod_cast h1
      have h3 : (0:ℚ) < -m := by exact_mod_cast h2
      linarith [hr.1]
  obtain ⟨r, h1, h2, h3⟩ := inSphere_between hc hnn hmin' _ (newNode_orderedF pos pts.length 0 pts le_rfl hnum)
    (fun x hx => hnum x (hp.mem_iff.1 hx)) res
  exact ⟨r, h1, (hp.filter _).symm.subperm.trans h2, h3.trans (hp.filter _).subperm⟩

theorem half_nonNeg {a : F64} (ha : NonNeg a) : NonNeg (lit (1/2) * a) := by
  show NonNeg (F64.mul (F64.ofRat (1/2)) a)
  have e : F64.ofRat (1/2) = F64.fin false (1/2) := by decide +kernel
  rw [e]
  rcases ha with rfl | ⟨m, rfl, -⟩
  · left; simp [F64.mul]
  · simp only [F64.mul, Bool.xor_self]; exact round_nonNeg _

/-- the box test of the code with the comparison `c` in the first two dimensions -/
def boxTest (b : Box3D F64) (c : F64 → F64 → Bool) (p : Point3D F64) : Bool :=
  c (Scalar.abs (b.center.x - p.x)) (lit (1/2) * b.sizeX.val) &&
    c (Scalar.abs (b.center.y - p.y)) (lit (1/2) * b.sizeY.val) &&
    (Scalar.abs (b.center.z - p.z) <=. lit (1/2) * b.sizeZ.val)

theorem ok_abs {a : F64} (h : F64.ok a) : F64.ok (Scalar.abs a) := by
  show F64.ok (F64.abs a)
  cases a with
  | nan => exact absurd rfl h
  | inf s => exact F64.noConfusion
  | fin s m => exact F64.noConfusion

theorem inBox_between {pos : P → Point3D F64} {b : Box3D F64} (hc : b.center.Num) (hx : NonNeg b.sizeX.val)
    (hy : NonNeg b.sizeY.val) :
    ∀ (t : KdTree P), t.OrderedF pos → (∀ x ∈ t.toPointcloud, (pos x).Num) → ∀ pc : List P,
    ∃ r, t.inBox pos b pc = pc ++ r ∧ Between r t.toPointcloud
      (fun x => boxTest b (fun u v => u <. v) (pos x)) (fun x => boxTest b (fun u v => u <=. v) (pos x)) := by
  intro t
  induction t with
  | nil => intro _ _ pc; exact ⟨[], by simp [inBox], Between.nil (by simp [toPointcloud])⟩
  | node l r v d hl hrr =>
    rintro ⟨hd, ol, or, hol, hor⟩ hnum pc
    have nl : ∀ x ∈ l.toPointcloud, (pos x).Num := fun x hx => hnum x (by simp [toPointcloud, hx])
    have nr : ∀ x ∈ r.toPointcloud, (pos x).Num := fun x hx => hnum x (by simp [toPointcloud, hx])
    have nv : (pos v).Num := hnum v (by simp [toPointcloud])
    have hcoord : coordOf d (⟨b.x, b.y, b.z⟩ : Point3D F64) = coordOf d b.center := by
      rcases hd with rfl | rfl <;> rfl
    set lo := fun x => boxTest b (fun u v => u <. v) (pos x) with hlo
    set hi := fun x => boxTest b (fun u v => u <=. v) (pos x) with hhi
    set h := lit (1/2) * coordOf d (⟨b.sizeX.val, b.sizeY.val, b.sizeZ.val⟩ : Point3D F64) with hh
    have hr : NonNeg h := by
      rcases hd with rfl | rfl
      · exact half_nonNeg hx
      · exact half_nonNeg hy
    have far : ∀ x, (pos x).Num →
        F64.key h ≤ F64.key (Scalar.abs (coordOf d b.center - coordOf d (pos x))) → ¬ lo x = true := by
      intro x nx hk
      have hk' := hk.not_gt
      rw [← lt_f64 (ok_abs (ok_sub_fin (num_coord hc d).1 (num_coord nx d).1)) hr.ok] at hk'
      intro hl
      simp only [hlo, boxTest, Bool.and_eq_true] at hl
      rcases hd with rfl | rfl
      · exact hk' hl.1.1
      · exact hk' hl.1.2
    obtain ⟨a, ha, hav⟩ : ∃ a, (if (Scalar.abs (b.center.x - (pos v).x) <=. lit (1/2) * b.sizeX.val &&
        Scalar.abs (b.center.y - (pos v).y) <=. lit (1/2) * b.sizeY.val
            && Scalar.abs (b.center.z - (pos v).z) <=. lit (1/2) * b.sizeZ.val) = true
            then pc ++ [v] else pc) = pc ++ a ∧ Between a [v] lo hi := by
      by_cases h : hi v = true
      · exact ⟨[v], if_pos h, List.filter_sublist.subperm, by simp [h]⟩
      · refine ⟨[], (if_neg h).trans (List.append_nil _).symm, Between.nil fun x hx' hl => h ?_⟩
        rw [List.mem_singleton.1 hx'] at hl
        simp only [hlo, hhi, boxTest, Bool.and_eq_true] at hl ⊢
        have ox := ok_abs (ok_sub_fin hc.1.1 nv.1.1)
        have oy := ok_abs (ok_sub_fin hc.2.1.1 nv.2.1.1)
        rw [lt_f64 ox (half_nonNeg hx).ok, lt_f64 oy (half_nonNeg hy).ok] at hl
        rw [le_f64 ox (half_nonNeg hx).ok, le_f64 oy (half_nonNeg hy).ok]
        exact ⟨⟨hl.1.1.le, hl.1.2.le⟩, hl.2⟩
    simp only [inBox, dimensionDist]
    rw [ha]
    by_cases hleaf : (node l r v d).isLeaf = true
    · rw [if_pos hleaf]
      refine ⟨a, rfl, ?_⟩
      unfold isLeaf at hleaf
      split at hleaf
      · rename_i h; injection h with h1 h2 h3 h4; subst h1 h2 h3 h4
        simpa [toPointcloud] using hav
      · simp at hleaf
    rw [if_neg hleaf, dimensionCompare_f64 hd hc nv, hcoord]
    simp only [toPointcloud, ← hh]
    rcases hcmp : cmp (F64.key (coordOf d b.center)) (F64.key (coordOf d (pos v))) with _ | _ | _
    · obtain ⟨c, hb, pb⟩ := hl hol nl (pc ++ a)
      simp only [hb]
      split
      · obtain ⟨e, hc', pc'⟩ := hrr hor nr (pc ++ a ++ c)
        refine ⟨a ++ c ++ e, by rw [hc']; simp, ?_⟩
        exact ((hav.append pb).append pc').perm (List.perm_append_comm.append_right _)
      · rename_i hn
        rw [le_f64 (num_coord nv d).ok (ok_add_fin_nonNeg (num_coord hc d).1 hr), not_le] at hn
        refine ⟨a ++ c, by simp, ?_⟩
        have pr : Between [] r.toPointcloud lo hi := Between.nil fun x hx => far x (nr x hx)
          (border_right (num_coord hc d) (num_coord nv d) (num_coord (nr x hx) d) hr hn (or x hx)).1
        have := ((hav.append pb).append pr).perm (List.perm_append_comm.append_right _)
        rwa [List.append_nil] at this
    all_goals
      obtain ⟨c, hb, pb⟩ := hrr hor nr (pc ++ a)
      simp only [hb]
      split
      · obtain ⟨e, hc', pc'⟩ := hl hol nl (pc ++ a ++ c)
        refine ⟨a ++ c ++ e, by rw [hc']; simp, ?_⟩
        rw [List.append_assoc l.toPointcloud]
        exact ((hav.append pb).append pc').perm List.perm_append_comm
      · rename_i hn
        rw [le_f64 (ok_sub_nonNeg (num_coord hc d).1 hr) (num_coord nv d).ok, not_le] at hn
        refine ⟨a ++ c, by simp, ?_⟩
        have pl : Between [] l.toPointcloud lo hi := Between.nil fun x hx => far x (nl x hx)
          (border_left (num_coord hc d) (num_coord nv d) (num_coord (nl x hx) d) hr hn (ol x hx)).1
        rw [List.append_assoc l.toPointcloud]
        exact (pl.append (hav.append pb))

/-- C91 (partial): for finite coordinates and sizes that are not negative `in_box` appends, with
multiplicity, all input points whose computed distances from the center are smaller than half the size in
x and y (at most half the size in z), and no point with a greater one. Missing for the full claim: a
point with equality in x or y may be left out, see `c91_violated_tie`. -/
theorem c91_in_box_partial (pos : P → Point3D F64) (pts : List P) (t : KdTree P) (ht : Built pos pts t)
    (hnum : ∀ x ∈ pts, (pos x).Num) (b : Box3D F64) (hc : b.center.Num) (hx : NonNeg b.sizeX.val)
    (hy : NonNeg b.sizeY.val) (res : List P) :
    ∃ r, t.inBox pos b res = res ++ r ∧
      (pts.filter fun p =>
        (Scalar.abs (b.center.x - (pos p).x) <. lit (1/2) * b.sizeX.val) &&
        (Scalar.abs (b.center.y - (pos p).y) <. lit (1/2) * b.sizeY.val) &&
        (Scalar.abs (b.center.z - (pos p).z) <=. lit (1/2) * b.sizeZ.val)).Subperm r ∧
      r.Subperm (pts.filter fun p =>
        (Scalar.abs (b.center.x - (pos p).x) <=. lit (1/2) * b.sizeX.val) &&
        (Scalar.abs (b.center.y - (pos p).y) <=. lit (1/2) * b.sizeY.val) &&
        (Scalar.abs (b.center.z - (pos p).z) <=. lit (1/2) * b.sizeZ.val)) := by
  obtain ⟨hne, rfl⟩ := built_eq ht
  have hp := newNode_perm pos pts.length 0 pts le_rfl
  obtain ⟨r, h1, h2, h3⟩ := inBox_between hc hx hy _ (newNode_orderedF pos pts.length 0 pts le_rfl hnum)
    (fun x hx => hnum x (hp.mem_iff.1 hx)) res
  exact ⟨r, h1, (hp.filter _).symm.subperm.trans h2, h3.trans (hp.filter _).subperm⟩

/-- a point on the x axis -/
def px (q : ℚ) : Point3D F64 := ⟨F64.ofRat q, F64.ofRat 0, F64.ofRat 0⟩

/-- C91 violated: of three equal points whose computed distance is exactly the radius (and
whose computed distance along x is exactly half the size of the box) both searches return only two, since
center + radius is rounded down. -/
theorem c91_violated_tie : ∃ (t : KdTree (Point3D F64)) (s : Sphere F64) (b : Box3D F64),
    Built id [px 1, px 1, px 1] t ∧ s.center = px (-3 / 2 ^ 55) ∧ s.radius = ⟨F64.ofRat 1⟩ ∧
      (s.center.dist (px 1) <=. s.radius.val) = true ∧ t.inSphere id s [] = [px 1, px 1] ∧
      b.center = px (-3 / 2 ^ 55) ∧ b.sizeX = ⟨F64.ofRat 2⟩ ∧ boxTest b (fun u v => u <=. v) (px 1) = true ∧
      t.inBox id b [] = [px 1, px 1] := by
  refine ⟨newNode id 3 0 [px 1, px 1, px 1], ⟨px (-3 / 2 ^ 55), ⟨F64.ofRat 1⟩⟩,
    ⟨px (-3 / 2 ^ 55), ⟨F64.ofRat 2⟩, ⟨F64.ofRat 2⟩, ⟨F64.ofRat 2⟩⟩, rfl, rfl, rfl, ?_, ?_, rfl, rfl, ?_, ?_⟩
  all_goals decide +kernel

theorem built_three (a b c : Point3D F64) : Built id [a, b, c] (newNode id 3 0 [a, b, c]) := rfl

/-- C91 violated: with a radius of 2^-600 the squares vanish, the computed distance of a point
at 2^-599 is 0, and whether such a point is returned depends on the branch it is stored in. -/
theorem c91_violated_tiny : ∃ (t : KdTree (Point3D F64)) (s : Sphere F64),
    Built id [px (1 / 2 ^ 599), px (1 / 2 ^ 599), px (1 / 2 ^ 599)] t ∧ s.radius = ⟨F64.ofRat (1 / 2 ^ 600)⟩ ∧
      (s.center.dist (px (1 / 2 ^ 599)) <. s.radius.val) = true ∧
      t.inSphere id s [] = [px (1 / 2 ^ 599), px (1 / 2 ^ 599)] := by
  refine ⟨newNode id 3 0 [px (1 / 2 ^ 599), px (1 / 2 ^ 599), px (1 / 2 ^ 599)], ⟨px 0, ⟨F64.ofRat (1 / 2 ^ 600)⟩⟩,
    built_three _ _ _, rfl, ?_, ?_⟩
  all_goals decide +kernel

/-- the hypotheses are met -/
theorem px_num : (px 1).Num := by
  have h1 : F64.ofRat 1 = .fin false 1 := by decide +kernel
  have h0 : F64.ofRat 0 = .fin false 0 := by decide +kernel
  have n1 : F64.Num (F64.ofRat 1) := ⟨⟨false, 1, h1⟩, ofRat_rep 1⟩
  have n0 : F64.Num (F64.ofRat 0) := ⟨⟨false, 0, h0⟩, ofRat_rep 0⟩
  exact ⟨n1, n0, n0⟩

example : ∃ t, Built id [px 1, px 2, px 3] t := ⟨_, rfl⟩
example : Rep (F64.ofRat 1) ∧ (F64.fin false (2 ^ (-511 : ℤ)) <=. F64.ofRat 1) = true :=
  ⟨ofRat_rep _, by decide +kernel⟩
example : NonNeg (F64.ofRat 2) := .inr ⟨2, by decide +kernel, by
  have h : F64.ofRat 2 = .fin false 2 := by decide +kernel
  rw [← h]; exact ofRat_rep _⟩

end KdTree
end R3D

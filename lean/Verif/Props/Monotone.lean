import Verif.Props.KdTreeFloat
import Verif.Props.FilterFloat
import Verif.Props.MidFloat
import Verif.Props.DouglasPeucker
import Verif.Props.AABBTree
import Verif.Props.ClusterVertices
/-!
C131: asking for more never gives less.
-/
namespace R3D
open Scalar LawfulScalar Spec

/-! ### numbers -/

/-- everything within `r` of `c`, by the code's additions and subtractions, is within `r'` of it -/
def Spec.Reaches {α : Type} [Scalar α] (c r r' : α) : Prop :=
  ∀ v, (v <=. c + r → v <=. c + r') ∧ (c - r <=. v → c - r' <=. v)

theorem Spec.reaches_real {r r' : ℝ} (h : r ≤ r') (c : ℝ) : Reaches c r r' := by
  intro v
  simp only [Real.scalar_le, decide_eq_true_eq]
  constructor <;> intro h1 <;> linarith

theorem Spec.reaches_f64 {c r r' : F64} (hc : F64.Num c) (hr : F64.Num r) (hr' : F64.Num r')
    (h : (r <=. r') = true) : Reaches c r r' := by
  have h := (F64.num_le hr hr').1 h
  have ok1 : F64.ok (c + r') := (F64.ok_add_num hc hr')
  have ok2 : F64.ok (c - r') := F64.ok_sub_fin hc.1 hr'.1
  intro v
  constructor
  · intro h1
    obtain ⟨a, -, b⟩ := (LawfulScalar.le_iff _ _).1 h1
    exact (LawfulScalar.le_iff _ _).2 ⟨a, ok1, b.trans (F64.key_add_le_add hc hr hc hr' (by linarith))⟩
  · intro h1
    obtain ⟨-, a, b⟩ := (LawfulScalar.le_iff _ _).1 h1
    exact (LawfulScalar.le_iff _ _).2 ⟨ok2, a, (F64.key_sub_mono hc hr' hc hr (by linarith)).trans b⟩

theorem F64.half_le_half {a b : F64} (ha : F64.Num a) (hb : F64.Num b) (h : (a <=. b) = true) :
    (a / lit 2 <=. b / lit 2) = true := by
  have h' := (F64.num_le ha hb).1 h
  refine (F64.num_le (F64.toR_half ha).1 (F64.toR_half hb).1).2 ?_
  rw [← EReal.coe_le_coe_iff, ← (F64.toR_half ha).1.key, ← (F64.toR_half hb).1.key, F64.lit_two]
  obtain ⟨s, m, rfl, r, hm, e1⟩ := ha.form
  obtain ⟨t, n, rfl, r', hn, e2⟩ := hb.form
  show F64.key (F64.div _ _) ≤ F64.key (F64.div _ _)
  rw [F64.key_div r.1 two_pos, F64.key_div r'.1 two_pos]
  rw [e1, e2] at h'
  have h2 : F64.val s m ≤ F64.val t n := by exact_mod_cast h'
  refine F64.rkey_mono ?_
  have : F64.val false 2 = 2 := by simp [F64.val]
  rw [this]
  linarith

section
variable {α : Type} [Scalar α] [LawfulScalar α]

theorem le_mono {r r' : α} (h : (r <=. r') = true) {v : α} (hv : (v <=. r) = true) : (v <=. r') = true := by
  rw [le_iff] at *
  exact ⟨hv.1, h.2.1, hv.2.2.trans h.2.2⟩

/-! ### searching the k-d tree -/

theorem KdTree.inSphere_mono {P : Type} (pos : P → Point3D α) (c : Point3D α) (r r' : Positive α)
    (h : (r.val <=. r'.val) = true) (hx : Reaches c.x r.val r'.val) (hy : Reaches c.y r.val r'.val) :
    ∀ t : KdTree P, ∃ a b : List P, (∀ pc, t.inSphere pos ⟨c, r⟩ pc = pc ++ a) ∧ (∀ pc, t.inSphere pos ⟨c, r'⟩ pc = pc ++ b) ∧
      a.Sublist b
  | .nil => ⟨[], [], by simp [inSphere], by simp [inSphere], List.Sublist.refl _⟩
  | .node l rt v d => by
    obtain ⟨la, lb, l1, l2, l3⟩ := inSphere_mono pos c r r' h hx hy l
    obtain ⟨ra, rb, r1, r2, r3⟩ := inSphere_mono pos c r r' h hx hy rt
    have hR : ∀ r r' : Positive α, Reaches c.x r.val r'.val → Reaches c.y r.val r'.val →
        Reaches (coordOf d ⟨(⟨c, r⟩ : Sphere α).x, (⟨c, r⟩ : Sphere α).y, (⟨c, r⟩ : Sphere α).z⟩) r.val r'.val := by
      intro r r' a b
      unfold coordOf
      split <;> first | exact a | exact b
    have hR := hR r r' hx hy
    -- the point of the node
    have hv : ∃ va vb : List P, (∀ pc : List P, (if (c.dist (pos v) <=. r.val) = true then pc ++ [v] else pc) = pc ++ va) ∧
        (∀ pc : List P, (if (c.dist (pos v) <=. r'.val) = true then pc ++ [v] else pc) = pc ++ vb) ∧ va.Sublist vb := by
      by_cases h1 : (c.dist (pos v) <=. r.val) = true
      · exact ⟨[v], [v], by simp [h1], by simp [le_mono h h1], List.Sublist.refl _⟩
      · by_cases h2 : (c.dist (pos v) <=. r'.val) = true
        · exact ⟨[], [v], by simp [h1], by simp [h2], List.nil_sublist _⟩
        · exact ⟨[], [], by simp [h1], by simp [h2], List.Sublist.refl _⟩
    obtain ⟨va, vb, v1, v2, v3⟩ := hv
    by_cases hl : (node l rt v d).isLeaf = true
    · exact ⟨va, vb, by simp only [inSphere, hl, if_true, v1, implies_true], by simp only [inSphere, hl, if_true, v2, implies_true], v3⟩
    · have e : ∀ x : Positive α, (⟨c, x⟩ : Sphere α).center = c := fun _ => rfl
      have w : ∀ (x : Positive α) (pc : List P), (node l rt v d).inSphere pos ⟨c, x⟩ pc =
          (match dimensionCompare c (pos v) d with
            | some .lt => if (coordOf d (pos v) <=. coordOf d ⟨(⟨c, x⟩ : Sphere α).x, (⟨c, x⟩ : Sphere α).y, (⟨c, x⟩ : Sphere α).z⟩ + x.val) = true then
                rt.inSphere pos ⟨c, x⟩ (l.inSphere pos ⟨c, x⟩ (if (c.dist (pos v) <=. x.val) = true then pc ++ [v] else pc))
              else l.inSphere pos ⟨c, x⟩ (if (c.dist (pos v) <=. x.val) = true then pc ++ [v] else pc)
            | some _ => if (coordOf d ⟨(⟨c, x⟩ : Sphere α).x, (⟨c, x⟩ : Sphere α).y, (⟨c, x⟩ : Sphere α).z⟩ - x.val <=. coordOf d (pos v)) = true then
                l.inSphere pos ⟨c, x⟩ (rt.inSphere pos ⟨c, x⟩ (if (c.dist (pos v) <=. x.val) = true then pc ++ [v] else pc))
              else rt.inSphere pos ⟨c, x⟩ (if (c.dist (pos v) <=. x.val) = true then pc ++ [v] else pc)
            | none => (if (c.dist (pos v) <=. x.val) = true then pc ++ [v] else pc)) := by
        intro x pc
        rw [inSphere]
        simp only [hl]
        rcases dimensionCompare c (pos v) d with _ | (_ | _ | _) <;> rfl
      simp only [w, v1, v2, l1, l2, r1, r2]
      rcases dimensionCompare c (pos v) d with _ | o
      · exact ⟨va, vb, fun _ => rfl, fun _ => rfl, v3⟩
      · have key : ∀ (p q : Prop) [Decidable p] [Decidable q] (xa xb ya yb : List P), (p → q) → xa.Sublist xb → ya.Sublist yb →
            ∃ a b : List P, (∀ pc : List P, (if p then pc ++ va ++ xa ++ ya else pc ++ va ++ xa) = pc ++ a) ∧
              (∀ pc : List P, (if q then pc ++ vb ++ xb ++ yb else pc ++ vb ++ xb) = pc ++ b) ∧ a.Sublist b := by
          intro p q _ _ xa xb ya yb hpq h1 h2
          by_cases hp : p
          · refine ⟨va ++ xa ++ ya, vb ++ xb ++ yb, by simp [hp], by simp [hpq hp], (v3.append h1).append h2⟩
          · by_cases hq : q
            · refine ⟨va ++ xa, vb ++ xb ++ yb, by simp [hp], by simp [hq], (v3.append h1).trans (List.sublist_append_left _ _)⟩
            · exact ⟨va ++ xa, vb ++ xb, by simp [hp], by simp [hq], v3.append h1⟩
        rcases o with _ | _ | _
        · exact key _ _ la lb ra rb (hR _).1 l3 r3
        · exact key _ _ ra rb la lb (hR _).2 r3 l3
        · exact key _ _ ra rb la lb (hR _).2 r3 l3

theorem KdTree.inBox_mono {P : Type} (pos : P → Point3D α) (c : Point3D α) (sx sy sz sx' sy' sz' : Positive α)
    (h0 : (lit (1/2) * sx.val <=. lit (1/2) * sx'.val) = true) (h1 : (lit (1/2) * sy.val <=. lit (1/2) * sy'.val) = true)
    (h2 : (lit (1/2) * sz.val <=. lit (1/2) * sz'.val) = true)
    (hx : Reaches c.x (lit (1/2) * sx.val) (lit (1/2) * sx'.val)) (hy : Reaches c.y (lit (1/2) * sy.val) (lit (1/2) * sy'.val))
    (hz : Reaches c.z (lit (1/2) * sz.val) (lit (1/2) * sz'.val)) :
    ∀ t : KdTree P, ∃ a b : List P, (∀ pc, t.inBox pos ⟨c, sx, sy, sz⟩ pc = pc ++ a) ∧
      (∀ pc, t.inBox pos ⟨c, sx', sy', sz'⟩ pc = pc ++ b) ∧ a.Sublist b
  | .nil => ⟨[], [], by simp [inBox], by simp [inBox], List.Sublist.refl _⟩
  | .node l rt v d => by
    obtain ⟨la, lb, l1, l2, l3⟩ := inBox_mono pos c sx sy sz sx' sy' sz' h0 h1 h2 hx hy hz l
    obtain ⟨ra, rb, r1, r2, r3⟩ := inBox_mono pos c sx sy sz sx' sy' sz' h0 h1 h2 hx hy hz rt
    have hR : Reaches (coordOf d c) (lit (1/2) * coordOf d ⟨sx.val, sy.val, sz.val⟩)
        (lit (1/2) * coordOf d ⟨sx'.val, sy'.val, sz'.val⟩) := by
      unfold coordOf
      split <;> assumption
    let T : Positive α → Positive α → Positive α → Bool := fun a b e =>
      Scalar.abs (c.x - (pos v).x) <=. lit (1/2) * a.val && Scalar.abs (c.y - (pos v).y) <=. lit (1/2) * b.val
        && Scalar.abs (c.z - (pos v).z) <=. lit (1/2) * e.val
    have hT : T sx sy sz = true → T sx' sy' sz' = true := by
      simp only [T, Bool.and_eq_true]
      rintro ⟨⟨a, b⟩, e⟩
      exact ⟨⟨le_mono h0 a, le_mono h1 b⟩, le_mono h2 e⟩
    have hv : ∃ va vb : List P, (∀ pc : List P, (if T sx sy sz = true then pc ++ [v] else pc) = pc ++ va) ∧
        (∀ pc : List P, (if T sx' sy' sz' = true then pc ++ [v] else pc) = pc ++ vb) ∧ va.Sublist vb := by
      by_cases h1 : T sx sy sz = true
      · exact ⟨[v], [v], by simp [h1], by simp [hT h1], List.Sublist.refl _⟩
      · by_cases h2 : T sx' sy' sz' = true
        · exact ⟨[], [v], by simp [h1], by simp [h2], List.nil_sublist _⟩
        · exact ⟨[], [], by simp [h1], by simp [h2], List.Sublist.refl _⟩
    obtain ⟨va, vb, v1, v2, v3⟩ := hv
    have w0 : ∀ (a b e : Positive α) (pc : List P), (node l rt v d).isLeaf = true → (node l rt v d).inBox pos ⟨c, a, b, e⟩ pc =
        (if T a b e = true then pc ++ [v] else pc) := by
      intro a b e pc hl
      rw [inBox]
      simp only [dimensionDist, hl, if_true]
      rfl
    by_cases hl : (node l rt v d).isLeaf = true
    · exact ⟨va, vb, fun pc => by rw [w0 _ _ _ _ hl, v1], fun pc => by rw [w0 _ _ _ _ hl, v2], v3⟩
    · have w : ∀ (a b e : Positive α) (pc : List P), (node l rt v d).inBox pos ⟨c, a, b, e⟩ pc =
          (match dimensionCompare c (pos v) d with
            | some .lt => if (coordOf d (pos v) <=. coordOf d c + lit (1/2) * coordOf d ⟨a.val, b.val, e.val⟩) = true then
                rt.inBox pos ⟨c, a, b, e⟩ (l.inBox pos ⟨c, a, b, e⟩ (if T a b e = true then pc ++ [v] else pc))
              else l.inBox pos ⟨c, a, b, e⟩ (if T a b e = true then pc ++ [v] else pc)
            | some _ => if (coordOf d c - lit (1/2) * coordOf d ⟨a.val, b.val, e.val⟩ <=. coordOf d (pos v)) = true then
                l.inBox pos ⟨c, a, b, e⟩ (rt.inBox pos ⟨c, a, b, e⟩ (if T a b e = true then pc ++ [v] else pc))
              else rt.inBox pos ⟨c, a, b, e⟩ (if T a b e = true then pc ++ [v] else pc)
            | none => (if T a b e = true then pc ++ [v] else pc)) := by
        intro a b e pc
        rw [inBox]
        simp only [dimensionDist, hl]
        rcases dimensionCompare c (pos v) d with _ | (_ | _ | _) <;> rfl
      simp only [w, v1, v2, l1, l2, r1, r2]
      rcases dimensionCompare c (pos v) d with _ | o
      · exact ⟨va, vb, fun _ => rfl, fun _ => rfl, v3⟩
      · have key : ∀ (p q : Prop) [Decidable p] [Decidable q] (xa xb ya yb : List P), (p → q) → xa.Sublist xb → ya.Sublist yb →
            ∃ a b : List P, (∀ pc : List P, (if p then pc ++ va ++ xa ++ ya else pc ++ va ++ xa) = pc ++ a) ∧
              (∀ pc : List P, (if q then pc ++ vb ++ xb ++ yb else pc ++ vb ++ xb) = pc ++ b) ∧ a.Sublist b := by
          intro p q _ _ xa xb ya yb hpq h1 h2
          by_cases hp : p
          · refine ⟨va ++ xa ++ ya, vb ++ xb ++ yb, by simp [hp], by simp [hpq hp], (v3.append h1).append h2⟩
          · by_cases hq : q
            · refine ⟨va ++ xa, vb ++ xb ++ yb, by simp [hp], by simp [hq], (v3.append h1).trans (List.sublist_append_left _ _)⟩
            · exact ⟨va ++ xa, vb ++ xb, by simp [hp], by simp [hq], v3.append h1⟩
        rcases o with _ | _ | _
        · exact key _ _ la lb ra rb (hR _).1 l3 r3
        · exact key _ _ ra rb la lb (hR _).2 r3 l3
        · exact key _ _ ra rb la lb (hR _).2 r3 l3

/-! ### line simplification -/

omit [LawfulScalar α] in
theorem dp_stop (e : α) (fuel : Nat) (l : List (Point2D α)) (hl : l ≠ [])
    (hd : ¬ ((dpFind (l.head hl) (l.getLast hl) l.tail.dropLast 1 (0, zero)).2 >. e) = true) :
    douglasPeucker e (fuel + 1) l = some [l.head hl, l.getLast hl] := by
  match l, hl with
  | first :: rest, hl =>
    have hlast : (first :: rest).getLast? = some ((first :: rest).getLast hl) := List.getLast?_eq_some_getLast hl
    simp only [List.head_cons, List.tail_cons] at hd ⊢
    generalize (first :: rest).getLast hl = last at *
    rw [douglasPeucker, hlast]
    simp only [Option.bind_eq_bind, Option.bind_some, if_neg hd]

omit [LawfulScalar α] in
/-- the split of one step does not depend on the tolerance -/
theorem dp_split (e : α) (fuel : Nat) (l : List (Point2D α)) (hl : l ≠ [])
    (hd : ((dpFind (l.head hl) (l.getLast hl) l.tail.dropLast 1 (0, zero)).2 >. e) = true) (r1 r2 : List (Point2D α))
    (h1 : douglasPeucker e fuel (l.take (dpFind (l.head hl) (l.getLast hl) l.tail.dropLast 1 (0, zero)).1) = some r1)
    (h2 : douglasPeucker e fuel (l.drop (dpFind (l.head hl) (l.getLast hl) l.tail.dropLast 1 (0, zero)).1) = some r2)
    (hne : r1 ≠ []) : douglasPeucker e (fuel + 1) l = some (r1.dropLast ++ r2) := by
  match l, hl with
  | first :: rest, hl =>
    have hlast : (first :: rest).getLast? = some ((first :: rest).getLast hl) := List.getLast?_eq_some_getLast hl
    simp only [List.head_cons, List.tail_cons] at hd h1 h2
    generalize (first :: rest).getLast hl = last at *
    generalize hf : dpFind first last rest.dropLast 1 (0, zero) = f at *
    have hne' : ¬ r1.length = 0 := by simpa using hne
    rw [douglasPeucker, hlast]
    obtain ⟨index, dmax⟩ := f
    simp only at hd h1 h2
    simp only [Option.bind_eq_bind, Option.bind_some, hf, if_pos hd, h1, h2, if_neg hne']
    rw [List.dropLast_eq_take]

theorem dropLast_sublist_dropLast {T : Type} {a b : List T} (h : a.Sublist b) : a.dropLast.Sublist b.dropLast := by
  have h' := List.reverse_sublist.2 h
  have : ∀ {a b : List T}, a.Sublist b → a.tail.Sublist b.tail := fun h => h.tail
  have h'' := List.reverse_sublist.2 (this h')
  simpa [List.tail_reverse] using h''

/-- **C131** for line simplification, for any numbers: a larger tolerance keeps no point the smaller one drops; the result is a
subsequence of the result for the smaller tolerance. -/
theorem c131_douglas_peucker (e e' : α) (he : (e <=. e') = true) (h0 : ¬ (zero >. e) = true) :
    ∀ (fuel : Nat) (l : List (Point2D α)), l.length ≤ fuel →
      ∃ r r', douglasPeucker e fuel l = some r ∧ douglasPeucker e' fuel l = some r' ∧ r'.Sublist r := by
  have h0' : ¬ (zero >. e') = true := by
    intro h
    refine h0 ?_
    rw [lt_iff] at *
    rw [le_iff] at he
    exact ⟨he.1, h.2.1, lt_of_le_of_lt he.2.2 h.2.2⟩
  intro fuel
  induction fuel with
  | zero =>
    intro l hl
    obtain rfl : l = [] := by simpa using hl
    exact ⟨[], [], rfl, rfl, List.Sublist.refl _⟩
  | succ fuel ih =>
    intro l hl
    by_cases hne : l = []
    · subst hne
      exact ⟨[], [], rfl, rfl, List.Sublist.refl _⟩
    · obtain ⟨a0, a1, a2⟩ := dp_main e h0 (fuel + 1) l hl
      by_cases hd : ¬ ((dpFind (l.head hne) (l.getLast hne) l.tail.dropLast 1 (0, zero)).2 >. e') = true
      · have h := dp_stop e' fuel l hne hd
        -- the larger tolerance keeps the end points only
        by_cases h2 : 2 ≤ l.length
        · obtain ⟨r, hr, -, g, hh, ht⟩ := a2 h2
          refine ⟨r, _, hr, h, ?_⟩
          rw [List.head?_eq_some_head hne] at hh
          rw [List.getLast?_eq_some_getLast hne] at ht
          match r, g, hh, ht with
          | x :: y :: r, _, hh, ht =>
            obtain rfl : x = l.head hne := by simpa using hh
            rw [List.getLast?_cons_cons] at ht
            exact (List.singleton_sublist.2 (List.mem_of_getLast? ht)).cons_cons _
        · match l, hne with
          | [p], _ => exact ⟨_, _, a1 p rfl, h, List.Sublist.refl _⟩
          | _ :: _ :: _, _ => simp at h2
      · have hd := not_not.1 hd
        have hd1 : ((dpFind (l.head hne) (l.getLast hne) l.tail.dropLast 1 (0, zero)).2 >. e) = true := by
          rw [lt_iff] at *
          rw [le_iff] at he
          exact ⟨he.1, hd.2.1, lt_of_le_of_lt he.2.2 hd.2.2⟩
        have hk : 1 ≤ (dpFind (l.head hne) (l.getLast hne) l.tail.dropLast 1 (0, zero)).1 ∧
            (dpFind (l.head hne) (l.getLast hne) l.tail.dropLast 1 (0, zero)).1 + 1 < l.length := by
          rcases dpFind_index (l.head hne) (l.getLast hne) l.tail.dropLast 1 (0, zero) with h | h
          · rw [h] at hd
            exact absurd hd h0'
          · simp only [List.length_dropLast, List.length_tail] at h
            omega
        have s1 := dp_split e fuel l hne hd1
        have s2 := dp_split e' fuel l hne hd
        generalize (dpFind (l.head hne) (l.getLast hne) l.tail.dropLast 1 (0, zero)).1 = k at *
        obtain ⟨x, x', x1, x2, x3⟩ := ih (l.take k) (by rw [List.length_take]; omega)
        obtain ⟨y, y', y1, y2, y3⟩ := ih (l.drop k) (by rw [List.length_drop]; omega)
        have hx' : x' ≠ [] := by
          have lk : (l.take k).length = k := by rw [List.length_take]; omega
          obtain ⟨-, b1, b2⟩ := dp_main e' h0' fuel (l.take k) (by omega)
          by_cases hk1 : k = 1
          · obtain ⟨p, hp⟩ := List.length_eq_one_iff.1 (lk.trans hk1)
            cases x2.symm.trans (b1 p hp)
            simp
          · obtain ⟨r, hr, -, g, -⟩ := b2 (by omega)
            cases x2.symm.trans hr
            rintro rfl
            simp at g
        have hx : x ≠ [] := by
          rintro rfl
          exact hx' (List.sublist_nil.1 x3)
        exact ⟨_, _, s1 x y x1 y1 hx, s2 x' y' x2 y2 hx', (dropLast_sublist_dropLast x3).append y3⟩

/-! ### round filters -/

/-- **C131** for circles and spheres, for any numbers: what a filter allows, the filter of the same center and a larger radius
allows. -/
theorem c131_round (c : Circle α) (s : Sphere α) (rc rs : Positive α) (hc : (c.radius.val <=. rc.val) = true)
    (hs : (s.radius.val <=. rs.val) = true) (p : Point2D α) (q : Point3D α) :
    (filterCircle c p = true → filterCircle ⟨c.center, rc⟩ p = true) ∧
    (filterSphere s q = true → filterSphere ⟨s.center, rs⟩ q = true) :=
  ⟨fun h => le_mono hc h, fun h => le_mono hs h⟩

/-! ### more points -/

/-- **C131** for bounding boxes, for any numbers but NaN: the box of more points encloses the box of fewer, and exists whenever
the box of fewer exists. -/
theorem c131_bounding_box (pts pts' : List (Point2D α)) (hp : ∀ p ∈ pts, p ∈ pts') (hlen : pts.length ≤ pts'.length)
    (hok : ∀ p ∈ pts', ∀ d, ok (at2 p d)) (b : BoundingBox2D α) (h : BoundingBox2D.fromIterator pts = .ok b) :
    ∃ b', BoundingBox2D.fromIterator pts' = .ok b' ∧ (box2 b').Encloses (box2 b) := by
  obtain ⟨a1, a2, a3⟩ := c16_from_iterator_2d pts fun p h d => hok p (hp p h) d
  obtain ⟨-, -, b3⟩ := c16_from_iterator_2d pts' hok
  have l2 : 2 ≤ pts.length := by
    by_contra hc
    rw [a1 (by omega)] at h
    cases h
  have hd : ∀ d, ∃ p ∈ pts, ∃ q ∈ pts, key (at2 p d) ≠ key (at2 q d) := by
    by_contra hc
    push Not at hc
    rw [a2 l2 hc] at h
    cases h
  obtain ⟨c, hc, -, -, -, h4⟩ := a3 l2 hd
  cases h.symm.trans hc
  obtain ⟨b', e1, -, e2, -⟩ := b3 (by omega) fun d => by
    obtain ⟨p, hp1, q, hq1, hne⟩ := hd d
    exact ⟨p, hp p hp1, q, hp q hq1, hne⟩
  exact ⟨b', e1, h4 _ fun p h => e2 p (hp p h)⟩

theorem c131_bounding_box_3d (pts pts' : List (Point3D α)) (hp : ∀ p ∈ pts, p ∈ pts') (hlen : pts.length ≤ pts'.length)
    (hok : ∀ p ∈ pts', ∀ d, ok (at3 p d)) (b : BoundingBox3D α) (h : BoundingBox3D.fromIterator pts = .ok b) :
    ∃ b', BoundingBox3D.fromIterator pts' = .ok b' ∧ (box3 b').Encloses (box3 b) := by
  obtain ⟨a1, a2, a3⟩ := c16_from_iterator_3d pts fun p h d => hok p (hp p h) d
  obtain ⟨-, -, b3⟩ := c16_from_iterator_3d pts' hok
  have l2 : 2 ≤ pts.length := by
    by_contra hc
    rw [a1 (by omega)] at h
    cases h
  have hd : ∀ d, ∃ p ∈ pts, ∃ q ∈ pts, key (at3 p d) ≠ key (at3 q d) := by
    by_contra hc
    push Not at hc
    rw [a2 l2 hc] at h
    cases h
  obtain ⟨c, hc, -, -, -, h4⟩ := a3 l2 hd
  cases h.symm.trans hc
  obtain ⟨b', e1, -, e2, -⟩ := b3 (by omega) fun d => by
    obtain ⟨p, hp1, q, hq1, hne⟩ := hd d
    exact ⟨p, hp p hp1, q, hp q hq1, hne⟩
  exact ⟨b', e1, h4 _ fun p h => e2 p (hp p h)⟩

end

/-! ### the searches of the k-d tree -/

/-- **C131** for `in_sphere`: in any tree, the points found for a radius are found, in the same order, for every larger radius
around the same center; for real numbers and for doubles with all their rounding. -/
theorem c131_in_sphere {P : Type} (t : KdTree P) (res : List P) :
    (∀ (pos : P → Point3D ℝ) (c : Point3D ℝ) (r r' : Positive ℝ), r.val ≤ r'.val →
      ∃ a b, t.inSphere pos ⟨c, r⟩ res = res ++ a ∧ t.inSphere pos ⟨c, r'⟩ res = res ++ b ∧ a.Sublist b) ∧
    (∀ (pos : P → Point3D F64) (c : Point3D F64) (r r' : Positive F64), c.Num → F64.Num r.val → F64.Num r'.val →
      (r.val <=. r'.val) = true →
      ∃ a b, t.inSphere pos ⟨c, r⟩ res = res ++ a ∧ t.inSphere pos ⟨c, r'⟩ res = res ++ b ∧ a.Sublist b) := by
  constructor
  · intro pos c r r' h
    obtain ⟨a, b, h1, h2, h3⟩ := KdTree.inSphere_mono pos c r r' (by simpa using h) (reaches_real h _) (reaches_real h _) t
    exact ⟨a, b, h1 _, h2 _, h3⟩
  · intro pos c r r' hc hr hr' h
    obtain ⟨a, b, h1, h2, h3⟩ := KdTree.inSphere_mono pos c r r' h (reaches_f64 hc.1 hr hr' h) (reaches_f64 hc.2.1 hr hr' h) t
    exact ⟨a, b, h1 _, h2 _, h3⟩

/-- **C131** for `in_box`: in any tree, the points found in a box are found, in the same order, in every larger box around the
same center; for real numbers and for doubles with all their rounding. -/
theorem c131_in_box {P : Type} (t : KdTree P) (res : List P) :
    (∀ (pos : P → Point3D ℝ) (c : Point3D ℝ) (x y z x' y' z' : Positive ℝ), x.val ≤ x'.val → y.val ≤ y'.val → z.val ≤ z'.val →
      ∃ a b, t.inBox pos ⟨c, x, y, z⟩ res = res ++ a ∧ t.inBox pos ⟨c, x', y', z'⟩ res = res ++ b ∧ a.Sublist b) ∧
    (∀ (pos : P → Point3D F64) (c : Point3D F64) (x y z x' y' z' : Positive F64), c.Num →
      F64.Num x.val → F64.Num y.val → F64.Num z.val → F64.Num x'.val → F64.Num y'.val → F64.Num z'.val →
      (x.val <=. x'.val) = true → (y.val <=. y'.val) = true → (z.val <=. z'.val) = true →
      ∃ a b, t.inBox pos ⟨c, x, y, z⟩ res = res ++ a ∧ t.inBox pos ⟨c, x', y', z'⟩ res = res ++ b ∧ a.Sublist b) := by
  constructor
  · intro pos c x y z x' y' z' hx hy hz
    have k : ∀ {a b : ℝ}, a ≤ b → (lit (1/2) : ℝ) * a ≤ lit (1/2) * b := by
      intro a b h
      simp only [Real.scalar_lit]
      push_cast
      linarith
    obtain ⟨a, b, h1, h2, h3⟩ := KdTree.inBox_mono pos c x y z x' y' z' (by simpa using hx) (by simpa using hy) (by simpa using hz)
      (reaches_real (k hx) _) (reaches_real (k hy) _) (reaches_real (k hz) _) t
    exact ⟨a, b, h1 _, h2 _, h3⟩
  · intro pos c x y z x' y' z' hc nx ny nz nx' ny' nz' hx hy hz
    have k : ∀ {a b : F64}, F64.Num a → F64.Num b → (a <=. b) = true → F64.Num ((lit (1/2) : F64) * a) ∧
        F64.Num ((lit (1/2) : F64) * b) ∧ ((lit (1/2) : F64) * a <=. (lit (1/2) : F64) * b) = true := by
      intro a b na nb h
      rw [F64.half_mul na, F64.half_mul nb]
      exact ⟨(F64.toR_half na).1, (F64.toR_half nb).1, F64.half_le_half na nb h⟩
    obtain ⟨x1, x2, x3⟩ := k nx nx' hx
    obtain ⟨y1, y2, y3⟩ := k ny ny' hy
    obtain ⟨z1, z2, z3⟩ := k nz nz' hz
    obtain ⟨a, b, h1, h2, h3⟩ := KdTree.inBox_mono pos c x y z x' y' z' x3 y3 z3
      (reaches_f64 hc.1 x1 x2 x3) (reaches_f64 hc.2.1 y1 y2 y3) (reaches_f64 hc.2.2 z1 z2 z3) t
    exact ⟨a, b, h1 _, h2 _, h3⟩

/-- **C131** for the outlier filter: a point allowed stays allowed for a larger distance and for fewer required neighbours. -/
theorem c131_outlier {P : Type} (t : KdTree P) (n n' : Nat) (hn : n' ≤ n) :
    (∀ (pos : P → Point3D ℝ) (c : Point3D ℝ) (r r' : Positive ℝ), r.val ≤ r'.val →
      filterOutlier3D pos t r n c = true → filterOutlier3D pos t r' n' c = true) ∧
    (∀ (pos : P → Point3D F64) (c : Point3D F64) (r r' : Positive F64), c.Num → F64.Num r.val → F64.Num r'.val →
      (r.val <=. r'.val) = true → filterOutlier3D pos t r n c = true → filterOutlier3D pos t r' n' c = true) := by
  obtain ⟨h1, h2⟩ := c131_in_sphere t []
  constructor
  · intro pos c r r' h
    obtain ⟨a, b, e1, e2, e3⟩ := h1 pos c r r' h
    have := e3.length_le
    simp only [filterOutlier3D, decide_eq_true_eq, e1, e2, List.nil_append]
    omega
  · intro pos c r r' hc hr hr' h
    obtain ⟨a, b, e1, e2, e3⟩ := h2 pos c r r' hc hr hr' h
    have := e3.length_le
    simp only [filterOutlier3D, decide_eq_true_eq, e1, e2, List.nil_append]
    omega

/-- **C131** for `nearest`: among more points the nearest one is not further away. -/
theorem c131_nearest {P : Type} (pos : P → Point3D ℝ) (pts pts' : List P) (t t' : KdTree P) (ht : KdTree.Built pos pts t)
    (ht' : KdTree.Built pos pts' t') (hp : ∀ p ∈ pts, p ∈ pts') (q : Point3D ℝ) :
    ∃ b b', t.nearest pos q = some (some b) ∧ t'.nearest pos q = some (some b') ∧
      Spec.sqrDist (at3 q) (at3 (pos b')) ≤ Spec.sqrDist (at3 q) (at3 (pos b)) := by
  obtain ⟨b, hb, h1, -⟩ := KdTree.c25_nearest pos pts t ht q
  obtain ⟨b', -, h1', h2'⟩ := KdTree.c25_nearest pos pts' t' ht' q
  exact ⟨b, b', h1, h1', h2' b (hp b hb)⟩

/-! ### box filters -/

/-- **C131** for box filters: what a box allows, every larger box around the same center allows; for real numbers and for doubles
with all their rounding. -/
theorem c131_box :
    (∀ (c : Point3D ℝ) (x y z x' y' z' : Positive ℝ), x.val ≤ x'.val → y.val ≤ y'.val → z.val ≤ z'.val →
      (∀ p, filterBox2D ⟨⟨c.x, c.y⟩, x, y⟩ p = true → filterBox2D ⟨⟨c.x, c.y⟩, x', y'⟩ p = true) ∧
      ∀ p, filterBox3D ⟨c, x, y, z⟩ p = true → filterBox3D ⟨c, x', y', z'⟩ p = true) ∧
    (∀ (c : Point3D F64) (x y z x' y' z' : Positive F64), c.Num →
      F64.Num x.val → F64.Num y.val → F64.Num z.val → F64.Num x'.val → F64.Num y'.val → F64.Num z'.val →
      (x.val <=. x'.val) = true → (y.val <=. y'.val) = true → (z.val <=. z'.val) = true →
      (∀ p, filterBox2D ⟨⟨c.x, c.y⟩, x, y⟩ p = true → filterBox2D ⟨⟨c.x, c.y⟩, x', y'⟩ p = true) ∧
      ∀ p, filterBox3D ⟨c, x, y, z⟩ p = true → filterBox3D ⟨c, x', y', z'⟩ p = true) := by
  have main : ∀ {α : Type} [Scalar α] (c : Point3D α) (x y z x' y' z' : Positive α),
      Reaches c.x (x.val / lit 2) (x'.val / lit 2) → Reaches c.y (y.val / lit 2) (y'.val / lit 2) →
      Reaches c.z (z.val / lit 2) (z'.val / lit 2) →
      (∀ p, filterBox2D ⟨⟨c.x, c.y⟩, x, y⟩ p = true → filterBox2D ⟨⟨c.x, c.y⟩, x', y'⟩ p = true) ∧
      ∀ p, filterBox3D ⟨c, x, y, z⟩ p = true → filterBox3D ⟨c, x', y', z'⟩ p = true := by
    intro α _ c x y z x' y' z' hx hy hz
    constructor
    · intro p
      simp only [filterBox2D, Bool.and_eq_true, Box2D.x, Box2D.y]
      rintro ⟨⟨⟨a, b⟩, d⟩, e⟩
      exact ⟨⟨⟨(hx _).2 a, (hx _).1 b⟩, (hy _).2 d⟩, (hy _).1 e⟩
    · intro p
      simp only [filterBox3D, Bool.and_eq_true, Box3D.x, Box3D.y, Box3D.z]
      rintro ⟨⟨⟨⟨⟨a, b⟩, d⟩, e⟩, f⟩, g⟩
      exact ⟨⟨⟨⟨⟨(hx _).2 a, (hx _).1 b⟩, (hy _).2 d⟩, (hy _).1 e⟩, (hz _).2 f⟩, (hz _).1 g⟩
  constructor
  · intro c x y z x' y' z' hx hy hz
    have k : ∀ {a b : ℝ}, a ≤ b → a / (lit 2 : ℝ) ≤ b / lit 2 := by
      intro a b h
      simp only [Real.scalar_lit]
      push_cast
      linarith
    exact main c x y z x' y' z' (reaches_real (k hx) _) (reaches_real (k hy) _) (reaches_real (k hz) _)
  · intro c x y z x' y' z' hc nx ny nz nx' ny' nz' hx hy hz
    have k : ∀ {e a b : F64}, F64.Num e → F64.Num a → F64.Num b → (a <=. b) = true → Reaches e (a / lit 2) (b / lit 2) :=
      fun ne na nb h => reaches_f64 ne (F64.toR_half na).1 (F64.toR_half nb).1 (F64.half_le_half na nb h)
    exact main c x y z x' y' z' (k hc.1 nx nx' hx) (k hc.2.1 ny ny' hy) (k hc.2.2 nz nz' hz)

/-! ### trees of boxes -/

theorem AABBTree.visitData_mono {B HB : Type} {bb : HB → B} {f g : B → Panics Bool} (h : ∀ b, f b = some true → g b = some true) :
    ∀ (l : List HB) (r r' : List HB), visitData bb f l = some r → visitData bb g l = some r' → r.Sublist r'
  | [], r, r', h1, h2 => by
    cases h1
    exact List.nil_sublist _
  | x :: l, r, r', h1, h2 => by
    simp only [visitData, Option.bind_eq_bind, Option.bind_eq_some_iff] at h1 h2
    obtain ⟨t, ht, q, hq, e⟩ := h1
    obtain ⟨t', ht', q', hq', e'⟩ := h2
    have ih := visitData_mono h l q q' hq hq'
    cases e
    cases e'
    cases t
    · cases t'
      · exact ih
      · exact ih.cons _
    · cases ht'.symm.trans (h _ ht)
      exact ih.cons_cons _

theorem AABBTree.visit_mono {B HB : Type} {bb : HB → B} {f g : B → Panics Bool} (h : ∀ b, f b = some true → g b = some true) :
    ∀ (t : AABBTree B HB) (r r' : List HB), visit bb f t = some r → visit bb g t = some r' → r.Sublist r'
  | .empty, r, r', h1, h2 => by
    cases h1
    exact List.nil_sublist _
  | .leaf data b, r, r', h1, h2 => by
    simp only [visit, Option.bind_eq_bind, Option.bind_eq_some_iff] at h1 h2
    obtain ⟨t, ht, e⟩ := h1
    obtain ⟨t', ht', e'⟩ := h2
    cases t
    · cases e
      exact List.nil_sublist _
    · cases ht'.symm.trans (h _ ht)
      exact visitData_mono h data r r' e e'
  | .branch l rt b, r, r', h1, h2 => by
    simp only [visit, Option.bind_eq_bind, Option.bind_eq_some_iff] at h1 h2
    obtain ⟨t, ht, e⟩ := h1
    obtain ⟨t', ht', e'⟩ := h2
    cases t
    · cases e
      exact List.nil_sublist _
    · cases ht'.symm.trans (h _ ht)
      simp only [if_true, Option.bind_eq_some_iff] at e e'
      obtain ⟨x, hx, y, hy, e⟩ := e
      obtain ⟨x', hx', y', hy', e'⟩ := e'
      cases e
      cases e'
      exact (visit_mono h l x x' hx hx').append (visit_mono h rt y y' hy hy')

theorem overlap_mono {b0 sb l h l' h' : ℝ} (h1 : l' ≤ l) (h2 : h ≤ h') (hb : 2 * |b0 - (l + (h - l) / 2)| < sb + (h - l)) :
    2 * |b0 - (l' + (h' - l') / 2)| < sb + (h' - l') := by
  have e1 := le_abs_self (b0 - (l + (h - l) / 2))
  have e2 := neg_abs_le (b0 - (l + (h - l) / 2))
  rcases abs_cases (b0 - (l' + (h' - l') / 2)) with ⟨e', -⟩ | ⟨e', -⟩ <;> rw [e'] <;> linarith

theorem collides_grow_2d (b q q' : BoundingBox2D ℝ) (hq : (box2 q).Valid) (hq' : (box2 q').Valid)
    (he : (box2 q').Encloses (box2 q)) (h : b.collidesWith q = some true) : b.collidesWith q' = some true := by
  obtain ⟨ox, oy⟩ := sizes_real_2d q hq
  obtain ⟨ox', oy'⟩ := sizes_real_2d q' hq'
  simp only [Box.Encloses, Fin.forall_fin_two, at2_zero, at2_one, box2, Real.key_le] at he
  obtain ⟨⟨x1, x2⟩, y1, y2⟩ := he
  simp only [BoundingBox2D.collidesWith, ox, oy, ox', oy', Option.bind_eq_bind, Option.bind_some, BoundingBox2D.centerBB,
    Positive.add, Real.scalar_lit, Real.scalar_abs, Real.scalar_lt, Rat.cast_ofNat, decide_eq_true_eq, Option.pure_def,
    Option.bind_eq_some_iff] at h ⊢
  obtain ⟨sx, hx, h⟩ := h
  refine ⟨sx, hx, ?_⟩
  split_ifs at h with c
  · rw [if_pos (overlap_mono x1 x2 c)]
    simp only [Option.bind_eq_some_iff] at h ⊢
    obtain ⟨sy, hy, h⟩ := h
    exact ⟨sy, hy, congrArg some (decide_eq_true (overlap_mono y1 y2 (of_decide_eq_true (Option.some.inj h))))⟩
  · cases h

theorem collides_grow_3d (b q q' : BoundingBox3D ℝ) (hq : (box3 q).Valid) (hq' : (box3 q').Valid)
    (he : (box3 q').Encloses (box3 q)) (h : b.collidesWith q = some true) : b.collidesWith q' = some true := by
  obtain ⟨ox, oy, oz⟩ := sizes_real_3d q hq
  obtain ⟨ox', oy', oz'⟩ := sizes_real_3d q' hq'
  simp only [Box.Encloses, forall_fin3, at3_zero, at3_one, at3_two, box3, Real.key_le] at he
  obtain ⟨⟨x1, x2⟩, ⟨y1, y2⟩, z1, z2⟩ := he
  simp only [BoundingBox3D.collidesWith, ox, oy, oz, ox', oy', oz', Option.bind_eq_bind, Option.bind_some, BoundingBox3D.centerBB,
    Positive.add, Real.scalar_lit, Real.scalar_abs, Real.scalar_lt, Rat.cast_ofNat, decide_eq_true_eq, Option.pure_def,
    Option.bind_eq_some_iff] at h ⊢
  obtain ⟨sx, hx, h⟩ := h
  refine ⟨sx, hx, ?_⟩
  split_ifs at h with c
  · rw [if_pos (overlap_mono x1 x2 c)]
    simp only [Option.bind_eq_some_iff] at h ⊢
    obtain ⟨sy, hy, h⟩ := h
    refine ⟨sy, hy, ?_⟩
    split_ifs at h with c
    · rw [if_pos (overlap_mono y1 y2 c)]
      simp only [Option.bind_eq_some_iff] at h ⊢
      obtain ⟨sz, hz, h⟩ := h
      exact ⟨sz, hz, congrArg some (decide_eq_true (overlap_mono z1 z2 (of_decide_eq_true (Option.some.inj h))))⟩
    · cases h
  · cases h

/-- **C131** (partial) for collision candidates, exact arithmetic: in any tree, the candidates of a box are candidates, in the
same order, of every box enclosing it. Missing: doubles, see `c131_violated_collides`. -/
theorem c131_collision_partial {H2 H3 : Type} (b2 : H2 → BoundingBox2D ℝ) (b3 : H3 → BoundingBox3D ℝ) (t2 : AABBTree2D ℝ H2)
    (t3 : AABBTree3D ℝ H3) (q q' : BoundingBox2D ℝ) (p p' : BoundingBox3D ℝ) (hq : (box2 q).Valid) (hq' : (box2 q').Valid)
    (hp : (box3 p).Valid) (hp' : (box3 p').Valid) (he : (box2 q').Encloses (box2 q)) (he' : (box3 p').Encloses (box3 p)) :
    (∀ r r', AABBTree2D.forEachCollisionCandidate b2 t2 q = some r → AABBTree2D.forEachCollisionCandidate b2 t2 q' = some r' →
      r.Sublist r') ∧
    (∀ r r', AABBTree3D.forEachCollisionCandidate b3 t3 p = some r → AABBTree3D.forEachCollisionCandidate b3 t3 p' = some r' →
      r.Sublist r') :=
  ⟨AABBTree.visit_mono (fun b h => collides_grow_2d b q q' hq hq' he h) t2,
    AABBTree.visit_mono (fun b h => collides_grow_3d b p p' hp hp' he' h) t3⟩

/-! ### where it fails -/

/-- a box over [a, b] × [0, 1] -/
def wideBox (a b : ℚ) : BoundingBox2D F64 := ⟨⟨F64.ofRat a, F64.ofRat 0⟩, ⟨F64.ofRat b, F64.ofRat 1⟩⟩

/-- **C131 violated** for collisions of doubles: growing a box to the right, away from another one it overlaps by 2^-52 on the
left, ends the collision; a tree holding the other box then misses it. -/
theorem c131_violated_collides : ∃ q q' : BoundingBox2D F64, q.min = q'.min ∧ (q.max.x <. q'.max.x) = true ∧ q.max.y = q'.max.y ∧
    (q.min.x <. (wideBox 0 1).max.x) = true ∧ (wideBox 0 1).collidesWith q = some true ∧ (wideBox 0 1).collidesWith q' = some false ∧
    (AABBTree2D.new id [wideBox 0 1] 3 1).bind (fun t => AABBTree2D.forEachCollisionCandidate id t q) = some [wideBox 0 1] ∧
    (AABBTree2D.new id [wideBox 0 1] 3 1).bind (fun t => AABBTree2D.forEachCollisionCandidate id t q') = some [] := by
  refine ⟨wideBox (1 - 2 / 2 ^ 53) (2 + 3 / 2 ^ 51), wideBox (1 - 2 / 2 ^ 53) (2 + 14 / 2 ^ 51), ?_, ?_, ?_, ?_, ?_, ?_, ?_, ?_⟩
  all_goals decide +kernel

/-- **C131 violated** for `knearest`: of (2,2), (5,6), (2,4), (2,1) the two nearest to (2,5) are (2,4) and (2,2), and both are
found; asked for three, the search returns (2,1), (5,6) and (2,4) and no longer finds (2,2). Small integers, no rounding. -/
theorem c131_violated_knearest : ∃ (pts : List (Point3D F64)) (t : KdTree (Point3D F64)),
    KdTree.Built id pts t ∧ t.knearest id (KdTree.w26 2 5) 2 [] = some [KdTree.w26 2 4, KdTree.w26 2 2] ∧
    t.knearest id (KdTree.w26 2 5) 3 [] = some [KdTree.w26 2 1, KdTree.w26 5 6, KdTree.w26 2 4] ∧
    ((KdTree.w26 2 5).sqrDist (KdTree.w26 2 2) <. (KdTree.w26 2 5).sqrDist (KdTree.w26 5 6)) = true := by
  refine ⟨[KdTree.w26 2 2, KdTree.w26 5 6, KdTree.w26 2 4, KdTree.w26 2 1], KdTree.newNode id 4 0 _, rfl, ?_, ?_, ?_⟩
  all_goals decide +kernel

/-- **C131 violated** for `cluster_vertices`: with cells of size 1 both faces disappear, with cells of size 3/2 both stay: a
coarser grid is not a coarsening. -/
theorem c131_violated_cluster : ∃ m r r' : TMesh (Point3D F64), m.WellFormed ∧
    clusterVertices m (f 1) = some (.ok r) ∧ clusterVertices m (f (3 / 2)) = some (.ok r') ∧
    r.faces.length = 0 ∧ r'.faces.length = 2 := by
  let p : ℚ → Point3D F64 := fun q => ⟨f q, f q, f q⟩
  refine ⟨⟨[p 0, p (5 / 4), p (7 / 4), p (17 / 4), p (19 / 4)], [⟨1, 2, 3⟩, ⟨2, 3, 4⟩]⟩,
    ⟨[p (7 / 4), p (19 / 4)], []⟩, ⟨[p (5 / 4), p (7 / 4), p (17 / 4), p (19 / 4)], [⟨0, 1, 2⟩, ⟨1, 2, 3⟩]⟩, ?_,
    by decide +kernel, by decide +kernel, rfl, rfl⟩
  intro g hg
  simp only [List.mem_cons, List.not_mem_nil, or_false] at hg
  rcases hg with rfl | rfl <;> simp

/-! ### the hypotheses are met -/

/-- a smaller tolerance that is not negative, and points on which the result really shrinks -/
example : (f (1 / 4) <=. f 2) = true ∧ ¬ (zero >. f (1 / 4)) = true ∧
    douglasPeucker (f (1 / 4)) 3 [⟨f 0, f 0⟩, ⟨f 1, f 1⟩, ⟨f 2, f 0⟩] = some [⟨f 0, f 0⟩, ⟨f 1, f 1⟩, ⟨f 2, f 0⟩] ∧
    douglasPeucker (f 2) 3 [⟨f 0, f 0⟩, ⟨f 1, f 1⟩, ⟨f 2, f 0⟩] = some [⟨f 0, f 0⟩, ⟨f 2, f 0⟩] := by
  decide +kernel

/-- spheres, circles and boxes that grow, for doubles -/
example : ∃ (c : Point3D F64) (r r' : Positive F64), c.Num ∧ F64.Num r.val ∧ F64.Num r'.val ∧ (r.val <=. r'.val) = true ∧
    (KdTree.newNode id 3 0 [KdTree.w26 1 0, KdTree.w26 2 0, KdTree.w26 5 0]).inSphere id ⟨c, r⟩ [] = [KdTree.w26 2 0, KdTree.w26 1 0] ∧
    (KdTree.newNode id 3 0 [KdTree.w26 1 0, KdTree.w26 2 0, KdTree.w26 5 0]).inSphere id ⟨c, r'⟩ [] =
      [KdTree.w26 2 0, KdTree.w26 1 0, KdTree.w26 5 0] := by
  have n : ∀ k : ℕ, k < 2 ^ 53 → F64.Num (F64.ofRat k) := fun k hk => (F64.ofRat_val (by
    rw [abs_of_nonneg (by positivity)]
    have h1 : (k : ℚ) < 2 ^ (53 : ℤ) := by
      have : (k : ℚ) < ((2 ^ 53 : ℕ) : ℚ) := Nat.cast_lt.2 hk
      refine this.trans_le (le_of_eq ?_)
      norm_num
    exact h1.le.trans (zpow_le_zpow_right₀ (by norm_num) (by norm_num)))).1
  have n0 : F64.Num (F64.ofRat 0) := by simpa using n 0 (by norm_num)
  refine ⟨KdTree.w26 0 0, ⟨F64.ofRat 3⟩, ⟨F64.ofRat 6⟩, ⟨n 0 (by norm_num), n 0 (by norm_num), n0⟩, ?_, ?_, by decide +kernel,
    by decide +kernel, by decide +kernel⟩
  · simpa using n 3 (by norm_num)
  · simpa using n 6 (by norm_num)

/-- more points and a larger box -/
example : ∃ (pts pts' : List (Point2D ℝ)) (b : BoundingBox2D ℝ), (∀ p ∈ pts, p ∈ pts') ∧ pts.length ≤ pts'.length ∧
    BoundingBox2D.fromIterator pts = .ok b ∧ (∀ p ∈ pts', ∀ d, LawfulScalar.ok (at2 p d)) := by
  refine ⟨[⟨0, 0⟩, ⟨1, 1⟩], [⟨0, 0⟩, ⟨1, 1⟩, ⟨2, 3⟩], ⟨⟨0, 0⟩, ⟨1, 1⟩⟩, by simp, by simp, ?_, fun _ _ _ => trivial⟩
  norm_num [BoundingBox2D.fromIterator, BoundingBox2D.step, BoundingBox2D.new]

end R3D

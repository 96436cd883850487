import Verif.Lemmas.F64Grid
import Verif.Props.BoxFloat
import Verif.Props.BoundingBoxReal
import Verif.Props.DistFloat
/-!
C102: doubles on a fixed point grid. Sizes, centers and collisions of bounding boxes, tree queries.
-/
namespace R3D
open Scalar Spec LawfulScalar F64

/-- a box of finite doubles, ordered in every dimension, all coordinates multiples of `2^e` with at most `2^50` steps -/
def Spec.Box.OnGrid {n : Nat} (e : ℤ) (b : Box n F64) : Prop :=
  b.Fin ∧ ∀ d, (∃ i : ℤ, |i| ≤ 2 ^ 50 ∧ toR (b.lo d) = i * 2 ^ e) ∧ (∃ i : ℤ, |i| ≤ 2 ^ 50 ∧ toR (b.hi d) = i * 2 ^ e)

/-- the open boxes have a common point -/
def Spec.Box.Meets {n : Nat} (a b : Box n F64) : Prop :=
  ∃ p : _root_.Fin n → ℝ, ∀ d, (toR (a.lo d) < p d ∧ p d < toR (a.hi d)) ∧ (toR (b.lo d) < p d ∧ p d < toR (b.hi d))

theorem Spec.Box.meets_iff {n : Nat} {a b : Box n F64} (ha : a.Fin) (hb : b.Fin) :
    a.Meets b ↔ ∀ d, toR (a.lo d) < toR (b.hi d) ∧ toR (b.lo d) < toR (a.hi d) := by
  constructor
  · rintro ⟨p, h⟩ d
    exact ⟨(h d).1.1.trans (h d).2.2, (h d).2.1.trans (h d).1.2⟩
  · intro h
    refine ⟨fun d => (max (toR (a.lo d)) (toR (b.lo d)) + min (toR (a.hi d)) (toR (b.hi d))) / 2, fun d => ?_⟩
    have h1 := (ha d).2.2
    have h2 := (hb d).2.2
    have hm : max (toR (a.lo d)) (toR (b.lo d)) < min (toR (a.hi d)) (toR (b.hi d)) :=
      max_lt (lt_min h1 (h d).1) (lt_min (h d).2 h2)
    have := le_max_left (toR (a.lo d)) (toR (b.lo d))
    have := le_max_right (toR (a.lo d)) (toR (b.lo d))
    have := min_le_left (toR (a.hi d)) (toR (b.hi d))
    have := min_le_right (toR (a.hi d)) (toR (b.hi d))
    refine ⟨⟨?_, ?_⟩, ?_, ?_⟩ <;> linarith

theorem F64.Grid.abs {e n : ℤ} {a : F64} (h : Grid e n a) : Grid e |n| (Scalar.abs a) := by
  refine ⟨h.1.abs, ?_⟩
  rw [show toR (Scalar.abs a) = |toR a| from toR_abs h.1, h.2, abs_mul, abs_of_pos (zpow_pos two_pos e : (0:ℝ) < 2 ^ e)]
  push_cast; rfl

theorem two_grid : Grid 1 1 (lit 2 : F64) := by
  have := ofRat_grid (n := 1) (e := 1) (by norm_num) (by norm_num) (by norm_num)
  have e2 : (lit 2 : F64) = F64.ofRat (((1:ℤ):ℚ) * 2 ^ (1:ℤ)) := by
    show F64.ofRat 2 = _
    norm_num
  rw [e2]; exact this

/-- halving is exact -/
theorem F64.Grid.half {e n : ℤ} {a : F64} (h : Grid e n a) (hn : |n| < 2 ^ 53) (he : -1073 ≤ e) (he' : e ≤ 970) : Grid (e - 1) n (a / lit 2) := by
  obtain ⟨s, p, rfl, r, -, e1⟩ := h.1.form
  have h1 := Grid.val_eq (e1.symm.trans h.2)
  have h2 : (lit 2 : F64) = .fin false 2 := by decide +kernel
  rw [h2]
  show Grid _ _ (F64.div _ _)
  have hs : val s (p / 2) = (n : ℚ) * 2 ^ (e - 1) := by
    have : val s (p / 2) = val s p / 2 := by cases s <;> simp [val]; ring
    rw [this, h1, zpow_sub_one₀ two_ne_zero]; ring
  have hab : |val s (p / 2)| = p / 2 := by
    have := r.1
    cases s <;> simp only [val] <;> simp <;> linarith
  rw [hs] at hab
  have hd := dyad_int hn (by omega : -1074 ≤ e - 1)
  have hbd := int_bound hn (by omega : e - 1 ≤ 970)
  rw [hab] at hd hbd
  simp only [F64.div, Bool.xor_false, if_neg (two_ne_zero' ℚ)]
  have hr := round_rep s (p / 2)
  rw [round_fin _ hbd, rnd_exact hd] at hr ⊢
  refine ⟨Num.mk' hr, ?_⟩
  rw [real_fin, hs]
  push_cast
  ring

/-- one dimension of the collision test -/
theorem collide_grid {e i j k l : ℤ} (he : -1000 ≤ e) (he' : e ≤ 900) {al ah bl bh : F64} (g1 : Grid e i al) (g2 : Grid e j ah) (g3 : Grid e k bl)
    (g4 : Grid e l bh) (b1 : |i| ≤ 2 ^ 50) (b2 : |j| ≤ 2 ^ 50) (b3 : |k| ≤ 2 ^ 50) (b4 : |l| ≤ 2 ^ 50) (h1 : toR al < toR ah) (h2 : toR bl < toR bh) :
    Grid e (j - i) (Scalar.abs (ah - al)) ∧ Grid (e - 1) (i + j) (al + (ah - al) / lit 2) ∧
    ((lit 2 * Scalar.abs ((al + (ah - al) / lit 2) - (bl + (bh - bl) / lit 2)) <. Scalar.abs (ah - al) + Scalar.abs (bh - bl)) = true ↔
      toR al < toR bh ∧ toR bl < toR ah) := by
  have p0 : (0:ℝ) < 2 ^ e := zpow_pos two_pos e
  have hij : i < j := by
    rw [g1.2, g2.2, mul_lt_mul_iff_left₀ p0] at h1; exact_mod_cast h1
  have hkl : k < l := by
    rw [g3.2, g4.2, mul_lt_mul_iff_left₀ p0] at h2; exact_mod_cast h2
  rw [abs_le] at b1 b2 b3 b4
  have s1 := g2.sub g1 (by rw [abs_lt]; omega) (by omega) (by omega)
  have s2 := g4.sub g3 (by rw [abs_lt]; omega) (by omega) (by omega)
  have a1 := s1.abs
  have a2 := s2.abs
  rw [abs_of_pos (by omega)] at a1 a2
  have c1 : Grid (e - 1) (i + j) (al + (ah - al) / lit 2) := by
    have := (g1.mono (k := 1)).add (s1.half (by rw [abs_lt]; omega) (by omega) (by omega)) (by rw [abs_lt]; omega) (by push_cast; omega) (by push_cast; omega)
    rwa [show i * 2 ^ 1 + (j - i) = i + j by ring] at this
  have c2 : Grid (e - 1) (k + l) (bl + (bh - bl) / lit 2) := by
    have := (g3.mono (k := 1)).add (s2.half (by rw [abs_lt]; omega) (by omega) (by omega)) (by rw [abs_lt]; omega) (by push_cast; omega) (by push_cast; omega)
    rwa [show k * 2 ^ 1 + (l - k) = k + l by ring] at this
  refine ⟨a1, c1, ?_⟩
  have d := (c1.sub c2 (by rw [abs_lt]; omega) (by omega) (by omega)).abs
  have m := two_grid.mul d (by rw [one_mul, abs_abs, abs_lt]; omega) (by omega) (by omega)
  rw [one_mul, show 1 + (e - 1) = e by ring] at m
  have s := a1.add a2 (by rw [abs_lt]; omega) (by omega) (by omega)
  rw [m.lt s, g1.2, g2.2, g3.2, g4.2, mul_lt_mul_iff_left₀ p0, mul_lt_mul_iff_left₀ p0, Int.cast_lt, Int.cast_lt, abs_lt]
  omega

/-- C102 (sizes and centers): of boxes on a fixed point grid the sizes and the center are computed exactly -/
theorem c102_box_2d (e : ℤ) (he : -1000 ≤ e) (he' : e ≤ 900) (b : BoundingBox2D F64) (hb : (box2 b).OnGrid e) :
    ∃ sx sy, b.sizeX = some ⟨sx⟩ ∧ b.sizeY = some ⟨sy⟩ ∧ b.centerBB.Num ∧ ∀ d, F64.Num (at2 ⟨sx, sy⟩ d) ∧
      toR (at2 ⟨sx, sy⟩ d) = toR ((box2 b).hi d) - toR ((box2 b).lo d) ∧
      toR (at2 b.centerBB d) = (toR ((box2 b).lo d) + toR ((box2 b).hi d)) / 2 := by
  obtain ⟨hf, hg⟩ := hb
  simp only [Box.Fin, box2, Fin.forall_fin_two, at2_zero, at2_one] at hf hg ⊢
  obtain ⟨⟨x1, x2, x3⟩, y1, y2, y3⟩ := hf
  obtain ⟨⟨⟨i, bi, ei⟩, j, bj, ej⟩, ⟨k, bk, ek⟩, l, bl, el⟩ := hg
  obtain ⟨a1, c1, -⟩ := collide_grid he he' ⟨x1, ei⟩ ⟨x2, ej⟩ ⟨x1, ei⟩ ⟨x2, ej⟩ bi bj bi bj x3 x3
  obtain ⟨a2, c2, -⟩ := collide_grid he he' ⟨y1, ek⟩ ⟨y2, el⟩ ⟨y1, ek⟩ ⟨y2, el⟩ bk bl bk bl y3 y3
  refine ⟨_, _, (size_some x1 x2 x3).1, (size_some y1 y2 y3).1, ⟨c1.1, c2.1⟩, ⟨a1.1, ?_, ?_⟩, a2.1, ?_, ?_⟩
  · rw [a1.2, ei, ej]; push_cast; ring
  · show toR (b.min.x + (b.max.x - b.min.x) / lit 2) = _
    rw [c1.2, ei, ej, zpow_sub_one₀ two_ne_zero]; push_cast; ring
  · rw [a2.2, ek, el]; push_cast; ring
  · show toR (b.min.y + (b.max.y - b.min.y) / lit 2) = _
    rw [c2.2, ek, el, zpow_sub_one₀ two_ne_zero]; push_cast; ring

/-- C102 (sizes and centers, 3D) -/
theorem c102_box_3d (e : ℤ) (he : -1000 ≤ e) (he' : e ≤ 900) (b : BoundingBox3D F64) (hb : (box3 b).OnGrid e) :
    ∃ sx sy sz, b.sizeX = some ⟨sx⟩ ∧ b.sizeY = some ⟨sy⟩ ∧ b.sizeZ = some ⟨sz⟩ ∧ b.centerBB.Num ∧ ∀ d, F64.Num (at3 ⟨sx, sy, sz⟩ d) ∧
      toR (at3 ⟨sx, sy, sz⟩ d) = toR ((box3 b).hi d) - toR ((box3 b).lo d) ∧
      toR (at3 b.centerBB d) = (toR ((box3 b).lo d) + toR ((box3 b).hi d)) / 2 := by
  obtain ⟨hf, hg⟩ := hb
  simp only [Box.Fin, box3, forall_fin3, at3_zero, at3_one, at3_two] at hf hg ⊢
  obtain ⟨⟨x1, x2, x3⟩, ⟨y1, y2, y3⟩, z1, z2, z3⟩ := hf
  obtain ⟨⟨⟨i, bi, ei⟩, j, bj, ej⟩, ⟨⟨k, bk, ek⟩, l, bl, el⟩, ⟨m, bm, em⟩, n, bn, en⟩ := hg
  obtain ⟨a1, c1, -⟩ := collide_grid he he' ⟨x1, ei⟩ ⟨x2, ej⟩ ⟨x1, ei⟩ ⟨x2, ej⟩ bi bj bi bj x3 x3
  obtain ⟨a2, c2, -⟩ := collide_grid he he' ⟨y1, ek⟩ ⟨y2, el⟩ ⟨y1, ek⟩ ⟨y2, el⟩ bk bl bk bl y3 y3
  obtain ⟨a3, c3, -⟩ := collide_grid he he' ⟨z1, em⟩ ⟨z2, en⟩ ⟨z1, em⟩ ⟨z2, en⟩ bm bn bm bn z3 z3
  refine ⟨_, _, _, (size_some x1 x2 x3).1, (size_some y1 y2 y3).1, (size_some z1 z2 z3).1, ⟨c1.1, c2.1, c3.1⟩,
    ⟨a1.1, ?_, ?_⟩, ⟨a2.1, ?_, ?_⟩, a3.1, ?_, ?_⟩
  · rw [a1.2, ei, ej]; push_cast; ring
  · show toR (b.min.x + (b.max.x - b.min.x) / lit 2) = _
    rw [c1.2, ei, ej, zpow_sub_one₀ two_ne_zero]; push_cast; ring
  · rw [a2.2, ek, el]; push_cast; ring
  · show toR (b.min.y + (b.max.y - b.min.y) / lit 2) = _
    rw [c2.2, ek, el, zpow_sub_one₀ two_ne_zero]; push_cast; ring
  · rw [a3.2, em, en]; push_cast; ring
  · show toR (b.min.z + (b.max.z - b.min.z) / lit 2) = _
    rw [c3.2, em, en, zpow_sub_one₀ two_ne_zero]; push_cast; ring

/-- C102 (collisions, 2D): boxes on a fixed point grid (all whole numbers up to 2^50, say): `collides_with` never
panics and is exactly "the open boxes have a common point", touching boxes included. -/
theorem c102_collides_2d (e : ℤ) (he : -1000 ≤ e) (he' : e ≤ 900) (a b : BoundingBox2D F64) (ha : (box2 a).OnGrid e) (hb : (box2 b).OnGrid e) :
    ∃ r, a.collidesWith b = some r ∧ (r = true ↔ (box2 a).Meets (box2 b)) := by
  rw [Box.meets_iff ha.1 hb.1]
  obtain ⟨ha, ga⟩ := ha
  obtain ⟨hb, gb⟩ := hb
  simp only [Box.Fin, box2, Fin.forall_fin_two, at2_zero, at2_one] at *
  obtain ⟨⟨ax1, ax2, ax3⟩, ay1, ay2, ay3⟩ := ha
  obtain ⟨⟨bx1, bx2, bx3⟩, by1, by2, by3⟩ := hb
  obtain ⟨⟨⟨i, bi, ei⟩, j, bj, ej⟩, ⟨k, bk, ek⟩, l, bl, el⟩ := ga
  obtain ⟨⟨⟨i', bi', ei'⟩, j', bj', ej'⟩, ⟨k', bk', ek'⟩, l', bl', el'⟩ := gb
  have cx := (collide_grid he he' ⟨ax1, ei⟩ ⟨ax2, ej⟩ ⟨bx1, ei'⟩ ⟨bx2, ej'⟩ bi bj bi' bj' ax3 bx3).2.2
  have cy := (collide_grid he he' ⟨ay1, ek⟩ ⟨ay2, el⟩ ⟨by1, ek'⟩ ⟨by2, el'⟩ bk bl bk' bl' ay3 by3).2.2
  simp only [BoundingBox2D.collidesWith, BoundingBox2D.sizeX, BoundingBox2D.sizeY, (size_some ax1 ax2 ax3).1, (size_some ay1 ay2 ay3).1,
    (size_some bx1 bx2 bx3).1, (size_some by1 by2 by3).1, Option.bind_eq_bind, Option.bind_some, Positive.add, BoundingBox2D.centerBB]
  split_ifs with hx
  · exact ⟨_, rfl, by rw [cy]; exact (and_iff_right (cx.1 hx)).symm⟩
  · exact ⟨_, rfl, by simp only [Bool.false_eq_true, false_iff]; exact fun h => hx (cx.2 h.1)⟩

/-- C102 (collisions, 3D) -/
theorem c102_collides_3d (e : ℤ) (he : -1000 ≤ e) (he' : e ≤ 900) (a b : BoundingBox3D F64) (ha : (box3 a).OnGrid e) (hb : (box3 b).OnGrid e) :
    ∃ r, a.collidesWith b = some r ∧ (r = true ↔ (box3 a).Meets (box3 b)) := by
  rw [Box.meets_iff ha.1 hb.1]
  obtain ⟨ha, ga⟩ := ha
  obtain ⟨hb, gb⟩ := hb
  simp only [Box.Fin, box3, forall_fin3, at3_zero, at3_one, at3_two] at *
  obtain ⟨⟨ax1, ax2, ax3⟩, ⟨ay1, ay2, ay3⟩, az1, az2, az3⟩ := ha
  obtain ⟨⟨bx1, bx2, bx3⟩, ⟨by1, by2, by3⟩, bz1, bz2, bz3⟩ := hb
  obtain ⟨⟨⟨i, bi, ei⟩, j, bj, ej⟩, ⟨⟨k, bk, ek⟩, l, bl, el⟩, ⟨m, bm, em⟩, n, bn, en⟩ := ga
  obtain ⟨⟨⟨i', bi', ei'⟩, j', bj', ej'⟩, ⟨⟨k', bk', ek'⟩, l', bl', el'⟩, ⟨m', bm', em'⟩, n', bn', en'⟩ := gb
  have cx := (collide_grid he he' ⟨ax1, ei⟩ ⟨ax2, ej⟩ ⟨bx1, ei'⟩ ⟨bx2, ej'⟩ bi bj bi' bj' ax3 bx3).2.2
  have cy := (collide_grid he he' ⟨ay1, ek⟩ ⟨ay2, el⟩ ⟨by1, ek'⟩ ⟨by2, el'⟩ bk bl bk' bl' ay3 by3).2.2
  have cz := (collide_grid he he' ⟨az1, em⟩ ⟨az2, en⟩ ⟨bz1, em'⟩ ⟨bz2, en'⟩ bm bn bm' bn' az3 bz3).2.2
  simp only [BoundingBox3D.collidesWith, BoundingBox3D.sizeX, BoundingBox3D.sizeY, BoundingBox3D.sizeZ, (size_some ax1 ax2 ax3).1,
    (size_some ay1 ay2 ay3).1, (size_some az1 az2 az3).1, (size_some bx1 bx2 bx3).1, (size_some by1 by2 by3).1, (size_some bz1 bz2 bz3).1,
    Option.bind_eq_bind, Option.bind_some, Positive.add, BoundingBox3D.centerBB]
  split_ifs with hx hy
  · exact ⟨_, rfl, by rw [cz]; exact ((and_iff_right (cx.1 hx)).trans (and_iff_right (cy.1 hy))).symm⟩
  · exact ⟨_, rfl, by simp only [Bool.false_eq_true, false_iff]; exact fun h => hy (cy.2 h.2.1)⟩
  · exact ⟨_, rfl, by simp only [Bool.false_eq_true, false_iff]; exact fun h => hx (cx.2 h.1)⟩

theorem lawfulBoxOps2_grid (e : ℤ) : LawfulBoxOps (boxOps2 : BoxOps (BoundingBox2D F64) (Point2D F64))
    (fun b => (box2 b).OnGrid e) (fun a b => (box2 a).Encloses (box2 b)) := by
  have up : ∀ b : BoundingBox2D F64, (box2 b).Fin → ValidFin2 b := fun b h => ⟨h.valid, fun d => ⟨(h d).1.1, (h d).2.1.1⟩⟩
  have L := lawfulBoxOps2 (α := F64)
  refine ⟨L.refl, L.trans, ?_, fun a b ha hb => L.left a b (up a ha.1) (up b hb.1), fun a b ha hb => L.right a b (up a ha.1) (up b hb.1),
    fun depth n b hn hb he => L.split depth n b (up n hn.1) (up b hb.1) he⟩
  intro a b ha hb
  let P : F64 → Prop := fun v => F64.Num v ∧ ∃ i : ℤ, |i| ≤ 2 ^ 50 ∧ toR v = i * 2 ^ e
  have hP : ∀ d, P ((box2 (a.combine b)).lo d) ∧ P ((box2 (a.combine b)).hi d) := by
    obtain ⟨ha1, ha2⟩ := ha
    obtain ⟨hb1, hb2⟩ := hb
    simp only [Box.Fin, BoundingBox2D.combine_eq, Fin.forall_fin_two, at2_zero, at2_one, box2] at ha1 ha2 hb1 hb2 ⊢
    exact ⟨⟨mn_ind (P := P) ⟨ha1.1.1, ha2.1.1⟩ ⟨hb1.1.1, hb2.1.1⟩, mx_ind (P := P) ⟨ha1.1.2.1, ha2.1.2⟩ ⟨hb1.1.2.1, hb2.1.2⟩⟩,
      mn_ind (P := P) ⟨ha1.2.1, ha2.2.1⟩ ⟨hb1.2.1, hb2.2.1⟩, mx_ind (P := P) ⟨ha1.2.2.1, ha2.2.2⟩ ⟨hb1.2.2.1, hb2.2.2⟩⟩
  exact ⟨fin_of_valid (L.valid a b (up a ha.1) (up b hb.1)).1 (fun d => ⟨(hP d).1.1, (hP d).2.1⟩), fun d => ⟨(hP d).1.2, (hP d).2.2⟩⟩

theorem lawfulBoxOps3_grid (e : ℤ) : LawfulBoxOps (boxOps3 : BoxOps (BoundingBox3D F64) (Point3D F64))
    (fun b => (box3 b).OnGrid e) (fun a b => (box3 a).Encloses (box3 b)) := by
  have up : ∀ b : BoundingBox3D F64, (box3 b).Fin → ValidFin3 b := fun b h => ⟨h.valid, fun d => ⟨(h d).1.1, (h d).2.1.1⟩⟩
  have L := lawfulBoxOps3 (α := F64)
  refine ⟨L.refl, L.trans, ?_, fun a b ha hb => L.left a b (up a ha.1) (up b hb.1), fun a b ha hb => L.right a b (up a ha.1) (up b hb.1),
    fun depth n b hn hb he => L.split depth n b (up n hn.1) (up b hb.1) he⟩
  intro a b ha hb
  let P : F64 → Prop := fun v => F64.Num v ∧ ∃ i : ℤ, |i| ≤ 2 ^ 50 ∧ toR v = i * 2 ^ e
  have hP : ∀ d, P ((box3 (a.combine b)).lo d) ∧ P ((box3 (a.combine b)).hi d) := by
    obtain ⟨ha1, ha2⟩ := ha
    obtain ⟨hb1, hb2⟩ := hb
    simp only [Box.Fin, BoundingBox3D.combine_eq, forall_fin3, at3_zero, at3_one, at3_two, box3] at ha1 ha2 hb1 hb2 ⊢
    exact ⟨⟨mn_ind (P := P) ⟨ha1.1.1, ha2.1.1⟩ ⟨hb1.1.1, hb2.1.1⟩, mx_ind (P := P) ⟨ha1.1.2.1, ha2.1.2⟩ ⟨hb1.1.2.1, hb2.1.2⟩⟩,
      ⟨mn_ind (P := P) ⟨ha1.2.1.1, ha2.2.1.1⟩ ⟨hb1.2.1.1, hb2.2.1.1⟩, mx_ind (P := P) ⟨ha1.2.1.2.1, ha2.2.1.2⟩ ⟨hb1.2.1.2.1, hb2.2.1.2⟩⟩,
      mn_ind (P := P) ⟨ha1.2.2.1, ha2.2.2.1⟩ ⟨hb1.2.2.1, hb2.2.2.1⟩, mx_ind (P := P) ⟨ha1.2.2.2.1, ha2.2.2.2⟩ ⟨hb1.2.2.2.1, hb2.2.2.2⟩⟩
  exact ⟨fin_of_valid (L.valid a b (up a ha.1) (up b hb.1)).1 (fun d => ⟨(hP d).1.1, (hP d).2.1⟩), fun d => ⟨(hP d).1.2, (hP d).2.2⟩⟩

theorem Spec.Box.Meets.mono {n : Nat} {a b q : Box n F64} (ha : a.Fin) (hb : b.Fin) (he : a.Encloses b) (h : b.Meets q) : a.Meets q := by
  obtain ⟨p, hp⟩ := h
  refine ⟨p, fun d => ?_⟩
  have h1 : F64.key _ ≤ F64.key _ := (he d).1
  have h2 : F64.key _ ≤ F64.key _ := (he d).2
  rw [(ha d).1.key, (hb d).1.key, EReal.coe_le_coe_iff] at h1
  rw [(ha d).2.1.key, (hb d).2.1.key, EReal.coe_le_coe_iff] at h2
  exact ⟨⟨h1.trans_lt (hp d).1.1, (hp d).1.2.trans_le h2⟩, (hp d).2⟩

/-- C102 (tree queries, 2D): elements and query box on a fixed point grid: the collision query of the tree reports
exactly the elements whose open box meets the open query box. -/
theorem c102_tree_2d {HB : Type} (bb : HB → BoundingBox2D F64) (data : List HB) (maxdepth bucket : Nat) (e : ℤ) (he : -1000 ≤ e) (he' : e ≤ 900)
    (hV : ∀ x ∈ data, (box2 (bb x)).OnGrid e) :
    ∃ t, AABBTree2D.new bb data maxdepth bucket = some t ∧
      ∀ (q : BoundingBox2D F64), (box2 q).OnGrid e → ∃ r, AABBTree2D.forEachCollisionCandidate bb t q = some r ∧
        (∀ res, AABBTree2D.bbColliding bb t q res = some (res ++ r)) ∧
        ∀ x, x ∈ r ↔ x ∈ data ∧ (box2 (bb x)).Meets (box2 q) := by
  obtain ⟨t, h1, hi⟩ := AABBTree.newRec_inv (bb := bb) (lawfulBoxOps2_grid e) bucket maxdepth 0 data hV
  refine ⟨t, h1, fun q hq => ?_⟩
  have C := fun a ha => c102_collides_2d e he he' a q ha hq
  have T : ∀ a, (box2 a).OnGrid e → (box2 a).Meets (box2 q) → a.collidesWith q = some true := by
    intro a ha h
    obtain ⟨r, e1, e2⟩ := C a ha
    rw [e1, e2.2 h]
  obtain ⟨r, hr, h2, h3⟩ := visit_approx (test := fun b => b.collidesWith q) (S := fun b => (box2 b).Meets (box2 q))
    (lawfulBoxOps2_grid e).refl (fun b hb => (C b hb).imp fun _ h => h.1) (fun a b ha hb hab h => T a ha (h.mono ha.1 hb.1 hab)) hi
  refine ⟨r, hr, fun res => by simp only [AABBTree2D.bbColliding, hr, Option.map_some], fun x => ⟨fun hx => ?_, fun hx => h3 x hx.1 hx.2⟩⟩
  obtain ⟨m, e1⟩ := h2 x hx
  obtain ⟨b, e2, e3⟩ := C _ (hV x m)
  refine ⟨m, e3.1 ?_⟩
  rw [e1] at e2
  exact (Option.some.inj e2).symm

/-- C102 (tree queries, 3D) -/
theorem c102_tree_3d {HB : Type} (bb : HB → BoundingBox3D F64) (data : List HB) (maxdepth bucket : Nat) (e : ℤ) (he : -1000 ≤ e) (he' : e ≤ 900)
    (hV : ∀ x ∈ data, (box3 (bb x)).OnGrid e) :
    ∃ t, AABBTree3D.new bb data maxdepth bucket = some t ∧
      ∀ (q : BoundingBox3D F64), (box3 q).OnGrid e → ∃ r, AABBTree3D.forEachCollisionCandidate bb t q = some r ∧
        (∀ res, AABBTree3D.bbColliding bb t q res = some (res ++ r)) ∧
        ∀ x, x ∈ r ↔ x ∈ data ∧ (box3 (bb x)).Meets (box3 q) := by
  obtain ⟨t, h1, hi⟩ := AABBTree.newRec_inv (bb := bb) (lawfulBoxOps3_grid e) bucket maxdepth 0 data hV
  refine ⟨t, h1, fun q hq => ?_⟩
  have C := fun a ha => c102_collides_3d e he he' a q ha hq
  have T : ∀ a, (box3 a).OnGrid e → (box3 a).Meets (box3 q) → a.collidesWith q = some true := by
    intro a ha h
    obtain ⟨r, e1, e2⟩ := C a ha
    rw [e1, e2.2 h]
  obtain ⟨r, hr, h2, h3⟩ := visit_approx (test := fun b => b.collidesWith q) (S := fun b => (box3 b).Meets (box3 q))
    (lawfulBoxOps3_grid e).refl (fun b hb => (C b hb).imp fun _ h => h.1) (fun a b ha hb hab h => T a ha (h.mono ha.1 hb.1 hab)) hi
  refine ⟨r, hr, fun res => by simp only [AABBTree3D.bbColliding, hr, Option.map_some], fun x => ⟨fun hx => ?_, fun hx => h3 x hx.1 hx.2⟩⟩
  obtain ⟨m, e1⟩ := h2 x hx
  obtain ⟨b, e2, e3⟩ := C _ (hV x m)
  refine ⟨m, e3.1 ?_⟩
  rw [e1] at e2
  exact (Option.some.inj e2).symm

/-! examples -/

theorem grid_whole {n : ℤ} (h : |n| < 2 ^ 53) : Grid 0 n (f n) := by
  have := ofRat_grid h (by norm_num : -1074 ≤ (0:ℤ)) (by norm_num)
  rwa [zpow_zero, mul_one] at this

/-- whole numbers: a box of whole numbers is on the grid of step 1 -/
theorem onGrid_whole2 {a b c d : ℤ} (h1 : |a| ≤ 2 ^ 50) (h2 : |b| ≤ 2 ^ 50) (h3 : |c| ≤ 2 ^ 50) (h4 : |d| ≤ 2 ^ 50) (hx : a < c) (hy : b < d) :
    (box2 (⟨⟨f a, f b⟩, ⟨f c, f d⟩⟩ : BoundingBox2D F64)).OnGrid 0 := by
  have ga := grid_whole (n := a) (by omega)
  have gb := grid_whole (n := b) (by omega)
  have gc := grid_whole (n := c) (by omega)
  have gd := grid_whole (n := d) (by omega)
  simp only [Box.OnGrid, Box.Fin, box2, Fin.forall_fin_two, at2_zero, at2_one]
  refine ⟨⟨⟨ga.1, gc.1, ?_⟩, gb.1, gd.1, ?_⟩, ⟨⟨a, h1, ga.2⟩, c, h3, gc.2⟩, ⟨b, h2, gb.2⟩, d, h4, gd.2⟩
  · rw [ga.2, gc.2]; simpa using hx
  · rw [gb.2, gd.2]; simpa using hy

/-- two boxes that touch, and one that overlaps both -/
example : (box2 (⟨⟨f ((0:ℤ)), f ((0:ℤ))⟩, ⟨f ((3:ℤ)), f ((2:ℤ))⟩⟩ : BoundingBox2D F64)).OnGrid 0 ∧
    (box2 (⟨⟨f ((3:ℤ)), f ((0:ℤ))⟩, ⟨f ((1125899906842623:ℤ)), f ((7:ℤ))⟩⟩ : BoundingBox2D F64)).OnGrid 0 ∧
    (box2 (⟨⟨f ((-1:ℤ)), f ((-1:ℤ))⟩, ⟨f ((4:ℤ)), f ((1:ℤ))⟩⟩ : BoundingBox2D F64)).OnGrid 0 := by
  refine ⟨onGrid_whole2 ?_ ?_ ?_ ?_ ?_ ?_, onGrid_whole2 ?_ ?_ ?_ ?_ ?_ ?_, onGrid_whole2 ?_ ?_ ?_ ?_ ?_ ?_⟩ <;> norm_num

example : (box3 (⟨⟨f ((0:ℤ)), f ((0:ℤ)), f ((5:ℤ))⟩, ⟨f ((3:ℤ)), f ((2:ℤ)), f ((9:ℤ))⟩⟩ : BoundingBox3D F64)).OnGrid 0 := by
  have g0 := grid_whole (n := 0) (by norm_num)
  have g2 := grid_whole (n := 2) (by norm_num)
  have g3 := grid_whole (n := 3) (by norm_num)
  have g5 := grid_whole (n := 5) (by norm_num)
  have g9 := grid_whole (n := 9) (by norm_num)
  simp only [Box.OnGrid, Box.Fin, box3, forall_fin3, at3_zero, at3_one, at3_two]
  refine ⟨⟨⟨g0.1, g3.1, ?_⟩, ⟨g0.1, g2.1, ?_⟩, g5.1, g9.1, ?_⟩, ⟨⟨0, by norm_num, g0.2⟩, 3, by norm_num, g3.2⟩,
    ⟨⟨0, by norm_num, g0.2⟩, 2, by norm_num, g2.2⟩, ⟨5, by norm_num, g5.2⟩, 9, by norm_num, g9.2⟩
  · rw [g0.2, g3.2]; norm_num
  · rw [g0.2, g2.2]; norm_num
  · rw [g5.2, g9.2]; norm_num

end R3D

import Verif.Lemmas.F64Box
import Verif.Props.AABBTree
/-!
C97: bounding boxes of doubles: sizes, centers, moves and collisions with all roundings.
-/
namespace R3D
open Scalar Spec LawfulScalar F64

/-- a box with finite corners, ordered in every dimension (what `new` accepts from finite points) -/
def Spec.Box.Fin {n : Nat} (b : Box n F64) : Prop := ∀ d, F64.Num (b.lo d) ∧ F64.Num (b.hi d) ∧ toR (b.lo d) < toR (b.hi d)

/-- no coordinate exceeds `M` -/
def Spec.Box.Within {n : Nat} (b : Box n F64) (M : ℝ) : Prop := ∀ d, |toR (b.lo d)| ≤ M ∧ |toR (b.hi d)| ≤ M

/-- `s` is the width between `l` and `h` up to one rounding (infinite if too wide) -/
def Spec.IsSize (l h s : F64) : Prop :=
  0 < F64.key s ∧ (toR h - toR l ≤ 2 ^ (1023 : ℤ) → F64.Num s ∧ |toR s - (toR h - toR l)| ≤ 2 ^ (-53 : ℤ) * (toR h - toR l))

theorem size_some {l h : F64} (hl : F64.Num l) (hh : F64.Num h) (hlt : toR l < toR h) :
    Positive.new (Scalar.abs (h - l)) = some ⟨Scalar.abs (h - l)⟩ ∧ IsSize l h (Scalar.abs (h - l)) := by
  have hpos := key_sub_pos_of_lt hl hh hlt
  have hrep : Rep (h - l) := sub_rep _ _
  have hk : F64.key (Scalar.abs (h - l)) = F64.key (h - l) := key_abs_of_nonneg hrep hpos.le
  have hok : F64.ok (Scalar.abs (h - l)) := by
    have := ok_sub_fin hh.1 hl.1
    show F64.ok (F64.abs (h - l))
    cases hx : h - l with
    | nan => exact absurd hx this
    | inf s => exact F64.noConfusion
    | fin s m => exact F64.noConfusion
  refine ⟨?_, by rw [hk]; exact hpos, fun hb => ?_⟩
  · unfold Positive.new
    rw [if_pos]
    rw [LawfulScalar.lt_iff]
    exact ⟨LawfulScalar.ok_zero, hok, by rw [LawfulScalar.key_zero]; show 0 < F64.key _; rw [hk]; exact hpos⟩
  · obtain ⟨h1, -, h3⟩ := size1 hl hh hlt hb
    exact ⟨h1, h3⟩

/-- **C97** (sizes): the sizes of a box of finite doubles never panic, not even for corners that differ in the last bit, and are exact up
to one rounding. -/
theorem c97_size :
    (∀ b : BoundingBox2D F64, (box2 b).Fin → ∃ sx sy, b.sizeX = some ⟨sx⟩ ∧ b.sizeY = some ⟨sy⟩ ∧
      ∀ d, IsSize ((box2 b).lo d) ((box2 b).hi d) (at2 ⟨sx, sy⟩ d)) ∧
    (∀ b : BoundingBox3D F64, (box3 b).Fin → ∃ sx sy sz, b.sizeX = some ⟨sx⟩ ∧ b.sizeY = some ⟨sy⟩ ∧ b.sizeZ = some ⟨sz⟩ ∧
      ∀ d, IsSize ((box3 b).lo d) ((box3 b).hi d) (at3 ⟨sx, sy, sz⟩ d)) := by
  constructor
  · intro b hb
    simp only [Box.Fin, box2, Fin.forall_fin_two, at2_zero, at2_one] at hb ⊢
    obtain ⟨⟨a1, a2, a3⟩, b1, b2, b3⟩ := hb
    exact ⟨_, _, (size_some a1 a2 a3).1, (size_some b1 b2 b3).1, (size_some a1 a2 a3).2, (size_some b1 b2 b3).2⟩
  · intro b hb
    simp only [Box.Fin, box3, forall_fin3, at3_zero, at3_one, at3_two] at hb ⊢
    obtain ⟨⟨a1, a2, a3⟩, ⟨b1, b2, b3⟩, c1, c2, c3⟩ := hb
    exact ⟨_, _, _, (size_some a1 a2 a3).1, (size_some b1 b2 b3).1, (size_some c1 c2 c3).1, (size_some a1 a2 a3).2,
      (size_some b1 b2 b3).2, (size_some c1 c2 c3).2⟩

/-- `c` is between the borders and close to the middle -/
def Spec.IsCenter (l h c : F64) : Prop :=
  F64.Num c ∧ toR l ≤ toR c ∧ toR c ≤ toR h ∧
    |toR c - (toR l + toR h) / 2| ≤ 2 ^ (-53 : ℤ) * (toR h - toR l) / 2 + 2 ^ (-1075 : ℤ) + 2 ^ (-53 : ℤ) * max |toR l| |toR h|

/-- **C97** (centers): the computed center never leaves the closed box, and is the middle up to three roundings. -/
theorem c97_center :
    (∀ b : BoundingBox2D F64, (box2 b).Fin → (∀ d, toR ((box2 b).hi d) - toR ((box2 b).lo d) ≤ 2 ^ (1023 : ℤ)) →
      ∀ d, IsCenter ((box2 b).lo d) ((box2 b).hi d) (at2 b.centerBB d)) ∧
    (∀ b : BoundingBox3D F64, (box3 b).Fin → (∀ d, toR ((box3 b).hi d) - toR ((box3 b).lo d) ≤ 2 ^ (1023 : ℤ)) →
      ∀ d, IsCenter ((box3 b).lo d) ((box3 b).hi d) (at3 b.centerBB d)) := by
  constructor
  · intro b hb hw
    simp only [Box.Fin, box2, Fin.forall_fin_two, at2_zero, at2_one, BoundingBox2D.centerBB] at hb hw ⊢
    obtain ⟨⟨a1, a2, a3⟩, b1, b2, b3⟩ := hb
    exact ⟨center1 a1 a2 a3 hw.1, center1 b1 b2 b3 hw.2⟩
  · intro b hb hw
    simp only [Box.Fin, box3, forall_fin3, at3_zero, at3_one, at3_two, BoundingBox3D.centerBB] at hb hw ⊢
    obtain ⟨⟨a1, a2, a3⟩, ⟨b1, b2, b3⟩, c1, c2, c3⟩ := hb
    exact ⟨center1 a1 a2 a3 hw.1, center1 b1 b2 b3 hw.2.1, center1 c1 c2 c3 hw.2.2⟩

/-- `r` is the sum of `a` and `t` up to one rounding (infinite if out of range) -/
def Spec.IsSum (a t r : F64) : Prop :=
  F64.ok r ∧ (|toR a + toR t| ≤ 2 ^ (1023 : ℤ) → F64.Num r ∧ |toR r - (toR a + toR t)| ≤ 2 ^ (-53 : ℤ) * |toR a + toR t|)

theorem isSum_add {a t : F64} (ha : F64.Num a) (ht : F64.Num t) : IsSum a t (a + t) :=
  ⟨ok_add_num ha ht, fun h => toR_add ha ht h⟩

open Classical in
theorem new_toOption_2d {a b : Point2D F64} (h : ∀ d, F64.ok (at2 a d) ∧ F64.ok (at2 b d) ∧ F64.key (at2 a d) ≤ F64.key (at2 b d)) :
    (BoundingBox2D.new a b).toOption = if ∃ d, F64.key (at2 a d) = F64.key (at2 b d) then none else some ⟨a, b⟩ := by
  simp only [Fin.forall_fin_two, Fin.exists_fin_two, at2_zero, at2_one] at h ⊢
  obtain ⟨⟨x1, x2, x3⟩, y1, y2, y3⟩ := h
  have e : (a.x ==. b.x || a.y ==. b.y) = true ↔ F64.key a.x = F64.key b.x ∨ F64.key a.y = F64.key b.y := by
    rw [Bool.or_eq_true, eq_of_ok x1 x2, eq_of_ok y1 y2]; rfl
  have g : ¬(a.x >. b.x || a.y >. b.y) = true := by
    rw [Bool.or_eq_true, lt_of_ok x2 x1, lt_of_ok y2 y1]
    push Not
    exact ⟨x3, y3⟩
  unfold BoundingBox2D.new
  by_cases hc : F64.key a.x = F64.key b.x ∨ F64.key a.y = F64.key b.y
  · rw [if_pos (e.2 hc), if_pos hc]; rfl
  · rw [if_neg (fun h => hc (e.1 h)), if_neg g, if_neg hc]; rfl

open Classical in
theorem new_toOption_3d {a b : Point3D F64} (h : ∀ d, F64.ok (at3 a d) ∧ F64.ok (at3 b d) ∧ F64.key (at3 a d) ≤ F64.key (at3 b d)) :
    (BoundingBox3D.new a b).toOption = if ∃ d, F64.key (at3 a d) = F64.key (at3 b d) then none else some ⟨a, b⟩ := by
  simp only [forall_fin3, exists_fin3, at3_zero, at3_one, at3_two] at h ⊢
  obtain ⟨⟨x1, x2, x3⟩, ⟨y1, y2, y3⟩, z1, z2, z3⟩ := h
  have e : (a.x ==. b.x || a.y ==. b.y || a.z ==. b.z) = true ↔
      F64.key a.x = F64.key b.x ∨ F64.key a.y = F64.key b.y ∨ F64.key a.z = F64.key b.z := by
    rw [Bool.or_eq_true, Bool.or_eq_true, eq_of_ok x1 x2, eq_of_ok y1 y2, eq_of_ok z1 z2, or_assoc]; rfl
  have g : ¬(a.x >. b.x || a.y >. b.y || a.z >. b.z) = true := by
    rw [Bool.or_eq_true, Bool.or_eq_true, lt_of_ok x2 x1, lt_of_ok y2 y1, lt_of_ok z2 z1]
    push Not
    exact ⟨⟨x3, y3⟩, z3⟩
  unfold BoundingBox3D.new
  by_cases hc : F64.key a.x = F64.key b.x ∨ F64.key a.y = F64.key b.y ∨ F64.key a.z = F64.key b.z
  · rw [if_pos (e.2 hc), if_pos hc]; rfl
  · rw [if_neg (fun h => hc (e.1 h)), if_neg g, if_neg hc]; rfl

open Classical in
/-- **C97** (moves): moving by finite doubles adds them to the corners up to one rounding and never swaps the corners. The moved box is
again a box unless the corners collapse in a dimension, and exactly then its bounding box panics. -/
theorem c97_move :
    (∀ (b : BoundingBox2D F64) (t : Point2D F64), (box2 b).Fin → (∀ d, F64.Num (at2 t d)) →
      (∀ d, IsSum ((box2 b).lo d) (at2 t d) ((box2 (b.moveBy t.x t.y)).lo d) ∧
        IsSum ((box2 b).hi d) (at2 t d) ((box2 (b.moveBy t.x t.y)).hi d) ∧
        F64.key ((box2 (b.moveBy t.x t.y)).lo d) ≤ F64.key ((box2 (b.moveBy t.x t.y)).hi d)) ∧
      (b.moveBy t.x t.y).boundingBox = if ∃ d, F64.key ((box2 (b.moveBy t.x t.y)).lo d) = F64.key ((box2 (b.moveBy t.x t.y)).hi d)
        then none else some (b.moveBy t.x t.y)) ∧
    (∀ (b : BoundingBox3D F64) (t : Point3D F64), (box3 b).Fin → (∀ d, F64.Num (at3 t d)) →
      (∀ d, IsSum ((box3 b).lo d) (at3 t d) ((box3 (b.moveBy t.x t.y t.z)).lo d) ∧
        IsSum ((box3 b).hi d) (at3 t d) ((box3 (b.moveBy t.x t.y t.z)).hi d) ∧
        F64.key ((box3 (b.moveBy t.x t.y t.z)).lo d) ≤ F64.key ((box3 (b.moveBy t.x t.y t.z)).hi d)) ∧
      (b.moveBy t.x t.y t.z).boundingBox =
        if ∃ d, F64.key ((box3 (b.moveBy t.x t.y t.z)).lo d) = F64.key ((box3 (b.moveBy t.x t.y t.z)).hi d)
        then none else some (b.moveBy t.x t.y t.z)) := by
  constructor
  · intro b t hb ht
    have h1 : ∀ d, IsSum ((box2 b).lo d) (at2 t d) ((box2 (b.moveBy t.x t.y)).lo d) ∧
        IsSum ((box2 b).hi d) (at2 t d) ((box2 (b.moveBy t.x t.y)).hi d) ∧
        F64.key ((box2 (b.moveBy t.x t.y)).lo d) ≤ F64.key ((box2 (b.moveBy t.x t.y)).hi d) := by
      simp only [Box.Fin, box2, Fin.forall_fin_two, at2_zero, at2_one, BoundingBox2D.moveBy, Point2D.moveBy] at hb ht ⊢
      obtain ⟨⟨a1, a2, a3⟩, b1, b2, b3⟩ := hb
      exact ⟨⟨isSum_add a1 ht.1, isSum_add a2 ht.1, key_add_le_add a1 ht.1 a2 ht.1 (by linarith)⟩,
        isSum_add b1 ht.2, isSum_add b2 ht.2, key_add_le_add b1 ht.2 b2 ht.2 (by linarith)⟩
    refine ⟨h1, ?_⟩
    unfold BoundingBox2D.boundingBox
    exact new_toOption_2d (a := (b.moveBy t.x t.y).min) (b := (b.moveBy t.x t.y).max)
      (fun d => ⟨(h1 d).1.1, (h1 d).2.1.1, (h1 d).2.2⟩)
  · intro b t hb ht
    have h1 : ∀ d, IsSum ((box3 b).lo d) (at3 t d) ((box3 (b.moveBy t.x t.y t.z)).lo d) ∧
        IsSum ((box3 b).hi d) (at3 t d) ((box3 (b.moveBy t.x t.y t.z)).hi d) ∧
        F64.key ((box3 (b.moveBy t.x t.y t.z)).lo d) ≤ F64.key ((box3 (b.moveBy t.x t.y t.z)).hi d) := by
      simp only [Box.Fin, box3, forall_fin3, at3_zero, at3_one, at3_two, BoundingBox3D.moveBy, Point3D.moveBy] at hb ht ⊢
      obtain ⟨⟨a1, a2, a3⟩, ⟨b1, b2, b3⟩, c1, c2, c3⟩ := hb
      exact ⟨⟨isSum_add a1 ht.1, isSum_add a2 ht.1, key_add_le_add a1 ht.1 a2 ht.1 (by linarith)⟩,
        ⟨isSum_add b1 ht.2.1, isSum_add b2 ht.2.1, key_add_le_add b1 ht.2.1 b2 ht.2.1 (by linarith)⟩,
        isSum_add c1 ht.2.2, isSum_add c2 ht.2.2, key_add_le_add c1 ht.2.2 c2 ht.2.2 (by linarith)⟩
    refine ⟨h1, ?_⟩
    unfold BoundingBox3D.boundingBox
    exact new_toOption_3d (a := (b.moveBy t.x t.y t.z).min) (b := (b.moveBy t.x t.y t.z).max)
      (fun d => ⟨(h1 d).1.1, (h1 d).2.1.1, (h1 d).2.2⟩)

/-! ### collisions -/

/-- the boxes overlap by `τ` in every dimension -/
def Spec.Overlap {n : Nat} (a b : Box n F64) (τ : ℝ) : Prop :=
  ∀ d, toR (a.lo d) + τ ≤ toR (b.hi d) ∧ toR (b.lo d) + τ ≤ toR (a.hi d)

/-- the boxes are `τ` apart in some dimension -/
def Spec.Apart {n : Nat} (a b : Box n F64) (τ : ℝ) : Prop :=
  ∃ d, toR (b.hi d) + τ ≤ toR (a.lo d) ∨ toR (a.hi d) + τ ≤ toR (b.lo d)

/-- **C97** (collisions, 2D): `collides_with` of boxes of finite doubles never panics (if no width overflows), and is right whenever the boxes
overlap, or are apart, by at least `2^-49` times a bound `M` of all coordinates. -/
theorem c97_collides_2d (a b : BoundingBox2D F64) (ha : (box2 a).Fin) (hb : (box2 b).Fin) (M : ℝ) (hM : 2 ^ (-1000 : ℤ) ≤ M)
    (hM' : M ≤ 2 ^ (1020 : ℤ)) (wa : (box2 a).Within M) (wb : (box2 b).Within M) :
    (∃ r, a.collidesWith b = some r) ∧
    (Overlap (box2 a) (box2 b) (2 ^ (-49 : ℤ) * M) → a.collidesWith b = some true) ∧
    (Apart (box2 a) (box2 b) (2 ^ (-49 : ℤ) * M) → a.collidesWith b = some false) := by
  simp only [Box.Fin, Box.Within, Overlap, Apart, box2, Fin.forall_fin_two, Fin.exists_fin_two, at2_zero, at2_one] at *
  obtain ⟨⟨ax1, ax2, ax3⟩, ay1, ay2, ay3⟩ := ha
  obtain ⟨⟨bx1, bx2, bx3⟩, by1, by2, by3⟩ := hb
  have cx := collide1 ax1 ax2 bx1 bx2 ax3 bx3 hM hM' wa.1.1 wa.1.2 wb.1.1 wb.1.2
  have cy := collide1 ay1 ay2 by1 by2 ay3 by3 hM hM' wa.2.1 wa.2.2 wb.2.1 wb.2.2
  simp only [BoundingBox2D.collidesWith, BoundingBox2D.sizeX, BoundingBox2D.sizeY, (size_some ax1 ax2 ax3).1, (size_some ay1 ay2 ay3).1,
    (size_some bx1 bx2 bx3).1, (size_some by1 by2 by3).1, Option.bind_eq_bind, Option.bind_some, Positive.add, BoundingBox2D.centerBB]
  refine ⟨?_, ?_, ?_⟩
  · split_ifs <;> exact ⟨_, rfl⟩
  · rintro ⟨⟨h1, h2⟩, h3, h4⟩
    rw [cx.1 h1 h2, cy.1 h3 h4]; rfl
  · rintro (h | h)
    · rw [cx.2 h]; rfl
    · rw [cy.2 h]
      split_ifs <;> rfl

/-- **C97** (collisions, 3D) -/
theorem c97_collides_3d (a b : BoundingBox3D F64) (ha : (box3 a).Fin) (hb : (box3 b).Fin) (M : ℝ) (hM : 2 ^ (-1000 : ℤ) ≤ M)
    (hM' : M ≤ 2 ^ (1020 : ℤ)) (wa : (box3 a).Within M) (wb : (box3 b).Within M) :
    (∃ r, a.collidesWith b = some r) ∧
    (Overlap (box3 a) (box3 b) (2 ^ (-49 : ℤ) * M) → a.collidesWith b = some true) ∧
    (Apart (box3 a) (box3 b) (2 ^ (-49 : ℤ) * M) → a.collidesWith b = some false) := by
  simp only [Box.Fin, Box.Within, Overlap, Apart, box3, forall_fin3, exists_fin3, at3_zero, at3_one, at3_two] at *
  obtain ⟨⟨ax1, ax2, ax3⟩, ⟨ay1, ay2, ay3⟩, az1, az2, az3⟩ := ha
  obtain ⟨⟨bx1, bx2, bx3⟩, ⟨by1, by2, by3⟩, bz1, bz2, bz3⟩ := hb
  have cx := collide1 ax1 ax2 bx1 bx2 ax3 bx3 hM hM' wa.1.1 wa.1.2 wb.1.1 wb.1.2
  have cy := collide1 ay1 ay2 by1 by2 ay3 by3 hM hM' wa.2.1.1 wa.2.1.2 wb.2.1.1 wb.2.1.2
  have cz := collide1 az1 az2 bz1 bz2 az3 bz3 hM hM' wa.2.2.1 wa.2.2.2 wb.2.2.1 wb.2.2.2
  simp only [BoundingBox3D.collidesWith, BoundingBox3D.sizeX, BoundingBox3D.sizeY, BoundingBox3D.sizeZ, (size_some ax1 ax2 ax3).1,
    (size_some ay1 ay2 ay3).1, (size_some az1 az2 az3).1, (size_some bx1 bx2 bx3).1, (size_some by1 by2 by3).1, (size_some bz1 bz2 bz3).1,
    Option.bind_eq_bind, Option.bind_some, Positive.add, BoundingBox3D.centerBB]
  refine ⟨?_, ?_, ?_⟩
  · split_ifs <;> exact ⟨_, rfl⟩
  · rintro ⟨⟨h1, h2⟩, ⟨h3, h4⟩, h5, h6⟩
    rw [cx.1 h1 h2, cy.1 h3 h4, cz.1 h5 h6]; rfl
  · rintro (h | h | h)
    · rw [cx.2 h]; rfl
    · rw [cy.2 h, if_neg Bool.false_ne_true]
      split_ifs <;> rfl
    · rw [cz.2 h]
      split_ifs <;> rfl

/-! ### collision queries of the trees -/

/-- a query of a tree finds only elements passing the test, and all elements with a property that makes every enclosing box pass -/
theorem visit_approx {B HB : Type} {V : B → Prop} {E : B → B → Prop} {bb : HB → B} {test : B → Panics Bool} {S : B → Prop}
    (hr : ∀ a, E a a) (ht : ∀ b, V b → ∃ r, test b = some r) (hm : ∀ a b, V a → V b → E a b → S b → test a = some true)
    {t : AABBTree B HB} {data : List HB} (hi : AABBTree.Inv V E bb t data) :
    ∃ r, t.visit bb test = some r ∧ (∀ x ∈ r, x ∈ data ∧ test (bb x) = some true) ∧ ∀ x ∈ data, S (bb x) → x ∈ r := by
  induction hi with
  | empty => exact ⟨[], rfl, by simp, by simp⟩
  | @leaf data b hb hd =>
    obtain ⟨v, hv⟩ := ht b hb
    cases v
    · refine ⟨[], by simp [AABBTree.visit, hv], by simp, fun x hx hx' => ?_⟩
      have := hm b (bb x) hb (hd x hx).1 (hd x hx).2 hx'
      rw [hv] at this; simp at this
    · obtain ⟨r, h1, h2⟩ := AABBTree.visitData_spec (bb := bb) (test := test) data (fun x hx => ht _ (hd x hx).1)
      exact ⟨r, by simp [AABBTree.visit, hv, h1], fun x hx => (h2 x).1 hx,
        fun x hx hS => (h2 x).2 ⟨hx, hm _ _ (hd x hx).1 (hd x hx).1 (hr _) hS⟩⟩
  | @branch l r b dl dr data hb _ _ hd hmem ihl ihr =>
    obtain ⟨rl, l1, l2, l3⟩ := ihl
    obtain ⟨rr, r1, r2, r3⟩ := ihr
    obtain ⟨v, hv⟩ := ht b hb
    cases v
    · refine ⟨[], by simp [AABBTree.visit, hv], by simp, fun x hx hx' => ?_⟩
      have := hm b (bb x) hb (hd x hx).1 (hd x hx).2 hx'
      rw [hv] at this; simp at this
    · refine ⟨rl ++ rr, by simp [AABBTree.visit, hv, l1, r1], fun x hx => ?_, fun x hx hS => ?_⟩
      · rw [hmem]
        rcases List.mem_append.1 hx with h | h
        · exact ⟨.inl (l2 x h).1, (l2 x h).2⟩
        · exact ⟨.inr (r2 x h).1, (r2 x h).2⟩
      · rw [List.mem_append]
        rcases (hmem x).1 hx with h | h
        · exact .inl (l3 x h hS)
        · exact .inr (r3 x h hS)

theorem Spec.Box.Fin.valid {n : Nat} {b : Box n F64} (h : b.Fin) : b.Valid := by
  refine ⟨fun d => ⟨(h d).1.ok, (h d).2.1.ok⟩, fun d => ?_⟩
  show F64.key _ < F64.key _
  rw [(h d).1.key, (h d).2.1.key, EReal.coe_lt_coe_iff]
  exact (h d).2.2

theorem mn_ind {P : F64 → Prop} {a b : F64} (ha : P a) (hb : P b) : P (mn a b) := by
  rcases mn_mem a b with e | e <;> rw [e] <;> assumption
theorem mx_ind {P : F64 → Prop} {a b : F64} (ha : P a) (hb : P b) : P (mx a b) := by
  rcases mx_mem a b with e | e <;> rw [e] <;> assumption

/-- what is kept by all boxes of a tree -/
theorem fin_of_valid {n : Nat} {b : Box n F64} (h : b.Valid) (hn : ∀ d, F64.Num (b.lo d) ∧ F64.Num (b.hi d)) : b.Fin := by
  intro d
  refine ⟨(hn d).1, (hn d).2, ?_⟩
  have : F64.key _ < F64.key _ := h.2 d
  rwa [(hn d).1.key, (hn d).2.key, EReal.coe_lt_coe_iff] at this

theorem lawfulBoxOps2_fin (M : ℝ) : LawfulBoxOps (boxOps2 : BoxOps (BoundingBox2D F64) (Point2D F64))
    (fun b => (box2 b).Fin ∧ (box2 b).Within M) (fun a b => (box2 a).Encloses (box2 b)) := by
  have up : ∀ b : BoundingBox2D F64, (box2 b).Fin → ValidFin2 b := fun b h => ⟨h.valid, fun d => ⟨(h d).1.1, (h d).2.1.1⟩⟩
  have L := lawfulBoxOps2 (α := F64)
  refine ⟨L.refl, L.trans, ?_, fun a b ha hb => L.left a b (up a ha.1) (up b hb.1), fun a b ha hb => L.right a b (up a ha.1) (up b hb.1),
    fun depth n b hn hb he => L.split depth n b (up n hn.1) (up b hb.1) he⟩
  intro a b ha hb
  have hP : ∀ d, (F64.Num ((box2 (a.combine b)).lo d) ∧ |toR ((box2 (a.combine b)).lo d)| ≤ M) ∧
      (F64.Num ((box2 (a.combine b)).hi d) ∧ |toR ((box2 (a.combine b)).hi d)| ≤ M) := by
    obtain ⟨ha1, ha2⟩ := ha
    obtain ⟨hb1, hb2⟩ := hb
    simp only [Box.Fin, Box.Within, BoundingBox2D.combine_eq, Fin.forall_fin_two, at2_zero, at2_one, box2] at ha1 ha2 hb1 hb2 ⊢
    refine ⟨⟨?_, ?_⟩, ?_, ?_⟩
    · exact mn_ind (P := fun v => F64.Num v ∧ |toR v| ≤ M) ⟨ha1.1.1, ha2.1.1⟩ ⟨hb1.1.1, hb2.1.1⟩
    · exact mx_ind (P := fun v => F64.Num v ∧ |toR v| ≤ M) ⟨ha1.1.2.1, ha2.1.2⟩ ⟨hb1.1.2.1, hb2.1.2⟩
    · exact mn_ind (P := fun v => F64.Num v ∧ |toR v| ≤ M) ⟨ha1.2.1, ha2.2.1⟩ ⟨hb1.2.1, hb2.2.1⟩
    · exact mx_ind (P := fun v => F64.Num v ∧ |toR v| ≤ M) ⟨ha1.2.2.1, ha2.2.2⟩ ⟨hb1.2.2.1, hb2.2.2⟩
  exact ⟨fin_of_valid (L.valid a b (up a ha.1) (up b hb.1)).1 (fun d => ⟨(hP d).1.1, (hP d).2.1⟩), fun d => ⟨(hP d).1.2, (hP d).2.2⟩⟩

theorem lawfulBoxOps3_fin (M : ℝ) : LawfulBoxOps (boxOps3 : BoxOps (BoundingBox3D F64) (Point3D F64))
    (fun b => (box3 b).Fin ∧ (box3 b).Within M) (fun a b => (box3 a).Encloses (box3 b)) := by
  have up : ∀ b : BoundingBox3D F64, (box3 b).Fin → ValidFin3 b := fun b h => ⟨h.valid, fun d => ⟨(h d).1.1, (h d).2.1.1⟩⟩
  have L := lawfulBoxOps3 (α := F64)
  refine ⟨L.refl, L.trans, ?_, fun a b ha hb => L.left a b (up a ha.1) (up b hb.1), fun a b ha hb => L.right a b (up a ha.1) (up b hb.1),
    fun depth n b hn hb he => L.split depth n b (up n hn.1) (up b hb.1) he⟩
  intro a b ha hb
  have hP : ∀ d, (F64.Num ((box3 (a.combine b)).lo d) ∧ |toR ((box3 (a.combine b)).lo d)| ≤ M) ∧
      (F64.Num ((box3 (a.combine b)).hi d) ∧ |toR ((box3 (a.combine b)).hi d)| ≤ M) := by
    obtain ⟨ha1, ha2⟩ := ha
    obtain ⟨hb1, hb2⟩ := hb
    simp only [Box.Fin, Box.Within, BoundingBox3D.combine_eq, forall_fin3, at3_zero, at3_one, at3_two, box3] at ha1 ha2 hb1 hb2 ⊢
    refine ⟨⟨?_, ?_⟩, ⟨?_, ?_⟩, ?_, ?_⟩
    · exact mn_ind (P := fun v => F64.Num v ∧ |toR v| ≤ M) ⟨ha1.1.1, ha2.1.1⟩ ⟨hb1.1.1, hb2.1.1⟩
    · exact mx_ind (P := fun v => F64.Num v ∧ |toR v| ≤ M) ⟨ha1.1.2.1, ha2.1.2⟩ ⟨hb1.1.2.1, hb2.1.2⟩
    · exact mn_ind (P := fun v => F64.Num v ∧ |toR v| ≤ M) ⟨ha1.2.1.1, ha2.2.1.1⟩ ⟨hb1.2.1.1, hb2.2.1.1⟩
    · exact mx_ind (P := fun v => F64.Num v ∧ |toR v| ≤ M) ⟨ha1.2.1.2.1, ha2.2.1.2⟩ ⟨hb1.2.1.2.1, hb2.2.1.2⟩
    · exact mn_ind (P := fun v => F64.Num v ∧ |toR v| ≤ M) ⟨ha1.2.2.1, ha2.2.2.1⟩ ⟨hb1.2.2.1, hb2.2.2.1⟩
    · exact mx_ind (P := fun v => F64.Num v ∧ |toR v| ≤ M) ⟨ha1.2.2.2.1, ha2.2.2.2⟩ ⟨hb1.2.2.2.1, hb2.2.2.2⟩
  exact ⟨fin_of_valid (L.valid a b (up a ha.1) (up b hb.1)).1 (fun d => ⟨(hP d).1.1, (hP d).2.1⟩), fun d => ⟨(hP d).1.2, (hP d).2.2⟩⟩

theorem Spec.Overlap.mono {n : Nat} {a b q : Box n F64} (ha : a.Fin) (hb : b.Fin) (he : a.Encloses b) {τ : ℝ} (h : Overlap b q τ) :
    Overlap a q τ := by
  intro d
  have h1 : F64.key _ ≤ F64.key _ := (he d).1
  have h2 : F64.key _ ≤ F64.key _ := (he d).2
  rw [(ha d).1.key, (hb d).1.key, EReal.coe_le_coe_iff] at h1
  rw [(ha d).2.1.key, (hb d).2.1.key, EReal.coe_le_coe_iff] at h2
  exact ⟨by linarith [(h d).1], by linarith [(h d).2]⟩

/-- **C97** (tree queries, 2D): with doubles the collision query of a tree reports no element that is `2^-49 M` apart from the query box, and
every element that overlaps it by as much; in between it may miss elements (`c22_float_miss`). -/
theorem c97_tree_2d {HB : Type} (bb : HB → BoundingBox2D F64) (data : List HB) (maxdepth bucket : Nat) (M : ℝ)
    (hM : 2 ^ (-1000 : ℤ) ≤ M) (hM' : M ≤ 2 ^ (1020 : ℤ)) (hV : ∀ x ∈ data, (box2 (bb x)).Fin ∧ (box2 (bb x)).Within M) :
    ∃ t, AABBTree2D.new bb data maxdepth bucket = some t ∧
      ∀ (q : BoundingBox2D F64), (box2 q).Fin → (box2 q).Within M → ∃ r, AABBTree2D.forEachCollisionCandidate bb t q = some r ∧
        (∀ res, AABBTree2D.bbColliding bb t q res = some (res ++ r)) ∧
        (∀ x ∈ r, x ∈ data ∧ ¬Apart (box2 (bb x)) (box2 q) (2 ^ (-49 : ℤ) * M)) ∧
        ∀ x ∈ data, Overlap (box2 (bb x)) (box2 q) (2 ^ (-49 : ℤ) * M) → x ∈ r := by
  obtain ⟨t, h1, hi⟩ := AABBTree.newRec_inv (bb := bb) (lawfulBoxOps2_fin M) bucket maxdepth 0 data hV
  refine ⟨t, h1, fun q hq hw => ?_⟩
  obtain ⟨r, hr, h2, h3⟩ := visit_approx (test := fun b => b.collidesWith q) (S := fun b => Overlap (box2 b) (box2 q) (2 ^ (-49 : ℤ) * M))
    (lawfulBoxOps2_fin M).refl (fun b hb => (c97_collides_2d b q hb.1 hq M hM hM' hb.2 hw).1)
    (fun a b ha hb he h => (c97_collides_2d a q ha.1 hq M hM hM' ha.2 hw).2.1 (h.mono ha.1 hb.1 he)) hi
  refine ⟨r, hr, fun res => by simp only [AABBTree2D.bbColliding, hr, Option.map_some], fun x hx => ⟨(h2 x hx).1, fun ha => ?_⟩, h3⟩
  obtain ⟨m, e⟩ := h2 x hx
  rw [(c97_collides_2d _ q (hV x m).1 hq M hM hM' (hV x m).2 hw).2.2 ha] at e
  simp at e

/-- **C97** (tree queries, 3D) -/
theorem c97_tree_3d {HB : Type} (bb : HB → BoundingBox3D F64) (data : List HB) (maxdepth bucket : Nat) (M : ℝ)
    (hM : 2 ^ (-1000 : ℤ) ≤ M) (hM' : M ≤ 2 ^ (1020 : ℤ)) (hV : ∀ x ∈ data, (box3 (bb x)).Fin ∧ (box3 (bb x)).Within M) :
    ∃ t, AABBTree3D.new bb data maxdepth bucket = some t ∧
      ∀ (q : BoundingBox3D F64), (box3 q).Fin → (box3 q).Within M → ∃ r, AABBTree3D.forEachCollisionCandidate bb t q = some r ∧
        (∀ res, AABBTree3D.bbColliding bb t q res = some (res ++ r)) ∧
        (∀ x ∈ r, x ∈ data ∧ ¬Apart (box3 (bb x)) (box3 q) (2 ^ (-49 : ℤ) * M)) ∧
        ∀ x ∈ data, Overlap (box3 (bb x)) (box3 q) (2 ^ (-49 : ℤ) * M) → x ∈ r := by
  obtain ⟨t, h1, hi⟩ := AABBTree.newRec_inv (bb := bb) (lawfulBoxOps3_fin M) bucket maxdepth 0 data hV
  refine ⟨t, h1, fun q hq hw => ?_⟩
  obtain ⟨r, hr, h2, h3⟩ := visit_approx (test := fun b => b.collidesWith q) (S := fun b => Overlap (box3 b) (box3 q) (2 ^ (-49 : ℤ) * M))
    (lawfulBoxOps3_fin M).refl (fun b hb => (c97_collides_3d b q hb.1 hq M hM hM' hb.2 hw).1)
    (fun a b ha hb he h => (c97_collides_3d a q ha.1 hq M hM hM' ha.2 hw).2.1 (h.mono ha.1 hb.1 he)) hi
  refine ⟨r, hr, fun res => by simp only [AABBTree3D.bbColliding, hr, Option.map_some], fun x hx => ⟨(h2 x hx).1, fun ha => ?_⟩, h3⟩
  obtain ⟨m, e⟩ := h2 x hx
  rw [(c97_collides_3d _ q (hV x m).1 hq M hM hM' (hV x m).2 hw).2.2 ha] at e
  simp at e

/-! ### examples -/

/-- the hypotheses are met by two boxes of doubles that are no short binary fractions -/
theorem ex_num (q : ℚ) (s : Bool) (m : ℚ) (h : f q = .fin s m) : F64.Num (f q) ∧ toR (f q) = ((val s m : ℚ) : ℝ) :=
  ⟨lit_num q s m h, by rw [h, real_fin]⟩

example : (box2 (⟨⟨f 0, f (1/10)⟩, ⟨f 1, f 3⟩⟩ : BoundingBox2D F64)).Fin ∧
    (box2 (⟨⟨f 0, f (1/10)⟩, ⟨f 1, f 3⟩⟩ : BoundingBox2D F64)).Within 4 := by
  have h0 := ex_num 0 false 0 (by decide +kernel)
  have h1 := ex_num 1 false 1 (by decide +kernel)
  have h2 := ex_num (1/10) false (3602879701896397 / 36028797018963968) (by decide +kernel)
  have h3 := ex_num 3 false 3 (by decide +kernel)
  simp only [Box.Fin, Box.Within, box2, Fin.forall_fin_two, at2_zero, at2_one, h0, h1, h2, h3, val]
  norm_num

/-- moving may collapse a box: then its bounding box and its size panic -/
example : ((⟨⟨f 0, f 0⟩, ⟨f 1, f 1⟩⟩ : BoundingBox2D F64).moveBy (f (2 ^ 60)) (f 0)).boundingBox = none ∧
    ((⟨⟨f 0, f 0⟩, ⟨f 1, f 1⟩⟩ : BoundingBox2D F64).moveBy (f (2 ^ 60)) (f 0)).sizeX = none := by decide +kernel

end R3D

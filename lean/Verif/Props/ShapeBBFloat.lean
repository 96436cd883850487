import Verif.Props.BoxFloat
import Verif.Props.ShapeBB
/-!
C50 with doubles: the computed bounding boxes contain every double point of the exact shapes.
-/
namespace R3D
open Scalar Spec LawfulScalar F64

/-- the value of a point of doubles -/
noncomputable def Spec.val2 (p : Point2D F64) : Point2D ℝ := ⟨toR p.x, toR p.y⟩
noncomputable def Spec.val3 (p : Point3D F64) : Point3D ℝ := ⟨toR p.x, toR p.y, toR p.z⟩

/-- borders at a distance `r` from `c` -/
theorem border1 {c r : F64} (hc : F64.Num c) (hr : F64.Num r) (h0 : 0 ≤ toR r) :
    F64.ok (c - r) ∧ F64.ok (c + r) ∧ F64.key (c - r) ≤ F64.key (c + r) ∧
    ∀ p : F64, F64.Num p → |toR p - toR c| ≤ toR r → F64.key (c - r) ≤ F64.key p ∧ F64.key p ≤ F64.key (c + r) := by
  have h : ∀ p : F64, F64.Num p → |toR p - toR c| ≤ toR r → F64.key (c - r) ≤ F64.key p ∧ F64.key p ≤ F64.key (c + r) := by
    intro p hp h
    rw [abs_le] at h
    exact ⟨key_sub_le hc hr hp (by linarith [h.1]), le_key_add hc hr hp (by linarith [h.2])⟩
  have := h c hc (by rw [sub_self, abs_zero]; exact h0)
  exact ⟨ok_sub_fin hc.1 hr.1, ok_add_num hc hr, this.1.trans this.2, h⟩

/-- borders at half a size from `c` -/
theorem border2 {c s : F64} (hc : F64.Num c) (hs : F64.Num s) (h0 : 0 < toR s) :
    F64.ok (c - s / lit 2) ∧ F64.ok (c + s / lit 2) ∧ F64.key (c - s / lit 2) ≤ F64.key (c + s / lit 2) ∧
    ∀ p : F64, F64.Num p → |toR p - toR c| ≤ toR s / 2 →
      F64.key (c - s / lit 2) ≤ F64.key p ∧ F64.key p ≤ F64.key (c + s / lit 2) := by
  have hh := (toR_half hs).1
  have hz : (0:ℝ) ≤ toR (s / lit 2) := le_half hs ⟨0, by simp⟩ (by linarith)
  obtain ⟨h1, h2, h3, h4⟩ := border1 hc hh hz
  refine ⟨h1, h2, h3, fun p hp h => h4 p hp ?_⟩
  rw [abs_le] at h ⊢
  have m := hp.multR.sub hc.multR
  have a1 := le_half hs m h.2
  have a2 := le_half hs m.neg (by linarith [h.1])
  exact ⟨by linarith, a1⟩

/-- **C50** with doubles, partial (see `c50_violated_f64`): the bounding box of a sphere of finite doubles panics exactly if its computed
borders collapse; otherwise its borders are exact up to one rounding and it contains every double point of the exact ball. -/
theorem c50_sphere_f64_partial (s : Sphere F64) (hc : ∀ d, F64.Num (at3 s.center d)) (hr : F64.Num s.radius.val) (h0 : 0 < toR s.radius.val) :
    ∃ b : BoundingBox3D F64, (s.boundingBox = none ↔ ∃ d, F64.key (at3 b.min d) = F64.key (at3 b.max d)) ∧
      (s.boundingBox ≠ none → s.boundingBox = some b) ∧
      (∀ d, IsSum (at3 s.center d) (F64.neg s.radius.val) (at3 b.min d) ∧ IsSum (at3 s.center d) s.radius.val (at3 b.max d)) ∧
      ∀ p : Point3D F64, (∀ d, F64.Num (at3 p d)) → Spec.sqrDist (at3 (val3 p)) (at3 (val3 s.center)) ≤ toR s.radius.val ^ 2 →
        (box3 b).Mem (at3 p) := by
  classical
  obtain ⟨⟨cx, cy, cz⟩, ⟨r⟩⟩ := s
  simp only [forall_fin3, at3_zero, at3_one, at3_two] at hc
  dsimp only at hr h0
  obtain ⟨x1, x2, x3, x4⟩ := border1 hc.1 hr h0.le
  obtain ⟨y1, y2, y3, y4⟩ := border1 hc.2.1 hr h0.le
  obtain ⟨z1, z2, z3, z4⟩ := border1 hc.2.2 hr h0.le
  have key := new_toOption_3d (a := ⟨cx - r, cy - r, cz - r⟩) (b := ⟨cx + r, cy + r, cz + r⟩) (by
    simp only [forall_fin3, at3_zero, at3_one, at3_two]
    exact ⟨⟨x1, x2, x3⟩, ⟨y1, y2, y3⟩, z1, z2, z3⟩)
  refine ⟨⟨⟨cx - r, cy - r, cz - r⟩, ⟨cx + r, cy + r, cz + r⟩⟩, ?_, ?_, ?_, ?_⟩
  · show (BoundingBox3D.new _ _).toOption = none ↔ _
    rw [key]
    split_ifs with h <;> simp [h]
  · show (BoundingBox3D.new _ _).toOption ≠ none → (BoundingBox3D.new _ _).toOption = _
    rw [key]
    split_ifs with h <;> simp
  · simp only [forall_fin3, at3_zero, at3_one, at3_two]
    exact ⟨⟨isSum_add hc.1 hr.neg, isSum_add hc.1 hr⟩, ⟨isSum_add hc.2.1 hr.neg, isSum_add hc.2.1 hr⟩,
      isSum_add hc.2.2 hr.neg, isSum_add hc.2.2 hr⟩
  · intro p hp hd
    simp only [Spec.sqrDist, Fin.sum_univ_three, at3_zero, at3_one, at3_two, val3, forall_fin3] at hp hd
    simp only [Box.Mem, box3, forall_fin3, at3_zero, at3_one, at3_two]
    refine ⟨x4 _ hp.1 ?_, y4 _ hp.2.1 ?_, z4 _ hp.2.2 ?_⟩
    · exact abs_le_of_sq_le_sq (by nlinarith [sq_nonneg (toR p.y - toR cy), sq_nonneg (toR p.z - toR cz)]) h0.le
    · exact abs_le_of_sq_le_sq (by nlinarith [sq_nonneg (toR p.x - toR cx), sq_nonneg (toR p.z - toR cz)]) h0.le
    · exact abs_le_of_sq_le_sq (by nlinarith [sq_nonneg (toR p.x - toR cx), sq_nonneg (toR p.y - toR cy)]) h0.le

/-- **C50** with doubles, partial: the same for circles. -/
theorem c50_circle_f64_partial (s : Circle F64) (hc : ∀ d, F64.Num (at2 s.center d)) (hr : F64.Num s.radius.val) (h0 : 0 < toR s.radius.val) :
    ∃ b : BoundingBox2D F64, (s.boundingBox = none ↔ ∃ d, F64.key (at2 b.min d) = F64.key (at2 b.max d)) ∧
      (s.boundingBox ≠ none → s.boundingBox = some b) ∧
      (∀ d, IsSum (at2 s.center d) (F64.neg s.radius.val) (at2 b.min d) ∧ IsSum (at2 s.center d) s.radius.val (at2 b.max d)) ∧
      ∀ p : Point2D F64, (∀ d, F64.Num (at2 p d)) → Spec.sqrDist (at2 (val2 p)) (at2 (val2 s.center)) ≤ toR s.radius.val ^ 2 →
        (box2 b).Mem (at2 p) := by
  classical
  obtain ⟨⟨cx, cy⟩, ⟨r⟩⟩ := s
  simp only [Fin.forall_fin_two, at2_zero, at2_one] at hc
  dsimp only at hr h0
  obtain ⟨x1, x2, x3, x4⟩ := border1 hc.1 hr h0.le
  obtain ⟨y1, y2, y3, y4⟩ := border1 hc.2 hr h0.le
  have key := new_toOption_2d (a := ⟨cx - r, cy - r⟩) (b := ⟨cx + r, cy + r⟩) (by
    simp only [Fin.forall_fin_two, at2_zero, at2_one]
    exact ⟨⟨x1, x2, x3⟩, y1, y2, y3⟩)
  refine ⟨⟨⟨cx - r, cy - r⟩, ⟨cx + r, cy + r⟩⟩, ?_, ?_, ?_, ?_⟩
  · show (BoundingBox2D.new _ _).toOption = none ↔ _
    rw [key]
    split_ifs with h <;> simp [h]
  · show (BoundingBox2D.new _ _).toOption ≠ none → (BoundingBox2D.new _ _).toOption = _
    rw [key]
    split_ifs with h <;> simp
  · simp only [Fin.forall_fin_two, at2_zero, at2_one]
    exact ⟨⟨isSum_add hc.1 hr.neg, isSum_add hc.1 hr⟩, isSum_add hc.2 hr.neg, isSum_add hc.2 hr⟩
  · intro p hp hd
    simp only [Spec.sqrDist, Fin.sum_univ_two, at2_zero, at2_one, val2, Fin.forall_fin_two] at hp hd
    simp only [Box.Mem, box2, Fin.forall_fin_two, at2_zero, at2_one]
    refine ⟨x4 _ hp.1 ?_, y4 _ hp.2 ?_⟩
    · exact abs_le_of_sq_le_sq (by nlinarith [sq_nonneg (toR p.y - toR cy)]) h0.le
    · exact abs_le_of_sq_le_sq (by nlinarith [sq_nonneg (toR p.x - toR cx)]) h0.le

/-- `m` is the border at half the size `s` from `c` up to two roundings -/
def Spec.IsBorder (c s m lim : F64) : Prop :=
  F64.ok m ∧ ∃ h, F64.Num h ∧ |toR h - toR s / 2| ≤ 2 ^ (-1075 : ℤ) ∧ IsSum c (F64.neg h) m ∧ IsSum c h lim

theorem isBorder {c s : F64} (hc : F64.Num c) (hs : F64.Num s) : IsBorder c s (c - s / lit 2) (c + s / lit 2) :=
  ⟨ok_sub_fin hc.1 (toR_half hs).1.1, _, (toR_half hs).1, (toR_half hs).2, isSum_add hc (toR_half hs).1.neg, isSum_add hc (toR_half hs).1⟩

/-- **C50** with doubles, partial: the same for `Box2D`, although half the size may be rounded too. -/
theorem c50_box2d_f64_partial (s : Box2D F64) (hc : ∀ d, F64.Num (at2 s.center d)) (hx : F64.Num s.sizeX.val) (hy : F64.Num s.sizeY.val)
    (hx0 : 0 < toR s.sizeX.val) (hy0 : 0 < toR s.sizeY.val) :
    ∃ b : BoundingBox2D F64, (s.boundingBox = none ↔ ∃ d, F64.key (at2 b.min d) = F64.key (at2 b.max d)) ∧
      (s.boundingBox ≠ none → s.boundingBox = some b) ∧
      (∀ d, IsBorder (at2 s.center d) (at2 ⟨s.sizeX.val, s.sizeY.val⟩ d) (at2 b.min d) (at2 b.max d)) ∧
      ∀ p : Point2D F64, (∀ d, F64.Num (at2 p d)) →
        (∀ d, |toR (at2 p d) - toR (at2 s.center d)| ≤ toR (at2 ⟨s.sizeX.val, s.sizeY.val⟩ d) / 2) → (box2 b).Mem (at2 p) := by
  classical
  obtain ⟨⟨cx, cy⟩, ⟨sx⟩, ⟨sy⟩⟩ := s
  simp only [Fin.forall_fin_two, at2_zero, at2_one] at hc
  dsimp only at hx hy hx0 hy0
  obtain ⟨x1, x2, x3, x4⟩ := border2 hc.1 hx hx0
  obtain ⟨y1, y2, y3, y4⟩ := border2 hc.2 hy hy0
  have key := new_toOption_2d (a := ⟨cx - sx / lit 2, cy - sy / lit 2⟩) (b := ⟨cx + sx / lit 2, cy + sy / lit 2⟩) (by
    simp only [Fin.forall_fin_two, at2_zero, at2_one]
    exact ⟨⟨x1, x2, x3⟩, y1, y2, y3⟩)
  refine ⟨⟨⟨cx - sx / lit 2, cy - sy / lit 2⟩, ⟨cx + sx / lit 2, cy + sy / lit 2⟩⟩, ?_, ?_, ?_, ?_⟩
  · show (BoundingBox2D.new _ _).toOption = none ↔ _
    rw [key]
    split_ifs with h <;> simp [h]
  · show (BoundingBox2D.new _ _).toOption ≠ none → (BoundingBox2D.new _ _).toOption = _
    rw [key]
    split_ifs with h <;> simp
  · simp only [Fin.forall_fin_two, at2_zero, at2_one]
    exact ⟨isBorder hc.1 hx, isBorder hc.2 hy⟩
  · intro p hp hd
    simp only [at2_zero, at2_one, Fin.forall_fin_two] at hp hd
    simp only [Box.Mem, box2, Fin.forall_fin_two, at2_zero, at2_one]
    exact ⟨x4 _ hp.1 hd.1, y4 _ hp.2 hd.2⟩

/-- **C50** with doubles, partial: the same for `Box3D`. -/
theorem c50_box3d_f64_partial (s : Box3D F64) (hc : ∀ d, F64.Num (at3 s.center d))
    (hs : ∀ d, F64.Num (at3 ⟨s.sizeX.val, s.sizeY.val, s.sizeZ.val⟩ d) ∧ 0 < toR (at3 ⟨s.sizeX.val, s.sizeY.val, s.sizeZ.val⟩ d)) :
    ∃ b : BoundingBox3D F64, (s.boundingBox = none ↔ ∃ d, F64.key (at3 b.min d) = F64.key (at3 b.max d)) ∧
      (s.boundingBox ≠ none → s.boundingBox = some b) ∧
      (∀ d, IsBorder (at3 s.center d) (at3 ⟨s.sizeX.val, s.sizeY.val, s.sizeZ.val⟩ d) (at3 b.min d) (at3 b.max d)) ∧
      ∀ p : Point3D F64, (∀ d, F64.Num (at3 p d)) →
        (∀ d, |toR (at3 p d) - toR (at3 s.center d)| ≤ toR (at3 ⟨s.sizeX.val, s.sizeY.val, s.sizeZ.val⟩ d) / 2) →
        (box3 b).Mem (at3 p) := by
  classical
  obtain ⟨⟨cx, cy, cz⟩, ⟨sx⟩, ⟨sy⟩, ⟨sz⟩⟩ := s
  simp only [forall_fin3, at3_zero, at3_one, at3_two] at hc hs
  obtain ⟨⟨hx, hx0⟩, ⟨hy, hy0⟩, hz, hz0⟩ := hs
  obtain ⟨x1, x2, x3, x4⟩ := border2 hc.1 hx hx0
  obtain ⟨y1, y2, y3, y4⟩ := border2 hc.2.1 hy hy0
  obtain ⟨z1, z2, z3, z4⟩ := border2 hc.2.2 hz hz0
  have key := new_toOption_3d (a := ⟨cx - sx / lit 2, cy - sy / lit 2, cz - sz / lit 2⟩)
    (b := ⟨cx + sx / lit 2, cy + sy / lit 2, cz + sz / lit 2⟩) (by
    simp only [forall_fin3, at3_zero, at3_one, at3_two]
    exact ⟨⟨x1, x2, x3⟩, ⟨y1, y2, y3⟩, z1, z2, z3⟩)
  refine ⟨⟨⟨cx - sx / lit 2, cy - sy / lit 2, cz - sz / lit 2⟩, ⟨cx + sx / lit 2, cy + sy / lit 2, cz + sz / lit 2⟩⟩, ?_, ?_, ?_, ?_⟩
  · show (BoundingBox3D.new _ _).toOption = none ↔ _
    rw [key]
    split_ifs with h <;> simp [h]
  · show (BoundingBox3D.new _ _).toOption ≠ none → (BoundingBox3D.new _ _).toOption = _
    rw [key]
    split_ifs with h <;> simp
  · simp only [forall_fin3, at3_zero, at3_one, at3_two]
    exact ⟨isBorder hc.1 hx, isBorder hc.2.1 hy, isBorder hc.2.2 hz⟩
  · intro p hp hd
    simp only [at3_zero, at3_one, at3_two, forall_fin3] at hp hd
    simp only [Box.Mem, box3, forall_fin3, at3_zero, at3_one, at3_two]
    exact ⟨x4 _ hp.1 hd.1, y4 _ hp.2.1 hd.2.1, z4 _ hp.2.2 hd.2.2⟩

/-- **C50** violated with doubles: `bounding_box` panics for small shapes far from the origin. -/
theorem c50_violated_f64 :
    (∃ s : Sphere F64, Positive.new s.radius.val = some s.radius ∧ s.boundingBox = none) ∧
    (∃ s : Circle F64, Positive.new s.radius.val = some s.radius ∧ s.boundingBox = none) ∧
    (∃ s : Box2D F64, Positive.new s.sizeX.val = some s.sizeX ∧ Positive.new s.sizeY.val = some s.sizeY ∧ s.boundingBox = none) ∧
    (∃ s : Box3D F64, Positive.new s.sizeX.val = some s.sizeX ∧ Positive.new s.sizeY.val = some s.sizeY ∧
      Positive.new s.sizeZ.val = some s.sizeZ ∧ s.boundingBox = none) :=
  ⟨⟨⟨⟨f 0, f 0, f (2 ^ 60)⟩, ⟨f 1⟩⟩, by decide +kernel, by decide +kernel⟩,
    ⟨⟨⟨f 0, f (2 ^ 60)⟩, ⟨f 1⟩⟩, by decide +kernel, by decide +kernel⟩,
    ⟨⟨⟨f 0, f (2 ^ 60)⟩, ⟨f 1⟩, ⟨f 1⟩⟩, by decide +kernel, by decide +kernel, by decide +kernel⟩,
    ⟨⟨⟨f 0, f 0, f (2 ^ 60)⟩, ⟨f 1⟩, ⟨f 1⟩, ⟨f 1⟩⟩, by decide +kernel, by decide +kernel, by decide +kernel, by decide +kernel⟩⟩

/-- the hypotheses are met, and the box exists, for a sphere with a radius that is no short binary fraction -/
example : ∃ s : Sphere F64, (∀ d, F64.Num (at3 s.center d)) ∧ F64.Num s.radius.val ∧ 0 < toR s.radius.val ∧ s.boundingBox ≠ none := by
  have h0 := ex_num 0 false 0 (by decide +kernel)
  have h1 := ex_num 1 false 1 (by decide +kernel)
  have h2 := ex_num (1/10) false (3602879701896397 / 36028797018963968) (by decide +kernel)
  refine ⟨⟨⟨f 0, f 1, f 0⟩, ⟨f (1/10)⟩⟩, ?_, h2.1, ?_, by decide +kernel⟩
  · simp only [forall_fin3, at3_zero, at3_one, at3_two]
    exact ⟨h0.1, h1.1, h0.1⟩
  · show 0 < toR (f (1/10))
    rw [h2.2]; norm_num [val]

/-- boxes with finite positive sizes -/
example : ∃ (b : Box2D F64) (c : Box3D F64), (∀ d, F64.Num (at2 b.center d)) ∧ F64.Num b.sizeX.val ∧ 0 < toR b.sizeX.val ∧
    (∀ d, F64.Num (at3 c.center d)) ∧
    (∀ d, F64.Num (at3 ⟨c.sizeX.val, c.sizeY.val, c.sizeZ.val⟩ d) ∧ 0 < toR (at3 ⟨c.sizeX.val, c.sizeY.val, c.sizeZ.val⟩ d)) ∧
    b.boundingBox ≠ none ∧ c.boundingBox ≠ none := by
  have h1 := ex_num 1 false 1 (by decide +kernel)
  have h2 := ex_num (1/10) false (3602879701896397 / 36028797018963968) (by decide +kernel)
  have p : 0 < toR (f (1/10)) := by rw [h2.2]; norm_num [val]
  refine ⟨⟨⟨f 1, f 1⟩, ⟨f (1/10)⟩, ⟨f (1/10)⟩⟩, ⟨⟨f 1, f 1, f 1⟩, ⟨f (1/10)⟩, ⟨f (1/10)⟩, ⟨f (1/10)⟩⟩, ?_, h2.1, p, ?_, ?_,
    by decide +kernel, by decide +kernel⟩
  · rw [Fin.forall_fin_two]; exact ⟨h1.1, h1.1⟩
  · simp only [forall_fin3, at3_zero, at3_one, at3_two]; exact ⟨h1.1, h1.1, h1.1⟩
  · simp only [forall_fin3, at3_zero, at3_one, at3_two]; exact ⟨⟨h2.1, p⟩, ⟨h2.1, p⟩, h2.1, p⟩

end R3D

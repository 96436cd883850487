import Verif.Lemmas.BoundingBoxReal
import Verif.Props.BoundingBox
import Mathlib.Algebra.BigOperators.Fin
/-
C18 collision, C19 distances, C20 crossing (dense order), C21 move / scale of bounding boxes, exact
arithmetic; binary64 witnesses where rounding breaks the claim.
-/
namespace R3D
open Scalar LawfulScalar Spec

/-! ## 2D -/

theorem valid_real_2d (b : BoundingBox2D ℝ) :
    (box2 b).Valid ↔ b.min.x < b.max.x ∧ b.min.y < b.max.y := by
  simp only [Box.Valid, Box.Ok, Fin.forall_fin_two, at2_zero, at2_one, box2, Real.key_lt]
  simp [LawfulScalar.ok]

theorem sizes_real_2d (b : BoundingBox2D ℝ) (h : (box2 b).Valid) :
    b.sizeX = some ⟨b.max.x - b.min.x⟩ ∧ b.sizeY = some ⟨b.max.y - b.min.y⟩ := by
  rw [valid_real_2d] at h
  exact ⟨size_real h.1, size_real h.2⟩

/-- C18 (2D): the collision test never panics on valid boxes and is true exactly when the interiors
share a point. -/
theorem c18_collides_2d (a b : BoundingBox2D ℝ) (ha : (box2 a).Valid) (hb : (box2 b).Valid) :
    ∃ r, a.collidesWith b = some r ∧
      (r = true ↔ ∃ p, (box2 a).MemInt p ∧ (box2 b).MemInt p) := by
  have sa := sizes_real_2d a ha
  have sb := sizes_real_2d b hb
  rw [valid_real_2d] at ha hb
  have ox := overlap_real ha.1 hb.1
  have oy := overlap_real ha.2 hb.2
  have key : (∃ p, (box2 a).MemInt p ∧ (box2 b).MemInt p) ↔
      (∃ x, (a.min.x < x ∧ x < a.max.x) ∧ (b.min.x < x ∧ x < b.max.x)) ∧ (∃ x, (a.min.y < x ∧ x < a.max.y) ∧ (b.min.y < x ∧ x < b.max.y)) := by
    simp only [Box.MemInt, Fin.forall_fin_two, at2_zero, at2_one, box2, Real.key_lt]
    constructor
    · rintro ⟨p, hp⟩
      exact ⟨⟨p 0, by tauto⟩, ⟨p 1, by tauto⟩⟩
    · rintro ⟨⟨x, hx⟩, ⟨y, hy⟩⟩
      refine ⟨![x, y], ?_⟩
      simp
      tauto
  rw [key]
  rw [← ox, ← oy]
  simp only [BoundingBox2D.collidesWith, sa, sb, Option.bind_eq_bind, Option.bind_some, BoundingBox2D.centerBB, Positive.add,
    Real.scalar_lit, Real.scalar_abs, Real.scalar_lt, Rat.cast_ofNat, decide_eq_true_eq, Option.pure_def]
  split_ifs <;> simp_all

/-- C18 (2D): symmetric, reflexive and monotone. -/
theorem c18_collides_relation_2d (a b : BoundingBox2D ℝ) (ha : (box2 a).Valid) (hb : (box2 b).Valid) :
    a.collidesWith b = b.collidesWith a ∧ a.collidesWith a = some true ∧
    ∀ a' b' : BoundingBox2D ℝ, (box2 a').Valid → (box2 b').Valid → (box2 a').Encloses (box2 a) →
      (box2 b').Encloses (box2 b) → a.collidesWith b = some true → a'.collidesWith b' = some true := by
  obtain ⟨r, h1, h2⟩ := c18_collides_2d a b ha hb
  obtain ⟨r', h1', h2'⟩ := c18_collides_2d b a hb ha
  obtain ⟨r'', h1'', h2''⟩ := c18_collides_2d a a ha ha
  refine ⟨?_, ?_, ?_⟩
  · rw [h1, h1']
    have : r = true ↔ r' = true := by rw [h2, h2']; exact exists_congr fun p => and_comm
    simpa using Bool.eq_iff_iff.2 this
  · rw [h1'']
    congr 1
    rw [h2'']
    have hv := (valid_real_2d a).1 ha
    refine ⟨![(a.min.x + a.max.x) / 2, (a.min.y + a.max.y) / 2], ?_⟩
    simp only [and_self, Box.MemInt, Fin.forall_fin_two, at2_zero, at2_one, box2, Real.key_lt]
    simp
    refine ⟨⟨?_, ?_⟩, ⟨?_, ?_⟩⟩ <;> linarith [hv.1, hv.2]
  · intro a' b' ha' hb' e1 e2 h
    obtain ⟨s, k1, k2⟩ := c18_collides_2d a' b' ha' hb'
    rw [h1] at h
    obtain ⟨p, p1, p2⟩ := h2.1 (by simpa using h)
    rw [k1]
    congr 1
    rw [k2]
    exact ⟨p, fun d => ⟨lt_of_le_of_lt (e1 d).1 (p1 d).1, lt_of_lt_of_le (p1 d).2 (e1 d).2⟩,
      fun d => ⟨lt_of_le_of_lt (e2 d).1 (p2 d).1, lt_of_lt_of_le (p2 d).2 (e2 d).2⟩⟩

/-- C19 (2D): distance of a point to a box. -/
theorem c19_point_distance_2d (b : BoundingBox2D ℝ) (hb : (box2 b).Valid) (p : Point2D ℝ) :
    ∃ v, b.sqrDistance p = some ⟨v⟩ ∧ b.distance p = some ⟨√v⟩ ∧
      IsLeast {r | ∃ q, (box2 b).Mem q ∧ r = Spec.sqrDist (at2 p) q} v ∧
      IsLeast {r | ∃ q, (box2 b).Mem q ∧ r = √(Spec.sqrDist (at2 p) q)} (√v) ∧
      (v = 0 ↔ (box2 b).Mem (at2 p)) := by
  rw [valid_real_2d] at hb
  have hle : b.min.x ≤ b.max.x ∧ b.min.y ≤ b.max.y := ⟨hb.1.le, hb.2.le⟩
  set c : Fin 2 → ℝ := ![clamp b.min.x p.x b.max.x, clamp b.min.y p.y b.max.y] with hc
  have hmem : (box2 b).Mem c := by
    simp only [Box.Mem, Fin.forall_fin_two, at2_zero, at2_one, box2, Real.key_le, hc]
    exact ⟨clamp_mem hle.1, clamp_mem hle.2⟩
  have hbest : ∀ q, (box2 b).Mem q → Spec.sqrDist (at2 p) c ≤ Spec.sqrDist (at2 p) q := by
    intro q hq
    simp only [Box.Mem, Fin.forall_fin_two, at2_zero, at2_one, box2, Real.key_le] at hq
    simp only [Spec.sqrDist, Fin.sum_univ_two, at2_zero, at2_one]
    exact add_le_add (clamp_best hle.1 hq.1.1 hq.1.2) (clamp_best hle.2 hq.2.1 hq.2.2)
  have hnn : 0 ≤ Spec.sqrDist (at2 p) c := Finset.sum_nonneg fun _ _ => sq_nonneg _
  have hv : b.sqrDistance p = some ⟨Spec.sqrDist (at2 p) c⟩ := by
    simp only [BoundingBox2D.sqrDistance]
    rw [clamp_dist hle.1, clamp_dist hle.2]
    simp only [Spec.sqrDist, Fin.sum_univ_two, at2_zero, at2_one] at hnn ⊢
    exact NonNegative.new_real _ hnn
  refine ⟨Spec.sqrDist (at2 p) c, hv, ?_, ⟨⟨c, hmem, rfl⟩, ?_⟩, ⟨⟨c, hmem, rfl⟩, ?_⟩, ?_⟩
  · simp only [BoundingBox2D.distance, hv, Option.bind_eq_bind, Option.bind_some, Real.scalar_sqrt]
    exact NonNegative.new_real _ (Real.sqrt_nonneg _)
  · rintro r ⟨q, hq, rfl⟩
    exact hbest q hq
  · rintro r ⟨q, hq, rfl⟩
    exact Real.sqrt_le_sqrt (hbest q hq)
  · constructor
    · intro h0
      have : ∀ d, at2 p d = c d := by
        intro d
        have h := (Finset.sum_eq_zero_iff_of_nonneg (fun _ _ => sq_nonneg _)).1 h0 d (Finset.mem_univ d)
        exact sub_eq_zero.1 (pow_eq_zero_iff (two_ne_zero) |>.1 h)
      have e : at2 p = c := funext this
      rw [e]
      exact hmem
    · intro hp
      refine le_antisymm ((hbest _ hp).trans ?_) hnn
      simp [Spec.sqrDist]

/-- C19 (2D): distance of two boxes. -/
theorem c19_box_distance_2d (a b : BoundingBox2D ℝ) (ha : (box2 a).Valid) (hb : (box2 b).Valid) :
    ∃ v, a.sqrDistanceBB b = some ⟨v⟩ ∧
      IsLeast {r | ∃ p q, (box2 a).Mem p ∧ (box2 b).Mem q ∧ r = Spec.sqrDist p q} v ∧
      (v = 0 ↔ ∃ p, (box2 a).Mem p ∧ (box2 b).Mem p) := by
  rw [valid_real_2d] at ha hb
  obtain ⟨px, qx, mx, nx, ex, fx⟩ := gap_real ha.1.le hb.1.le
  obtain ⟨py, qy, my, ny, ey, fy⟩ := gap_real ha.2.le hb.2.le
  set P : Fin 2 → ℝ := ![px, py] with hP
  set Q : Fin 2 → ℝ := ![qx, qy] with hQ
  have memP : (box2 a).Mem P := by
    simp only [Box.Mem, Fin.forall_fin_two, at2_zero, at2_one, box2, Real.key_le, hP]
    exact ⟨mx, my⟩
  have memQ : (box2 b).Mem Q := by
    simp only [Box.Mem, Fin.forall_fin_two, at2_zero, at2_one, box2, Real.key_le, hQ]
    exact ⟨nx, ny⟩
  have hbest : ∀ p q, (box2 a).Mem p → (box2 b).Mem q → Spec.sqrDist P Q ≤ Spec.sqrDist p q := by
    intro p q hp hq
    simp only [Box.Mem, Fin.forall_fin_two, at2_zero, at2_one, box2, Real.key_le] at hp hq
    simp only [Spec.sqrDist, Fin.sum_univ_two, at2_zero, at2_one]
    exact add_le_add (fx _ _ hp.1.1 hp.1.2 hq.1.1 hq.1.2) (fy _ _ hp.2.1 hp.2.2 hq.2.1 hq.2.2)
  have hnn : 0 ≤ Spec.sqrDist P Q := Finset.sum_nonneg fun _ _ => sq_nonneg _
  refine ⟨Spec.sqrDist P Q, ?_, ⟨⟨P, Q, memP, memQ, rfl⟩, ?_⟩, ?_⟩
  · simp only [BoundingBox2D.sqrDistanceBB]
    rw [ex, ey]
    simp only [Spec.sqrDist, Fin.sum_univ_two, at2_zero, at2_one] at hnn ⊢
    exact NonNegative.new_real _ hnn
  · rintro r ⟨p, q, hp, hq, rfl⟩
    exact hbest p q hp hq
  · constructor
    · intro h0
      have : ∀ d, P d = Q d := by
        intro d
        have h := (Finset.sum_eq_zero_iff_of_nonneg (fun _ _ => sq_nonneg _)).1 h0 d (Finset.mem_univ d)
        exact sub_eq_zero.1 (pow_eq_zero_iff (two_ne_zero) |>.1 h)
      have e : P = Q := funext this
      exact ⟨P, memP, e ▸ memQ⟩
    · rintro ⟨p, hp, hq⟩
      refine le_antisymm ((hbest p p hp hq).trans ?_) hnn
      simp [Spec.sqrDist]

/-- C20 (2D): for a valid box a value is crossed exactly when a contained point has that coordinate. -/
theorem c20_crossing_real_2d (b : BoundingBox2D ℝ) (hb : (box2 b).Valid) :
    (∀ v, b.crossingXValue v = true ↔ ∃ p, b.contains p = true ∧ p.x = v) ∧
    (∀ v, b.crossingYValue v = true ↔ ∃ p, b.contains p = true ∧ p.y = v) := by
  have h := c20_containment_2d b b b
  rw [valid_real_2d] at hb
  have ex : ∃ w, b.crossingXValue w = true := by
    refine ⟨(b.min.x + b.max.x) / 2, ?_⟩
    have := hb.1
    simp only [BoundingBox2D.crossingXValue, Real.scalar_lt, Bool.and_eq_true, decide_eq_true_eq]
    constructor <;> linarith
  have ey : ∃ w, b.crossingYValue w = true := by
    refine ⟨(b.min.y + b.max.y) / 2, ?_⟩
    have := hb.2
    simp only [BoundingBox2D.crossingYValue, Real.scalar_lt, Bool.and_eq_true, decide_eq_true_eq]
    constructor <;> linarith
  exact ⟨fun v => ⟨fun hv => (h.2.2.2.2.2.2.2.1 v).2 ⟨hv, ey⟩, fun hv => ((h.2.2.2.2.2.2.2.1 v).1 hv).1⟩,
    fun v => ⟨fun hv => (h.2.2.2.2.2.2.2.2 v).2 ⟨hv, ex⟩, fun hv => ((h.2.2.2.2.2.2.2.2 v).1 hv).1⟩⟩

/-- C21 specification (2D): the mutating operations. -/
inductive BoxOp2 where
  | move (dx dy : ℝ)
  | scale (factor : ℝ)
  | consume (o : BoundingBox2D ℝ)
  | combine (o : BoundingBox2D ℝ)

/-- admissible operations: positive factor, valid other box -/
def BoxOp2.Admissible : BoxOp2 → Prop
  | .move _ _ => True
  | .scale f => 0 < f
  | .consume o => (box2 o).Valid
  | .combine o => (box2 o).Valid

/-- one operation of the library -/
noncomputable def BoxOp2.run (b : BoundingBox2D ℝ) : BoxOp2 → Panics (BoundingBox2D ℝ)
  | .move dx dy => some (b.moveBy dx dy)
  | .scale f => b.scale ⟨f⟩
  | .consume o => some (b.consume o)
  | .combine o => some (b.combine o)

/-- C21 (2D): moving keeps the sizes, scaling keeps the center and multiplies the sizes. -/
theorem c21_move_scale_2d (b : BoundingBox2D ℝ) (hb : (box2 b).Valid) :
    (∀ dx dy, (box2 (b.moveBy dx dy)).Valid ∧ ∀ d, (box2 (b.moveBy dx dy)).hi d - (box2 (b.moveBy dx dy)).lo d
        = (box2 b).hi d - (box2 b).lo d ∧
        (box2 (b.moveBy dx dy)).lo d = (box2 b).lo d + ![dx, dy] d) ∧
    ∀ f, 0 < f → ∃ b', b.scale ⟨f⟩ = some b' ∧ (box2 b').Valid ∧ b'.centerBB = b.centerBB ∧
      ∀ d, (box2 b').hi d - (box2 b').lo d = f * ((box2 b).hi d - (box2 b).lo d) := by
  have hs := sizes_real_2d b hb
  rw [valid_real_2d] at hb
  constructor
  · intro dx dy
    rw [valid_real_2d]
    simp only [BoundingBox2D.moveBy, Point2D.moveBy, Fin.forall_fin_two, at2_zero, at2_one, box2]
    refine ⟨⟨by linarith [hb.1], by linarith [hb.2]⟩, ⟨by ring, by simp⟩, ⟨by ring, by simp⟩⟩
  · intro f hf
    have hm : 0 < f * (b.max.x - b.min.x) ∧ 0 < f * (b.max.y - b.min.y) :=
      ⟨mul_pos hf (sub_pos.2 hb.1), mul_pos hf (sub_pos.2 hb.2)⟩
    refine ⟨_, by simp only [BoundingBox2D.scale, hs, Option.bind_eq_bind, Option.bind_some, Option.pure_def]; rfl, ?_, ?_, ?_⟩
    · rw [valid_real_2d]
      simp only [BoundingBox2D.centerBB, Real.scalar_lit]
      push_cast
      refine ⟨by linarith [hm.1], by linarith [hm.2]⟩
    · simp only [BoundingBox2D.centerBB, Real.scalar_lit]
      push_cast
      congr 1 <;> ring
    · simp only [Fin.forall_fin_two, at2_zero, at2_one, box2, BoundingBox2D.centerBB, Real.scalar_lit]
      push_cast
      refine ⟨by ring, by ring⟩

/-- C21 (2D), exact arithmetic: every sequence of operations on valid boxes succeeds with a valid box
whose size accessors do not panic. Missing for the full statement: binary64, where it is false
(`c21_violated_2d`). -/
theorem c21_history_valid_2d_partial (ops : List BoxOp2) (hops : ∀ o ∈ ops, o.Admissible) :
    ∀ b : BoundingBox2D ℝ, (box2 b).Valid → ∃ b', ops.foldlM BoxOp2.run b = some b' ∧ (box2 b').Valid ∧
      b'.sizeX ≠ none ∧ b'.sizeY ≠ none := by
  induction ops with
  | nil =>
    intro b hb
    refine ⟨b, rfl, hb, ?_⟩
    have hs := sizes_real_2d b hb
    simp [hs]
  | cons o ops ih =>
    intro b hb
    have ho := hops o (by simp)
    have step : ∃ b1, o.run b = some b1 ∧ (box2 b1).Valid := by
      cases o with
      | move dx dy => exact ⟨_, rfl, ((c21_move_scale_2d b hb).1 dx dy).1⟩
      | scale f =>
        obtain ⟨b', h1, h2, _⟩ := (c21_move_scale_2d b hb).2 f ho
        exact ⟨b', h1, h2⟩
      | consume o =>
        have h := c17_combine_2d b o hb ho
        exact ⟨_, rfl, by rw [h.2.2.2.2.1]; exact h.1⟩
      | combine o => exact ⟨_, rfl, (c17_combine_2d b o hb ho).1⟩
    obtain ⟨b1, h1, h2⟩ := step
    obtain ⟨b', h3, h4⟩ := ih (fun o h => hops o (by simp [h])) b1 h2
    exact ⟨b', by rw [List.foldlM_cons, h1]; exact h3, h4⟩

/-! ## 3D -/

theorem valid_real_3d (b : BoundingBox3D ℝ) :
    (box3 b).Valid ↔ b.min.x < b.max.x ∧ b.min.y < b.max.y ∧ b.min.z < b.max.z := by
  simp only [Box.Valid, Box.Ok, forall_fin3, at3_zero, at3_one, at3_two, box3, Real.key_lt]
  simp [LawfulScalar.ok]

theorem sizes_real_3d (b : BoundingBox3D ℝ) (h : (box3 b).Valid) :
    b.sizeX = some ⟨b.max.x - b.min.x⟩ ∧ b.sizeY = some ⟨b.max.y - b.min.y⟩ ∧ b.sizeZ = some ⟨b.max.z - b.min.z⟩ := by
  rw [valid_real_3d] at h
  exact ⟨size_real h.1, size_real h.2.1, size_real h.2.2⟩

/-- C18 (3D): the collision test never panics on valid boxes and is true exactly when the interiors
share a point. -/
theorem c18_collides_3d (a b : BoundingBox3D ℝ) (ha : (box3 a).Valid) (hb : (box3 b).Valid) :
    ∃ r, a.collidesWith b = some r ∧
      (r = true ↔ ∃ p, (box3 a).MemInt p ∧ (box3 b).MemInt p) := by
  have sa := sizes_real_3d a ha
  have sb := sizes_real_3d b hb
  rw [valid_real_3d] at ha hb
  have ox := overlap_real ha.1 hb.1
  have oy := overlap_real ha.2.1 hb.2.1
  have oz := overlap_real ha.2.2 hb.2.2
  have key : (∃ p, (box3 a).MemInt p ∧ (box3 b).MemInt p) ↔
      (∃ x, (a.min.x < x ∧ x < a.max.x) ∧ (b.min.x < x ∧ x < b.max.x)) ∧ (∃ x, (a.min.y < x ∧ x < a.max.y) ∧ (b.min.y < x ∧ x < b.max.y)) ∧ (∃ x, (a.min.z < x ∧ x < a.max.z) ∧ (b.min.z < x ∧ x < b.max.z)) := by
    simp only [Box.MemInt, forall_fin3, at3_zero, at3_one, at3_two, box3, Real.key_lt]
    constructor
    · rintro ⟨p, hp⟩
      exact ⟨⟨p 0, by tauto⟩, ⟨p 1, by tauto⟩, ⟨p 2, by tauto⟩⟩
    · rintro ⟨⟨x, hx⟩, ⟨y, hy⟩, ⟨z, hz⟩⟩
      refine ⟨![x, y, z], ?_⟩
      simp
      tauto
  rw [key]
  rw [← ox, ← oy, ← oz]
  simp only [BoundingBox3D.collidesWith, sa, sb, Option.bind_eq_bind, Option.bind_some, BoundingBox3D.centerBB, Positive.add,
    Real.scalar_lit, Real.scalar_abs, Real.scalar_lt, Rat.cast_ofNat, decide_eq_true_eq, Option.pure_def]
  split_ifs <;> simp_all

/-- C18 (3D): symmetric, reflexive and monotone. -/
theorem c18_collides_relation_3d (a b : BoundingBox3D ℝ) (ha : (box3 a).Valid) (hb : (box3 b).Valid) :
    a.collidesWith b = b.collidesWith a ∧ a.collidesWith a = some true ∧
    ∀ a' b' : BoundingBox3D ℝ, (box3 a').Valid → (box3 b').Valid → (box3 a').Encloses (box3 a) →
      (box3 b').Encloses (box3 b) → a.collidesWith b = some true → a'.collidesWith b' = some true := by
  obtain ⟨r, h1, h2⟩ := c18_collides_3d a b ha hb
  obtain ⟨r', h1', h2'⟩ := c18_collides_3d b a hb ha
  obtain ⟨r'', h1'', h2''⟩ := c18_collides_3d a a ha ha
  refine ⟨?_, ?_, ?_⟩
  · rw [h1, h1']
    have : r = true ↔ r' = true := by rw [h2, h2']; exact exists_congr fun p => and_comm
    simpa using Bool.eq_iff_iff.2 this
  · rw [h1'']
    congr 1
    rw [h2'']
    have hv := (valid_real_3d a).1 ha
    refine ⟨![(a.min.x + a.max.x) / 2, (a.min.y + a.max.y) / 2, (a.min.z + a.max.z) / 2], ?_⟩
    simp only [and_self, Box.MemInt, forall_fin3, at3_zero, at3_one, at3_two, box3, Real.key_lt]
    simp
    refine ⟨⟨?_, ?_⟩, ⟨?_, ?_⟩, ⟨?_, ?_⟩⟩ <;> linarith [hv.1, hv.2.1, hv.2.2]
  · intro a' b' ha' hb' e1 e2 h
    obtain ⟨s, k1, k2⟩ := c18_collides_3d a' b' ha' hb'
    rw [h1] at h
    obtain ⟨p, p1, p2⟩ := h2.1 (by simpa using h)
    rw [k1]
    congr 1
    rw [k2]
    exact ⟨p, fun d => ⟨lt_of_le_of_lt (e1 d).1 (p1 d).1, lt_of_lt_of_le (p1 d).2 (e1 d).2⟩,
      fun d => ⟨lt_of_le_of_lt (e2 d).1 (p2 d).1, lt_of_lt_of_le (p2 d).2 (e2 d).2⟩⟩

/-- C19 (3D): distance of a point to a box. -/
theorem c19_point_distance_3d (b : BoundingBox3D ℝ) (hb : (box3 b).Valid) (p : Point3D ℝ) :
    ∃ v, b.sqrDistance p = some ⟨v⟩ ∧ b.distance p = some ⟨√v⟩ ∧
      IsLeast {r | ∃ q, (box3 b).Mem q ∧ r = Spec.sqrDist (at3 p) q} v ∧
      IsLeast {r | ∃ q, (box3 b).Mem q ∧ r = √(Spec.sqrDist (at3 p) q)} (√v) ∧
      (v = 0 ↔ (box3 b).Mem (at3 p)) := by
  rw [valid_real_3d] at hb
  have hle : b.min.x ≤ b.max.x ∧ b.min.y ≤ b.max.y ∧ b.min.z ≤ b.max.z := ⟨hb.1.le, hb.2.1.le, hb.2.2.le⟩
  set c : Fin 3 → ℝ := ![clamp b.min.x p.x b.max.x, clamp b.min.y p.y b.max.y, clamp b.min.z p.z b.max.z] with hc
  have hmem : (box3 b).Mem c := by
    simp only [Box.Mem, forall_fin3, at3_zero, at3_one, at3_two, box3, Real.key_le, hc]
    exact ⟨clamp_mem hle.1, clamp_mem hle.2.1, clamp_mem hle.2.2⟩
  have hbest : ∀ q, (box3 b).Mem q → Spec.sqrDist (at3 p) c ≤ Spec.sqrDist (at3 p) q := by
    intro q hq
    simp only [Box.Mem, forall_fin3, at3_zero, at3_one, at3_two, box3, Real.key_le] at hq
    simp only [Spec.sqrDist, Fin.sum_univ_three, at3_zero, at3_one, at3_two]
    exact add_le_add (add_le_add (clamp_best hle.1 hq.1.1 hq.1.2) (clamp_best hle.2.1 hq.2.1.1 hq.2.1.2)) (clamp_best hle.2.2 hq.2.2.1 hq.2.2.2)
  have hnn : 0 ≤ Spec.sqrDist (at3 p) c := Finset.sum_nonneg fun _ _ => sq_nonneg _
  have hv : b.sqrDistance p = some ⟨Spec.sqrDist (at3 p) c⟩ := by
    simp only [BoundingBox3D.sqrDistance]
    rw [clamp_dist hle.1, clamp_dist hle.2.1, clamp_dist hle.2.2]
    simp only [Spec.sqrDist, Fin.sum_univ_three, at3_zero, at3_one, at3_two] at hnn ⊢
    exact NonNegative.new_real _ hnn
  refine ⟨Spec.sqrDist (at3 p) c, hv, ?_, ⟨⟨c, hmem, rfl⟩, ?_⟩, ⟨⟨c, hmem, rfl⟩, ?_⟩, ?_⟩
  · simp only [BoundingBox3D.distance, hv, Option.bind_eq_bind, Option.bind_some, Real.scalar_sqrt]
    exact NonNegative.new_real _ (Real.sqrt_nonneg _)
  · rintro r ⟨q, hq, rfl⟩
    exact hbest q hq
  · rintro r ⟨q, hq, rfl⟩
    exact Real.sqrt_le_sqrt (hbest q hq)
  · constructor
    · intro h0
      have : ∀ d, at3 p d = c d := by
        intro d
        have h := (Finset.sum_eq_zero_iff_of_nonneg (fun _ _ => sq_nonneg _)).1 h0 d (Finset.mem_univ d)
        exact sub_eq_zero.1 (pow_eq_zero_iff (two_ne_zero) |>.1 h)
      have e : at3 p = c := funext this
      rw [e]
      exact hmem
    · intro hp
      refine le_antisymm ((hbest _ hp).trans ?_) hnn
      simp [Spec.sqrDist]

/-- C19 (3D): distance of two boxes. -/
theorem c19_box_distance_3d (a b : BoundingBox3D ℝ) (ha : (box3 a).Valid) (hb : (box3 b).Valid) :
    ∃ v, a.sqrDistanceBB b = some ⟨v⟩ ∧
      IsLeast {r | ∃ p q, (box3 a).Mem p ∧ (box3 b).Mem q ∧ r = Spec.sqrDist p q} v ∧
      (v = 0 ↔ ∃ p, (box3 a).Mem p ∧ (box3 b).Mem p) := by
  rw [valid_real_3d] at ha hb
  obtain ⟨px, qx, mx, nx, ex, fx⟩ := gap_real ha.1.le hb.1.le
  obtain ⟨py, qy, my, ny, ey, fy⟩ := gap_real ha.2.1.le hb.2.1.le
  obtain ⟨pz, qz, mz, nz, ez, fz⟩ := gap_real ha.2.2.le hb.2.2.le
  set P : Fin 3 → ℝ := ![px, py, pz] with hP
  set Q : Fin 3 → ℝ := ![qx, qy, qz] with hQ
  have memP : (box3 a).Mem P := by
    simp only [Box.Mem, forall_fin3, at3_zero, at3_one, at3_two, box3, Real.key_le, hP]
    exact ⟨mx, my, mz⟩
  have memQ : (box3 b).Mem Q := by
    simp only [Box.Mem, forall_fin3, at3_zero, at3_one, at3_two, box3, Real.key_le, hQ]
    exact ⟨nx, ny, nz⟩
  have hbest : ∀ p q, (box3 a).Mem p → (box3 b).Mem q → Spec.sqrDist P Q ≤ Spec.sqrDist p q := by
    intro p q hp hq
    simp only [Box.Mem, forall_fin3, at3_zero, at3_one, at3_two, box3, Real.key_le] at hp hq
    simp only [Spec.sqrDist, Fin.sum_univ_three, at3_zero, at3_one, at3_two]
    exact add_le_add (add_le_add (fx _ _ hp.1.1 hp.1.2 hq.1.1 hq.1.2) (fy _ _ hp.2.1.1 hp.2.1.2 hq.2.1.1 hq.2.1.2)) (fz _ _ hp.2.2.1 hp.2.2.2 hq.2.2.1 hq.2.2.2)
  have hnn : 0 ≤ Spec.sqrDist P Q := Finset.sum_nonneg fun _ _ => sq_nonneg _
  refine ⟨Spec.sqrDist P Q, ?_, ⟨⟨P, Q, memP, memQ, rfl⟩, ?_⟩, ?_⟩
  · simp only [BoundingBox3D.sqrDistanceBB]
    rw [ex, ey, ez]
    simp only [Spec.sqrDist, Fin.sum_univ_three, at3_zero, at3_one, at3_two] at hnn ⊢
    exact NonNegative.new_real _ hnn
  · rintro r ⟨p, q, hp, hq, rfl⟩
    exact hbest p q hp hq
  · constructor
    · intro h0
      have : ∀ d, P d = Q d := by
        intro d
        have h := (Finset.sum_eq_zero_iff_of_nonneg (fun _ _ => sq_nonneg _)).1 h0 d (Finset.mem_univ d)
        exact sub_eq_zero.1 (pow_eq_zero_iff (two_ne_zero) |>.1 h)
      have e : P = Q := funext this
      exact ⟨P, memP, e ▸ memQ⟩
    · rintro ⟨p, hp, hq⟩
      refine le_antisymm ((hbest p p hp hq).trans ?_) hnn
      simp [Spec.sqrDist]

/-- C20 (3D): for a valid box a value is crossed exactly when a contained point has that coordinate. -/
theorem c20_crossing_real_3d (b : BoundingBox3D ℝ) (hb : (box3 b).Valid) :
    (∀ v, b.crossingXValue v = true ↔ ∃ p, b.contains p = true ∧ p.x = v) ∧
    (∀ v, b.crossingYValue v = true ↔ ∃ p, b.contains p = true ∧ p.y = v) ∧
    (∀ v, b.crossingZValue v = true ↔ ∃ p, b.contains p = true ∧ p.z = v) := by
  have h := c20_containment_3d b b b
  rw [valid_real_3d] at hb
  have ex : ∃ w, b.crossingXValue w = true := by
    refine ⟨(b.min.x + b.max.x) / 2, ?_⟩
    have := hb.1
    simp only [BoundingBox3D.crossingXValue, Real.scalar_lt, Bool.and_eq_true, decide_eq_true_eq]
    constructor <;> linarith
  have ey : ∃ w, b.crossingYValue w = true := by
    refine ⟨(b.min.y + b.max.y) / 2, ?_⟩
    have := hb.2.1
    simp only [BoundingBox3D.crossingYValue, Real.scalar_lt, Bool.and_eq_true, decide_eq_true_eq]
    constructor <;> linarith
  have ez : ∃ w, b.crossingZValue w = true := by
    refine ⟨(b.min.z + b.max.z) / 2, ?_⟩
    have := hb.2.2
    simp only [BoundingBox3D.crossingZValue, Real.scalar_lt, Bool.and_eq_true, decide_eq_true_eq]
    constructor <;> linarith
  exact ⟨fun v => ⟨fun hv => (h.2.2.2.2.2.2.2.1 v).2 ⟨hv, ey, ez⟩, fun hv => ((h.2.2.2.2.2.2.2.1 v).1 hv).1⟩,
    fun v => ⟨fun hv => (h.2.2.2.2.2.2.2.2.1 v).2 ⟨hv, ex, ez⟩, fun hv => ((h.2.2.2.2.2.2.2.2.1 v).1 hv).1⟩,
    fun v => ⟨fun hv => (h.2.2.2.2.2.2.2.2.2 v).2 ⟨hv, ex, ey⟩, fun hv => ((h.2.2.2.2.2.2.2.2.2 v).1 hv).1⟩⟩

/-- C21 specification (3D): the mutating operations. -/
inductive BoxOp3 where
  | move (dx dy dz : ℝ)
  | scale (factor : ℝ)
  | consume (o : BoundingBox3D ℝ)
  | combine (o : BoundingBox3D ℝ)

/-- admissible operations: positive factor, valid other box -/
def BoxOp3.Admissible : BoxOp3 → Prop
  | .move _ _ _ => True
  | .scale f => 0 < f
  | .consume o => (box3 o).Valid
  | .combine o => (box3 o).Valid

/-- one operation of the library -/
noncomputable def BoxOp3.run (b : BoundingBox3D ℝ) : BoxOp3 → Panics (BoundingBox3D ℝ)
  | .move dx dy dz => some (b.moveBy dx dy dz)
  | .scale f => b.scale ⟨f⟩
  | .consume o => some (b.consume o)
  | .combine o => some (b.combine o)

/-- C21 (3D): moving keeps the sizes, scaling keeps the center and multiplies the sizes. -/
theorem c21_move_scale_3d (b : BoundingBox3D ℝ) (hb : (box3 b).Valid) :
    (∀ dx dy dz, (box3 (b.moveBy dx dy dz)).Valid ∧ ∀ d, (box3 (b.moveBy dx dy dz)).hi d - (box3 (b.moveBy dx dy dz)).lo d
        = (box3 b).hi d - (box3 b).lo d ∧
        (box3 (b.moveBy dx dy dz)).lo d = (box3 b).lo d + ![dx, dy, dz] d) ∧
    ∀ f, 0 < f → ∃ b', b.scale ⟨f⟩ = some b' ∧ (box3 b').Valid ∧ b'.centerBB = b.centerBB ∧
      ∀ d, (box3 b').hi d - (box3 b').lo d = f * ((box3 b).hi d - (box3 b).lo d) := by
  have hs := sizes_real_3d b hb
  rw [valid_real_3d] at hb
  constructor
  · intro dx dy dz
    rw [valid_real_3d]
    simp only [BoundingBox3D.moveBy, Point3D.moveBy, forall_fin3, at3_zero, at3_one, at3_two, box3]
    refine ⟨⟨by linarith [hb.1], by linarith [hb.2.1], by linarith [hb.2.2]⟩, ⟨by ring, by simp⟩, ⟨by ring, by simp⟩, ⟨by ring, by simp⟩⟩
  · intro f hf
    have hm : 0 < f * (b.max.x - b.min.x) ∧ 0 < f * (b.max.y - b.min.y) ∧ 0 < f * (b.max.z - b.min.z) :=
      ⟨mul_pos hf (sub_pos.2 hb.1), mul_pos hf (sub_pos.2 hb.2.1), mul_pos hf (sub_pos.2 hb.2.2)⟩
    refine ⟨_, by simp only [BoundingBox3D.scale, hs, Option.bind_eq_bind, Option.bind_some, Option.pure_def]; rfl, ?_, ?_, ?_⟩
    · rw [valid_real_3d]
      simp only [BoundingBox3D.centerBB, Real.scalar_lit]
      push_cast
      refine ⟨by linarith [hm.1], by linarith [hm.2.1], by linarith [hm.2.2]⟩
    · simp only [BoundingBox3D.centerBB, Real.scalar_lit]
      push_cast
      congr 1 <;> ring
    · simp only [forall_fin3, at3_zero, at3_one, at3_two, box3, BoundingBox3D.centerBB, Real.scalar_lit]
      push_cast
      refine ⟨by ring, by ring, by ring⟩

/-- C21 (3D), exact arithmetic: every sequence of operations on valid boxes succeeds with a valid box
whose size accessors do not panic. Missing for the full statement: binary64, where it is false
(`c21_violated_3d`). -/
theorem c21_history_valid_3d_partial (ops : List BoxOp3) (hops : ∀ o ∈ ops, o.Admissible) :
    ∀ b : BoundingBox3D ℝ, (box3 b).Valid → ∃ b', ops.foldlM BoxOp3.run b = some b' ∧ (box3 b').Valid ∧
      b'.sizeX ≠ none ∧ b'.sizeY ≠ none ∧ b'.sizeZ ≠ none := by
  induction ops with
  | nil =>
    intro b hb
    refine ⟨b, rfl, hb, ?_⟩
    have hs := sizes_real_3d b hb
    simp [hs]
  | cons o ops ih =>
    intro b hb
    have ho := hops o (by simp)
    have step : ∃ b1, o.run b = some b1 ∧ (box3 b1).Valid := by
      cases o with
      | move dx dy dz => exact ⟨_, rfl, ((c21_move_scale_3d b hb).1 dx dy dz).1⟩
      | scale f =>
        obtain ⟨b', h1, h2, _⟩ := (c21_move_scale_3d b hb).2 f ho
        exact ⟨b', h1, h2⟩
      | consume o =>
        have h := c17_combine_3d b o hb ho
        exact ⟨_, rfl, by rw [h.2.2.2.2.1]; exact h.1⟩
      | combine o => exact ⟨_, rfl, (c17_combine_3d b o hb ho).1⟩
    obtain ⟨b1, h1, h2⟩ := step
    obtain ⟨b', h3, h4⟩ := ih (fun o h => hops o (by simp [h])) b1 h2
    exact ⟨b', by rw [List.foldlM_cons, h1]; exact h3, h4⟩

/-- a valid box meeting the hypotheses of the theorems above -/
example : (box2 (⟨⟨0, 0⟩, ⟨1, 2⟩⟩ : BoundingBox2D ℝ)).Valid := by
  rw [valid_real_2d]; norm_num
example : (box3 (⟨⟨0, 0, -1⟩, ⟨1, 2, 5⟩⟩ : BoundingBox3D ℝ)).Valid := by
  rw [valid_real_3d]; norm_num

/-- C21 fails in binary64: a valid box moved by 2^60 collapses and its size accessor panics. -/
theorem c21_violated_2d : ∃ (b : BoundingBox2D F64) (dx dy : F64),
    BoundingBox2D.new b.min b.max = .ok b ∧ (b.sizeX ≠ none ∧ b.sizeY ≠ none) ∧
    (b.moveBy dx dy).sizeX = none ∧ BoundingBox2D.new (b.moveBy dx dy).min (b.moveBy dx dy).max =
      .error .MinMaxEqual :=
  ⟨⟨⟨F64.ofRat 0, F64.ofRat 0⟩, ⟨F64.ofRat 1, F64.ofRat 1⟩⟩, F64.ofRat (2 ^ 60), F64.ofRat 0,
   by decide +kernel⟩

theorem c21_violated_3d : ∃ (b : BoundingBox3D F64) (dx dy dz : F64),
    BoundingBox3D.new b.min b.max = .ok b ∧ (b.sizeX ≠ none ∧ b.sizeY ≠ none ∧ b.sizeZ ≠ none) ∧
    (b.moveBy dx dy dz).sizeX = none :=
  ⟨⟨⟨F64.ofRat 0, F64.ofRat 0, F64.ofRat 0⟩, ⟨F64.ofRat 1, F64.ofRat 1, F64.ofRat 1⟩⟩,
   F64.ofRat (2 ^ 60), F64.ofRat 0, F64.ofRat 0, by decide +kernel⟩

/-- C16/C17/C20 hypotheses are met in binary64 by non-trivial values. -/
example : (∃ b, BoundingBox2D.fromIterator [⟨F64.ofRat 0, F64.ofRat 1⟩, ⟨F64.ofRat 2, F64.ofRat (1/10)⟩]
    = .ok b) ∧ F64.ok (F64.ofRat (1/10)) := by
  refine ⟨⟨⟨⟨F64.ofRat 0, F64.ofRat (1/10)⟩, ⟨F64.ofRat 2, F64.ofRat 1⟩⟩, by decide +kernel⟩, ?_⟩
  unfold F64.ok
  decide +kernel

/-- admissible histories for `c21_history_valid_2d_partial` and `c21_history_valid_3d_partial` -/
example : (∀ o ∈ [BoxOp2.move 1 (-2), .scale (1 / 2), .combine ⟨⟨0, 0⟩, ⟨1, 2⟩⟩], o.Admissible) ∧
    ∀ o ∈ [BoxOp3.move 1 (-2) 3, .scale 7, .consume ⟨⟨0, 0, -1⟩, ⟨1, 2, 5⟩⟩], o.Admissible := by
  constructor <;> intro o ho <;> simp only [List.mem_cons, List.not_mem_nil, or_false] at ho <;>
    rcases ho with rfl | rfl | rfl
  · trivial
  · show (0:ℝ) < 1 / 2; norm_num
  · show (box2 _).Valid; rw [valid_real_2d]; norm_num
  · trivial
  · show (0:ℝ) < 7; norm_num
  · show (box3 _).Valid; rw [valid_real_3d]; norm_num

end R3D

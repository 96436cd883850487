import Verif.Model.PointCloud
import Verif.Lemmas.BBCloud
import Verif.Props.PointCloud
/-!
C76 moving and scaling clouds and line segments, C77 `center`, `set_size`, `extrude`
(exact arithmetic for the positive statements, binary64 for the violations).
-/
namespace R3D
open Scalar LawfulScalar Spec


/-! ### 2D -/

theorem bbm_real_2d (l : List (Point2D ℝ)) (b : BoundingBox2D ℝ) :
    PointCloud2D.boundingBoxMaybe ⟨l⟩ = some b ↔ IsBB2 l b := by
  rw [← fromIterator_real_2d, PointCloud2D.boundingBoxMaybe]
  cases BoundingBox2D.fromIterator l <;> simp [Except.toOption]

/-- a map increasing in every coordinate maps the tight box to the tight box -/
theorem Spec.IsBB2.map {pts : List (Point2D ℝ)} {b : BoundingBox2D ℝ} (h : IsBB2 pts b)
    (g : Fin 2 → ℝ → ℝ) (hg : ∀ d, StrictMono (g d)) (F : Point2D ℝ → Point2D ℝ)
    (hF : ∀ p d, at2 (F p) d = g d (at2 p d)) : IsBB2 (pts.map F) ⟨F b.min, F b.max⟩ := by
  refine ⟨fun d => ?_, fun p hp d => ?_, fun d => ?_⟩
  · simp only [hF]
    exact hg d (h.1 d)
  · obtain ⟨q, hq, rfl⟩ := List.mem_map.1 hp
    simp only [hF]
    exact ⟨(hg d).monotone (h.2.1 q hq d).1, (hg d).monotone (h.2.1 q hq d).2⟩
  · obtain ⟨⟨p, hp, e⟩, q, hq, e'⟩ := h.2.2 d
    refine ⟨⟨F p, List.mem_map_of_mem hp, ?_⟩, F q, List.mem_map_of_mem hq, ?_⟩
    · simp only [hF, e]
    · simp only [hF, e']

theorem cog_sum_2d (l : List (Point2D ℝ)) (s : ℝ × ℝ) :
    l.foldl (fun (s : ℝ × ℝ) p => (s.1 + p.x, s.2 + p.y)) s = (s.1 + (l.map (fun p => p.x)).sum, s.2 + (l.map (fun p => p.y)).sum) := by
  induction l generalizing s with
  | nil => simp
  | cons p l ih =>
    rw [List.foldl_cons, ih]
    simp only [List.map_cons, List.sum_cons]
    ext <;> simp <;> ring

/-- the mean of the points -/
noncomputable def Spec.mean2 (l : List (Point2D ℝ)) (d : Fin 2) : ℝ :=
  (l.map (fun p => at2 p d)).sum / l.length

/-- **C76** the center of gravity is the mean of the points, it exists for every cloud that is not empty
(exact arithmetic). -/
theorem c76_center_of_gravity_2d (l : List (Point2D ℝ)) :
    (l = [] → PointCloud2D.centerOfGravity ⟨l⟩ = none) ∧
    (l ≠ [] → ∃ c, PointCloud2D.centerOfGravity ⟨l⟩ = some c ∧ ∀ d, at2 c d = mean2 l d) := by
  constructor
  · rintro rfl
    simp [PointCloud2D.centerOfGravity, PointCloud.len]
  · intro h
    have hl : ¬ l.length < 1 := by
      have := List.length_pos_iff.2 h
      omega
    simp only [PointCloud2D.centerOfGravity, PointCloud.len, if_neg hl, cog_sum_2d]
    refine ⟨_, rfl, ?_⟩
    rw [Fin.forall_fin_two]
    simp [mean2]

/-- **C76** moving a cloud moves every point, the bounding box and the center of gravity by the offset; a cloud
without bounding box keeps having none (exact arithmetic). -/
theorem c76_move_2d (l : List (Point2D ℝ)) (v : Point2D ℝ) :
    ∃ l', PointCloud2D.moveBy ⟨l⟩ v.x v.y = ⟨l'⟩ ∧
      List.Forall₂ (fun p q => ∀ d, at2 q d = at2 p d + at2 v d) l l' ∧
      (∀ b, PointCloud2D.boundingBoxMaybe ⟨l⟩ = some b → ∃ b', PointCloud2D.boundingBoxMaybe ⟨l'⟩ = some b' ∧
        ∀ d, at2 b'.min d = at2 b.min d + at2 v d ∧ at2 b'.max d = at2 b.max d + at2 v d) ∧
      (PointCloud2D.boundingBoxMaybe ⟨l⟩ = none → PointCloud2D.boundingBoxMaybe ⟨l'⟩ = none) ∧
      (l ≠ [] → ∀ d, mean2 l' d = mean2 l d + at2 v d) := by
  have hF : ∀ (v p : Point2D ℝ) d, at2 (p.moveBy v.x v.y) d = at2 p d + at2 v d := by
    intro v p
    rw [Fin.forall_fin_two]
    simp [Point2D.moveBy]
  have hbb : ∀ (v : Point2D ℝ) (l : List (Point2D ℝ)) b, PointCloud2D.boundingBoxMaybe ⟨l⟩ = some b →
      PointCloud2D.boundingBoxMaybe ⟨l.map fun p => p.moveBy v.x v.y⟩ =
        some ⟨b.min.moveBy v.x v.y, b.max.moveBy v.x v.y⟩ := by
    intro v l b hb
    rw [bbm_real_2d] at hb ⊢
    exact hb.map (fun d x => x + at2 v d) (fun d x y h => add_lt_add_left h _) _ (hF v)
  refine ⟨_, rfl, ?_, ?_, ?_, ?_⟩
  · rw [List.forall₂_map_right_iff, List.forall₂_same]
    intro p _
    exact hF v p
  · intro b hb
    refine ⟨_, hbb v l b hb, fun d => ⟨hF v _ d, hF v _ d⟩⟩
  · intro hn
    by_contra hc
    obtain ⟨b, hb⟩ := Option.ne_none_iff_exists'.1 hc
    have := hbb ⟨-v.x, -v.y⟩ _ b hb
    simp only [List.map_map] at this
    have e : (fun p : Point2D ℝ => p.moveBy (-v.x) (-v.y)) ∘ (fun p => p.moveBy v.x v.y) = id := by
      funext p
      simp [Point2D.moveBy]
    rw [e, List.map_id, hn] at this
    simp at this
  · intro hne d
    have hl : (l.length : ℝ) ≠ 0 := by
      have := List.length_pos_iff.2 hne
      exact_mod_cast this.ne'
    simp only [mean2, List.map_map, List.length_map]
    have e : (fun p => at2 p d) ∘ (fun p : Point2D ℝ => p.moveBy v.x v.y) = fun p => at2 p d + at2 v d := by
      funext p
      simp only [Function.comp_apply, hF]
    rw [e, List.sum_map_add]
    simp only [List.map_const', List.sum_replicate, nsmul_eq_mul]
    field_simp

theorem increase_at_2d (p c : Point2D ℝ) (f : Positive ℝ) (d : Fin 2) :
    at2 (p.increaseDistanceToBy c f) d = at2 c d + f.val * (at2 p d - at2 c d) := by
  revert d
  rw [Fin.forall_fin_two]
  simp [Point2D.increaseDistanceToBy]

theorem increase_dist_2d (p q c : Point2D ℝ) (f : Positive ℝ) (hf : 0 < f.val) :
    segLen2 (p.increaseDistanceToBy c f) (q.increaseDistanceToBy c f) = f.val * segLen2 p q := by
  have : Spec.sqrDist (at2 (p.increaseDistanceToBy c f)) (at2 (q.increaseDistanceToBy c f)) =
      f.val ^ 2 * Spec.sqrDist (at2 p) (at2 q) := by
    simp only [Spec.sqrDist, increase_at_2d, Finset.mul_sum]
    apply Finset.sum_congr rfl
    intro d _
    ring
  rw [segLen2, this, Real.sqrt_mul (sq_nonneg _), Real.sqrt_sq hf.le, segLen2]

/-- **C76** (partial: for clouds with a bounding box; missing are flat clouds, see `c76_scale_flat_2d`) scaling
by `f` multiplies every distance between two points and all sizes of the bounding box by `f` and keeps the
center of the bounding box (exact arithmetic). -/
theorem c76_scale_2d_partial (l : List (Point2D ℝ)) (f : Positive ℝ) (hf : 0 < f.val) (b : BoundingBox2D ℝ)
    (hb : PointCloud2D.boundingBoxMaybe ⟨l⟩ = some b) :
    ∃ l' b', PointCloud2D.scale ⟨l⟩ f = ⟨l'⟩ ∧ l'.length = l.length ∧
      (∀ (i j : Nat) p q p' q', l[i]? = some p → l[j]? = some q → l'[i]? = some p' → l'[j]? = some q' →
        segLen2 p' q' = f.val * segLen2 p q) ∧
      PointCloud2D.boundingBoxMaybe ⟨l'⟩ = some b' ∧
      ∀ d, at2 b'.min d + at2 b'.max d = at2 b.min d + at2 b.max d ∧
        at2 b'.max d - at2 b'.min d = f.val * (at2 b.max d - at2 b.min d) := by
  refine ⟨l.map fun p => p.increaseDistanceToBy b.centerBB f, ⟨b.min.increaseDistanceToBy b.centerBB f,
    b.max.increaseDistanceToBy b.centerBB f⟩, by simp only [PointCloud2D.scale, hb], by simp, ?_, ?_, ?_⟩
  · intro i j p q p' q' hp hq hp' hq'
    rw [List.getElem?_map, hp] at hp'
    rw [List.getElem?_map, hq] at hq'
    obtain rfl : p.increaseDistanceToBy b.centerBB f = p' := by simpa using hp'
    obtain rfl : q.increaseDistanceToBy b.centerBB f = q' := by simpa using hq'
    exact increase_dist_2d p q _ f hf
  · rw [bbm_real_2d] at hb ⊢
    refine hb.map (fun d x => at2 b.centerBB d + f.val * (x - at2 b.centerBB d)) ?_ _
      (fun p d => increase_at_2d p _ f d)
    intro d x y hxy
    dsimp only
    nlinarith
  · rw [Fin.forall_fin_two]
    simp only [at2_zero, at2_one, Point2D.increaseDistanceToBy, BoundingBox2D.centerBB, Real.scalar_lit]
    push_cast
    refine ⟨⟨by ring, by ring⟩, ⟨by ring, by ring⟩⟩

/-- **C76 violated** a cloud without bounding box (in particular every flat one) is not scaled at all. -/
theorem c76_scale_flat_2d {α : Type} [Scalar α] (pc : PointCloud (Point2D α)) (f : Positive α)
    (h : PointCloud2D.boundingBoxMaybe pc = none) : PointCloud2D.scale pc f = pc := by
  simp only [PointCloud2D.scale, h]

theorem seg_scale_2d (s : LineSegment2D ℝ) (f : Positive ℝ) :
    PointCloud2D.scale ⟨[s.start, s.end_]⟩ f = ⟨[(s.scale f).start, (s.scale f).end_]⟩ := by
  simp only [PointCloud2D.scale, LineSegment2D.scale, LineSegment2D.boundingBoxMaybe,
    PointCloud2D.boundingBoxMaybe]
  cases (BoundingBox2D.fromIterator [s.start, s.end_]).toOption <;> rfl

/-- **C76** line segments: `length` is the distance of the end points, the center of gravity is the middle of
the end points, moving changes neither length nor direction; (partial: segments not parallel to an axis
plane; the others are not scaled) scaling multiplies the length and keeps the middle (exact
arithmetic). -/
theorem c76_segment_2d_partial (s : LineSegment2D ℝ) (f : Positive ℝ) (hf : 0 < f.val) (v : Point2D ℝ) :
    s.length = segLen2 s.start s.end_ ∧
    (∃ c, s.centerOfGravity = some c ∧ ∀ d, at2 c d = (at2 s.start d + at2 s.end_ d) / 2) ∧
    (∀ d, at2 (s.moveBy v.x v.y).start d = at2 s.start d + at2 v d ∧
      at2 (s.moveBy v.x v.y).end_ d = at2 s.end_ d + at2 v d) ∧
    ((∀ d, at2 s.start d ≠ at2 s.end_ d) → (s.scale f).length = f.val * s.length ∧
      ∀ d, at2 (s.scale f).start d + at2 (s.scale f).end_ d = at2 s.start d + at2 s.end_ d) := by
  have hlen : ∀ s : LineSegment2D ℝ, s.length = segLen2 s.start s.end_ := by
    intro s
    rw [LineSegment2D.length, Point2D.dist_segLen]
    simp only [segLen2, Spec.sqrDist]
    congr 1
    apply Finset.sum_congr rfl
    intro d _
    ring
  refine ⟨hlen s, ⟨_, rfl, ?_⟩, ?_, fun hd => ?_⟩
  · rw [Fin.forall_fin_two]
    simp only [center2D, at2_zero, at2_one, Real.scalar_lit]
    push_cast
    refine ⟨by ring, by ring⟩
  · rw [Fin.forall_fin_two]
    simp [LineSegment2D.moveBy, Point2D.moveBy]
  · have hbb : PointCloud2D.boundingBoxMaybe ⟨[s.start, s.end_]⟩ = some ⟨⟨min s.start.x s.end_.x, min s.start.y s.end_.y⟩, ⟨max s.start.x s.end_.x, max s.start.y s.end_.y⟩⟩ := by
      rw [bbm_real_2d]
      have hmin : ∀ d, at2 (⟨min s.start.x s.end_.x, min s.start.y s.end_.y⟩ : Point2D ℝ) d = min (at2 s.start d) (at2 s.end_ d) := by
        rw [Fin.forall_fin_two]
        simp
      have hmax : ∀ d, at2 (⟨max s.start.x s.end_.x, max s.start.y s.end_.y⟩ : Point2D ℝ) d = max (at2 s.start d) (at2 s.end_ d) := by
        rw [Fin.forall_fin_two]
        simp
      refine ⟨fun d => ?_, fun p hp d => ?_, fun d => ?_⟩
      · rw [hmin, hmax]
        rcases lt_or_gt_of_ne (hd d) with h | h
        · rw [min_eq_left h.le, max_eq_right h.le]
          exact h
        · rw [min_eq_right h.le, max_eq_left h.le]
          exact h
      · rw [hmin, hmax]
        have hp : p = s.start ∨ p = s.end_ := by simpa using hp
        rcases hp with rfl | rfl
        · exact ⟨min_le_left _ _, le_max_left _ _⟩
        · exact ⟨min_le_right _ _, le_max_right _ _⟩
      · rw [hmin, hmax]
        rcases lt_or_gt_of_ne (hd d) with h | h
        · rw [min_eq_left h.le, max_eq_right h.le]
          exact ⟨⟨_, by simp, rfl⟩, _, by simp, rfl⟩
        · rw [min_eq_right h.le, max_eq_left h.le]
          exact ⟨⟨_, by simp, rfl⟩, _, by simp, rfl⟩
    have hs : s.scale f = ⟨s.start.increaseDistanceToBy (BoundingBox2D.centerBB ⟨⟨min s.start.x s.end_.x, min s.start.y s.end_.y⟩, ⟨max s.start.x s.end_.x, max s.start.y s.end_.y⟩⟩) f,
        s.end_.increaseDistanceToBy (BoundingBox2D.centerBB ⟨⟨min s.start.x s.end_.x, min s.start.y s.end_.y⟩, ⟨max s.start.x s.end_.x, max s.start.y s.end_.y⟩⟩) f⟩ := by
      have : s.boundingBoxMaybe = some ⟨⟨min s.start.x s.end_.x, min s.start.y s.end_.y⟩, ⟨max s.start.x s.end_.x, max s.start.y s.end_.y⟩⟩ := hbb
      simp only [LineSegment2D.scale, this, Option.map_some]
    constructor
    · rw [hlen, hlen, hs]
      exact increase_dist_2d _ _ _ f hf
    · rw [hs, Fin.forall_fin_two]
      simp only [at2_zero, at2_one, Point2D.increaseDistanceToBy, BoundingBox2D.centerBB, Real.scalar_lit]
      push_cast
      have hmm : ∀ a b : ℝ, min a b + max a b = a + b := min_add_max
      have hx := hmm s.start.x s.end_.x
      have hy := hmm s.start.y s.end_.y
      refine ⟨by linear_combination (1 - f.val) * hx, by linear_combination (1 - f.val) * hy⟩

/-- a segment with different coordinates -/
example : ∀ d, at2 (⟨⟨0, 0⟩, ⟨1, 1⟩⟩ : LineSegment2D ℝ).start d ≠
    at2 (⟨⟨0, 0⟩, ⟨1, 1⟩⟩ : LineSegment2D ℝ).end_ d := by
  rw [Fin.forall_fin_two]
  simp

/-! ### 3D -/

theorem bbm_real_3d (l : List (Point3D ℝ)) (b : BoundingBox3D ℝ) :
    PointCloud3D.boundingBoxMaybe ⟨l⟩ = some b ↔ IsBB3 l b := by
  rw [← fromIterator_real_3d, PointCloud3D.boundingBoxMaybe]
  cases BoundingBox3D.fromIterator l <;> simp [Except.toOption]

/-- a map increasing in every coordinate maps the tight box to the tight box -/
theorem Spec.IsBB3.map {pts : List (Point3D ℝ)} {b : BoundingBox3D ℝ} (h : IsBB3 pts b)
    (g : Fin 3 → ℝ → ℝ) (hg : ∀ d, StrictMono (g d)) (F : Point3D ℝ → Point3D ℝ)
    (hF : ∀ p d, at3 (F p) d = g d (at3 p d)) : IsBB3 (pts.map F) ⟨F b.min, F b.max⟩ := by
  refine ⟨fun d => ?_, fun p hp d => ?_, fun d => ?_⟩
  · simp only [hF]
    exact hg d (h.1 d)
  · obtain ⟨q, hq, rfl⟩ := List.mem_map.1 hp
    simp only [hF]
    exact ⟨(hg d).monotone (h.2.1 q hq d).1, (hg d).monotone (h.2.1 q hq d).2⟩
  · obtain ⟨⟨p, hp, e⟩, q, hq, e'⟩ := h.2.2 d
    refine ⟨⟨F p, List.mem_map_of_mem hp, ?_⟩, F q, List.mem_map_of_mem hq, ?_⟩
    · simp only [hF, e]
    · simp only [hF, e']

theorem cog_sum_3d (l : List (Point3D ℝ)) (s : ℝ × ℝ × ℝ) :
    l.foldl (fun (s : ℝ × ℝ × ℝ) p => (s.1 + p.x, s.2.1 + p.y, s.2.2 + p.z)) s = (s.1 + (l.map (fun p => p.x)).sum, s.2.1 + (l.map (fun p => p.y)).sum, s.2.2 + (l.map (fun p => p.z)).sum) := by
  induction l generalizing s with
  | nil => simp
  | cons p l ih =>
    rw [List.foldl_cons, ih]
    simp only [List.map_cons, List.sum_cons]
    ext <;> simp <;> ring

/-- the mean of the points -/
noncomputable def Spec.mean3 (l : List (Point3D ℝ)) (d : Fin 3) : ℝ :=
  (l.map (fun p => at3 p d)).sum / l.length

/-- **C76** the center of gravity is the mean of the points, it exists for every cloud that is not empty
(exact arithmetic). -/
theorem c76_center_of_gravity_3d (l : List (Point3D ℝ)) :
    (l = [] → PointCloud3D.centerOfGravity ⟨l⟩ = none) ∧
    (l ≠ [] → ∃ c, PointCloud3D.centerOfGravity ⟨l⟩ = some c ∧ ∀ d, at3 c d = mean3 l d) := by
  constructor
  · rintro rfl
    simp [PointCloud3D.centerOfGravity, PointCloud.len]
  · intro h
    have hl : ¬ l.length < 1 := by
      have := List.length_pos_iff.2 h
      omega
    simp only [PointCloud3D.centerOfGravity, PointCloud.len, if_neg hl, cog_sum_3d]
    refine ⟨_, rfl, ?_⟩
    rw [forall_fin3]
    simp [mean3]

/-- **C76** moving a cloud moves every point, the bounding box and the center of gravity by the offset; a cloud
without bounding box keeps having none (exact arithmetic). -/
theorem c76_move_3d (l : List (Point3D ℝ)) (v : Point3D ℝ) :
    ∃ l', PointCloud3D.moveBy ⟨l⟩ v.x v.y v.z = ⟨l'⟩ ∧
      List.Forall₂ (fun p q => ∀ d, at3 q d = at3 p d + at3 v d) l l' ∧
      (∀ b, PointCloud3D.boundingBoxMaybe ⟨l⟩ = some b → ∃ b', PointCloud3D.boundingBoxMaybe ⟨l'⟩ = some b' ∧
        ∀ d, at3 b'.min d = at3 b.min d + at3 v d ∧ at3 b'.max d = at3 b.max d + at3 v d) ∧
      (PointCloud3D.boundingBoxMaybe ⟨l⟩ = none → PointCloud3D.boundingBoxMaybe ⟨l'⟩ = none) ∧
      (l ≠ [] → ∀ d, mean3 l' d = mean3 l d + at3 v d) := by
  have hF : ∀ (v p : Point3D ℝ) d, at3 (p.moveBy v.x v.y v.z) d = at3 p d + at3 v d := by
    intro v p
    rw [forall_fin3]
    simp [Point3D.moveBy]
  have hbb : ∀ (v : Point3D ℝ) (l : List (Point3D ℝ)) b, PointCloud3D.boundingBoxMaybe ⟨l⟩ = some b →
      PointCloud3D.boundingBoxMaybe ⟨l.map fun p => p.moveBy v.x v.y v.z⟩ =
        some ⟨b.min.moveBy v.x v.y v.z, b.max.moveBy v.x v.y v.z⟩ := by
    intro v l b hb
    rw [bbm_real_3d] at hb ⊢
    exact hb.map (fun d x => x + at3 v d) (fun d x y h => add_lt_add_left h _) _ (hF v)
  refine ⟨_, rfl, ?_, ?_, ?_, ?_⟩
  · rw [List.forall₂_map_right_iff, List.forall₂_same]
    intro p _
    exact hF v p
  · intro b hb
    refine ⟨_, hbb v l b hb, fun d => ⟨hF v _ d, hF v _ d⟩⟩
  · intro hn
    by_contra hc
    obtain ⟨b, hb⟩ := Option.ne_none_iff_exists'.1 hc
    have := hbb ⟨-v.x, -v.y, -v.z⟩ _ b hb
    simp only [List.map_map] at this
    have e : (fun p : Point3D ℝ => p.moveBy (-v.x) (-v.y) (-v.z)) ∘ (fun p => p.moveBy v.x v.y v.z) = id := by
      funext p
      simp [Point3D.moveBy]
    rw [e, List.map_id, hn] at this
    simp at this
  · intro hne d
    have hl : (l.length : ℝ) ≠ 0 := by
      have := List.length_pos_iff.2 hne
      exact_mod_cast this.ne'
    simp only [mean3, List.map_map, List.length_map]
    have e : (fun p => at3 p d) ∘ (fun p : Point3D ℝ => p.moveBy v.x v.y v.z) = fun p => at3 p d + at3 v d := by
      funext p
      simp only [Function.comp_apply, hF]
    rw [e, List.sum_map_add]
    simp only [List.map_const', List.sum_replicate, nsmul_eq_mul]
    field_simp

theorem increase_at_3d (p c : Point3D ℝ) (f : Positive ℝ) (d : Fin 3) :
    at3 (p.increaseDistanceToBy c f) d = at3 c d + f.val * (at3 p d - at3 c d) := by
  revert d
  rw [forall_fin3]
  simp [Point3D.increaseDistanceToBy]

theorem increase_dist_3d (p q c : Point3D ℝ) (f : Positive ℝ) (hf : 0 < f.val) :
    segLen3 (p.increaseDistanceToBy c f) (q.increaseDistanceToBy c f) = f.val * segLen3 p q := by
  have : Spec.sqrDist (at3 (p.increaseDistanceToBy c f)) (at3 (q.increaseDistanceToBy c f)) =
      f.val ^ 2 * Spec.sqrDist (at3 p) (at3 q) := by
    simp only [Spec.sqrDist, increase_at_3d, Finset.mul_sum]
    apply Finset.sum_congr rfl
    intro d _
    ring
  rw [segLen3, this, Real.sqrt_mul (sq_nonneg _), Real.sqrt_sq hf.le, segLen3]

/-- **C76** (partial: for clouds with a bounding box; missing are flat clouds, see `c76_scale_flat_3d`) scaling
by `f` multiplies every distance between two points and all sizes of the bounding box by `f` and keeps the
center of the bounding box (exact arithmetic). -/
theorem c76_scale_3d_partial (l : List (Point3D ℝ)) (f : Positive ℝ) (hf : 0 < f.val) (b : BoundingBox3D ℝ)
    (hb : PointCloud3D.boundingBoxMaybe ⟨l⟩ = some b) :
    ∃ l' b', PointCloud3D.scale ⟨l⟩ f = ⟨l'⟩ ∧ l'.length = l.length ∧
      (∀ (i j : Nat) p q p' q', l[i]? = some p → l[j]? = some q → l'[i]? = some p' → l'[j]? = some q' →
        segLen3 p' q' = f.val * segLen3 p q) ∧
      PointCloud3D.boundingBoxMaybe ⟨l'⟩ = some b' ∧
      ∀ d, at3 b'.min d + at3 b'.max d = at3 b.min d + at3 b.max d ∧
        at3 b'.max d - at3 b'.min d = f.val * (at3 b.max d - at3 b.min d) := by
  refine ⟨l.map fun p => p.increaseDistanceToBy b.centerBB f, ⟨b.min.increaseDistanceToBy b.centerBB f,
    b.max.increaseDistanceToBy b.centerBB f⟩, by simp only [PointCloud3D.scale, hb], by simp, ?_, ?_, ?_⟩
  · intro i j p q p' q' hp hq hp' hq'
    rw [List.getElem?_map, hp] at hp'
    rw [List.getElem?_map, hq] at hq'
    obtain rfl : p.increaseDistanceToBy b.centerBB f = p' := by simpa using hp'
    obtain rfl : q.increaseDistanceToBy b.centerBB f = q' := by simpa using hq'
    exact increase_dist_3d p q _ f hf
  · rw [bbm_real_3d] at hb ⊢
    refine hb.map (fun d x => at3 b.centerBB d + f.val * (x - at3 b.centerBB d)) ?_ _
      (fun p d => increase_at_3d p _ f d)
    intro d x y hxy
    dsimp only
    nlinarith
  · rw [forall_fin3]
    simp only [at3_zero, at3_one, at3_two, Point3D.increaseDistanceToBy, BoundingBox3D.centerBB, Real.scalar_lit]
    push_cast
    refine ⟨⟨by ring, by ring⟩, ⟨by ring, by ring⟩, ⟨by ring, by ring⟩⟩

/-- **C76 violated** a cloud without bounding box (in particular every flat one) is not scaled at all. -/
theorem c76_scale_flat_3d {α : Type} [Scalar α] (pc : PointCloud (Point3D α)) (f : Positive α)
    (h : PointCloud3D.boundingBoxMaybe pc = none) : PointCloud3D.scale pc f = pc := by
  simp only [PointCloud3D.scale, h]

theorem seg_scale_3d (s : LineSegment3D ℝ) (f : Positive ℝ) :
    PointCloud3D.scale ⟨[s.start, s.end_]⟩ f = ⟨[(s.scale f).start, (s.scale f).end_]⟩ := by
  simp only [PointCloud3D.scale, LineSegment3D.scale, LineSegment3D.boundingBoxMaybe,
    PointCloud3D.boundingBoxMaybe]
  cases (BoundingBox3D.fromIterator [s.start, s.end_]).toOption <;> rfl

/-- **C76** line segments: `length` is the distance of the end points, the center of gravity is the middle of
the end points, moving changes neither length nor direction; (partial: segments not parallel to an axis
plane; the others are not scaled) scaling multiplies the length and keeps the middle (exact
arithmetic). -/
theorem c76_segment_3d_partial (s : LineSegment3D ℝ) (f : Positive ℝ) (hf : 0 < f.val) (v : Point3D ℝ) :
    s.length = segLen3 s.start s.end_ ∧
    (∃ c, s.centerOfGravity = some c ∧ ∀ d, at3 c d = (at3 s.start d + at3 s.end_ d) / 2) ∧
    (∀ d, at3 (s.moveBy v.x v.y v.z).start d = at3 s.start d + at3 v d ∧
      at3 (s.moveBy v.x v.y v.z).end_ d = at3 s.end_ d + at3 v d) ∧
    ((∀ d, at3 s.start d ≠ at3 s.end_ d) → (s.scale f).length = f.val * s.length ∧
      ∀ d, at3 (s.scale f).start d + at3 (s.scale f).end_ d = at3 s.start d + at3 s.end_ d) := by
  have hlen : ∀ s : LineSegment3D ℝ, s.length = segLen3 s.start s.end_ := by
    intro s
    rw [LineSegment3D.length, Point3D.dist_segLen]
    simp only [segLen3, Spec.sqrDist]
    congr 1
    apply Finset.sum_congr rfl
    intro d _
    ring
  refine ⟨hlen s, ⟨_, rfl, ?_⟩, ?_, fun hd => ?_⟩
  · rw [forall_fin3]
    simp only [center3D, at3_zero, at3_one, at3_two, Real.scalar_lit]
    push_cast
    refine ⟨by ring, by ring, by ring⟩
  · rw [forall_fin3]
    simp [LineSegment3D.moveBy, Point3D.moveBy]
  · have hbb : PointCloud3D.boundingBoxMaybe ⟨[s.start, s.end_]⟩ = some ⟨⟨min s.start.x s.end_.x, min s.start.y s.end_.y, min s.start.z s.end_.z⟩, ⟨max s.start.x s.end_.x, max s.start.y s.end_.y, max s.start.z s.end_.z⟩⟩ := by
      rw [bbm_real_3d]
      have hmin : ∀ d, at3 (⟨min s.start.x s.end_.x, min s.start.y s.end_.y, min s.start.z s.end_.z⟩ : Point3D ℝ) d = min (at3 s.start d) (at3 s.end_ d) := by
        rw [forall_fin3]
        simp
      have hmax : ∀ d, at3 (⟨max s.start.x s.end_.x, max s.start.y s.end_.y, max s.start.z s.end_.z⟩ : Point3D ℝ) d = max (at3 s.start d) (at3 s.end_ d) := by
        rw [forall_fin3]
        simp
      refine ⟨fun d => ?_, fun p hp d => ?_, fun d => ?_⟩
      · rw [hmin, hmax]
        rcases lt_or_gt_of_ne (hd d) with h | h
        · rw [min_eq_left h.le, max_eq_right h.le]
          exact h
        · rw [min_eq_right h.le, max_eq_left h.le]
          exact h
      · rw [hmin, hmax]
        have hp : p = s.start ∨ p = s.end_ := by simpa using hp
        rcases hp with rfl | rfl
        · exact ⟨min_le_left _ _, le_max_left _ _⟩
        · exact ⟨min_le_right _ _, le_max_right _ _⟩
      · rw [hmin, hmax]
        rcases lt_or_gt_of_ne (hd d) with h | h
        · rw [min_eq_left h.le, max_eq_right h.le]
          exact ⟨⟨_, by simp, rfl⟩, _, by simp, rfl⟩
        · rw [min_eq_right h.le, max_eq_left h.le]
          exact ⟨⟨_, by simp, rfl⟩, _, by simp, rfl⟩
    have hs : s.scale f = ⟨s.start.increaseDistanceToBy (BoundingBox3D.centerBB ⟨⟨min s.start.x s.end_.x, min s.start.y s.end_.y, min s.start.z s.end_.z⟩, ⟨max s.start.x s.end_.x, max s.start.y s.end_.y, max s.start.z s.end_.z⟩⟩) f,
        s.end_.increaseDistanceToBy (BoundingBox3D.centerBB ⟨⟨min s.start.x s.end_.x, min s.start.y s.end_.y, min s.start.z s.end_.z⟩, ⟨max s.start.x s.end_.x, max s.start.y s.end_.y, max s.start.z s.end_.z⟩⟩) f⟩ := by
      have : s.boundingBoxMaybe = some ⟨⟨min s.start.x s.end_.x, min s.start.y s.end_.y, min s.start.z s.end_.z⟩, ⟨max s.start.x s.end_.x, max s.start.y s.end_.y, max s.start.z s.end_.z⟩⟩ := hbb
      simp only [LineSegment3D.scale, this, Option.map_some]
    constructor
    · rw [hlen, hlen, hs]
      exact increase_dist_3d _ _ _ f hf
    · rw [hs, forall_fin3]
      simp only [at3_zero, at3_one, at3_two, Point3D.increaseDistanceToBy, BoundingBox3D.centerBB, Real.scalar_lit]
      push_cast
      have hmm : ∀ a b : ℝ, min a b + max a b = a + b := min_add_max
      have hx := hmm s.start.x s.end_.x
      have hy := hmm s.start.y s.end_.y
      have hz := hmm s.start.z s.end_.z
      refine ⟨by linear_combination (1 - f.val) * hx, by linear_combination (1 - f.val) * hy, by linear_combination (1 - f.val) * hz⟩

/-- a segment with different coordinates -/
example : ∀ d, at3 (⟨⟨0, 0, 0⟩, ⟨1, 1, 1⟩⟩ : LineSegment3D ℝ).start d ≠
    at3 (⟨⟨0, 0, 0⟩, ⟨1, 1, 1⟩⟩ : LineSegment3D ℝ).end_ d := by
  rw [forall_fin3]
  simp

/-- the horizontal segment from (0,0) to (2,0) scaled by 2 keeps its length 2 (binary64): C76 violated -/
theorem c76_violated : ∃ (s : LineSegment2D F64) (f : Positive F64), Positive.new f.val = some f ∧
    s.length = F64.ofRat 2 ∧ f.val = F64.ofRat 2 ∧ (s.scale f).length = F64.ofRat 2 :=
  ⟨⟨⟨.ofRat 0, .ofRat 0⟩, ⟨.ofRat 2, .ofRat 0⟩⟩, ⟨.ofRat 2⟩, by decide +kernel, by decide +kernel, rfl,
    by decide +kernel⟩

/-! ## C77 -/

/-- **C77** (partial: for clouds with a bounding box) `center` is a translation after which the middle of the
bounding box is the origin (exact arithmetic). -/
theorem c77_center_partial (l : List (Point3D ℝ)) (b : BoundingBox3D ℝ)
    (hb : PointCloud3D.boundingBoxMaybe ⟨l⟩ = some b) :
    ∃ l' b' v, PointCloud3D.center ⟨l⟩ = ⟨l'⟩ ∧
      List.Forall₂ (fun p q => ∀ d, at3 q d = at3 p d + at3 v d) l l' ∧
      PointCloud3D.boundingBoxMaybe ⟨l'⟩ = some b' ∧ ∀ d, at3 b'.min d + at3 b'.max d = 0 := by
  obtain ⟨l', h1, h2, h3, -⟩ := c76_move_3d l ⟨-b.centerBB.x, -b.centerBB.y, -b.centerBB.z⟩
  obtain ⟨b', hb', h4⟩ := h3 b hb
  refine ⟨l', b', _, ?_, h2, hb', ?_⟩
  · simp only [PointCloud3D.center, hb]
    exact h1
  · intro d
    rw [(h4 d).1, (h4 d).2]
    revert d
    rw [forall_fin3]
    simp only [at3_zero, at3_one, at3_two, BoundingBox3D.centerBB, Real.scalar_lit]
    push_cast
    exact ⟨by ring, by ring, by ring⟩

/-- **C77** (partial: for clouds with a bounding box) after `set_size` the bounding box has exactly the requested
sizes; every coordinate is multiplied by one positive factor per dimension; no panic (exact
arithmetic). -/
theorem c77_set_size_partial (l : List (Point3D ℝ)) (s : Point3D ℝ) (hs : ∀ d, 0 < at3 s d)
    (b : BoundingBox3D ℝ) (hb : PointCloud3D.boundingBoxMaybe ⟨l⟩ = some b) :
    ∃ l' b' k, PointCloud3D.setSize ⟨l⟩ ⟨s.x⟩ ⟨s.y⟩ ⟨s.z⟩ = some ⟨l'⟩ ∧ (∀ d, 0 < at3 k d) ∧
      List.Forall₂ (fun p q => ∀ d, at3 q d = at3 k d * at3 p d) l l' ∧
      PointCloud3D.boundingBoxMaybe ⟨l'⟩ = some b' ∧ ∀ d, at3 b'.max d - at3 b'.min d = at3 s d := by
  have hbb := (bbm_real_3d l b).1 hb
  have h0 : b.min.x < b.max.x := hbb.1 0
  have h1 : b.min.y < b.max.y := hbb.1 1
  have h2 : b.min.z < b.max.z := hbb.1 2
  have hs0 : 0 < s.x := hs 0
  have hs1 : 0 < s.y := hs 1
  have hs2 : 0 < s.z := hs 2
  have hF : ∀ (a : Point3D ℝ) p d, at3 (p.transformed (Matrix4.scale a.x a.y a.z)) d = at3 a d * at3 p d := by
    intro a p
    rw [forall_fin3]
    simp only [Point3D.transformed, Matrix4.scale, Matrix.cons_val, Real.scalar_lit, Rat.cast_zero, at3_zero, at3_one, at3_two]
    exact ⟨by ring, by ring, by ring⟩
  have e : PointCloud3D.setSize ⟨l⟩ ⟨s.x⟩ ⟨s.y⟩ ⟨s.z⟩ = some ⟨l.map fun p => p.transformed
      (Matrix4.scale (s.x / (b.max.x - b.min.x)) (s.y / (b.max.y - b.min.y)) (s.z / (b.max.z - b.min.z)))⟩ := by
    simp only [PointCloud3D.setSize, hb, BoundingBox3D.sizeX, BoundingBox3D.sizeY, BoundingBox3D.sizeZ,
      size_real h0, size_real h1, size_real h2, Option.bind_eq_bind, Option.bind_some, PointCloud3D.transform]
  let k : Point3D ℝ := ⟨s.x / (b.max.x - b.min.x), s.y / (b.max.y - b.min.y), s.z / (b.max.z - b.min.z)⟩
  have hk : ∀ d, 0 < at3 k d := by
    rw [forall_fin3]
    exact ⟨div_pos hs0 (sub_pos.2 h0), div_pos hs1 (sub_pos.2 h1), div_pos hs2 (sub_pos.2 h2)⟩
  refine ⟨_, _, k, e, hk, ?_, (bbm_real_3d _ _).2 (hbb.map (fun d x => at3 k d * x)
    (fun d x y h => mul_lt_mul_of_pos_left h (hk d)) _ (hF k)), ?_⟩
  · rw [List.forall₂_map_right_iff, List.forall₂_same]
    intro p _
    exact hF k p
  · intro d
    simp only
    rw [hF k, hF k]
    revert d
    rw [forall_fin3]
    simp only [at3_zero, at3_one, at3_two, k]
    have := (sub_pos.2 h0).ne'
    have := (sub_pos.2 h1).ne'
    have := (sub_pos.2 h2).ne'
    exact ⟨by field_simp, by field_simp, by field_simp⟩

/-- a cloud with a bounding box -/
example : PointCloud3D.boundingBoxMaybe (⟨[⟨0, 0, 0⟩, ⟨1, 2, 4⟩]⟩ : PointCloud (Point3D ℝ)) =
    some ⟨⟨0, 0, 0⟩, ⟨1, 2, 4⟩⟩ := by
  rw [bbm_real_3d]
  simp [IsBB3, forall_fin3]

/-- **C77 violated** for a flat cloud `center` and `set_size` do nothing: the triangle (5,5,0) (7,5,0) (5,8,0)
stays where it is and keeps its size (binary64). -/
theorem c77_violated : ∃ l : List (Point3D F64),
    PointCloud3D.center ⟨l⟩ = ⟨l⟩ ∧
    PointCloud3D.setSize ⟨l⟩ ⟨.ofRat 10⟩ ⟨.ofRat 10⟩ ⟨.ofRat 10⟩ = some ⟨l⟩ ∧
    l = [⟨.ofRat 5, .ofRat 5, .ofRat 0⟩, ⟨.ofRat 7, .ofRat 5, .ofRat 0⟩, ⟨.ofRat 5, .ofRat 8, .ofRat 0⟩] :=
  ⟨_, by decide +kernel, by decide +kernel, rfl⟩

/-- **C77** `extrude` gives the points at height zero and the same points moved by the direction, in order (any
scalar type). -/
theorem c77_extrude {α : Type} [Scalar α] (l : List (Point2D α)) (dir : Point3D α) :
    (extrude l dir).1.data = l.map (fun p => ⟨p.x, p.y, zero⟩) ∧
    (extrude l dir).2.data = l.map (fun p => ⟨p.x + dir.x, p.y + dir.y, zero + dir.z⟩) := by
  have main : ∀ (l : List (Point2D α)) (s : PointCloud (Point3D α) × PointCloud (Point3D α)),
      l.foldl (fun (s : PointCloud (Point3D α) × PointCloud (Point3D α)) p =>
        let t : Point3D α := ⟨p.x, p.y, zero⟩
        (s.1.push t, s.2.push t)) s =
      (⟨s.1.data ++ l.map (fun p => ⟨p.x, p.y, zero⟩)⟩, ⟨s.2.data ++ l.map (fun p => ⟨p.x, p.y, zero⟩)⟩) := by
    intro l
    induction l with
    | nil => intro s; simp
    | cons p l ih =>
      intro s
      rw [List.foldl_cons, ih]
      simp [PointCloud.push]
  simp only [extrude, main]
  simp [PointCloud.new, PointCloud3D.moveBy, Point3D.moveBy]

example : (extrude [(⟨.ofRat 1, .ofRat 2⟩ : Point2D F64)] ⟨.ofRat 1, .ofRat 1, .ofRat 5⟩).2.data =
    [⟨.ofRat 2, .ofRat 3, .ofRat 5⟩] := by decide +kernel

/-- clouds with and without a bounding box for `c76_scale_2d_partial`, `c76_scale_flat_2d` and `c76_scale_flat_3d`;
a factor and a size -/
example : PointCloud2D.boundingBoxMaybe (⟨[⟨0, 0⟩, ⟨1, 2⟩]⟩ : PointCloud (Point2D ℝ)) = some ⟨⟨0, 0⟩, ⟨1, 2⟩⟩ ∧
    PointCloud2D.boundingBoxMaybe (⟨[⟨.ofRat 0, .ofRat 5⟩, ⟨.ofRat 1, .ofRat 5⟩]⟩ : PointCloud (Point2D F64)) = none ∧
    PointCloud3D.boundingBoxMaybe (⟨[⟨.ofRat 0, .ofRat 5, .ofRat 1⟩, ⟨.ofRat 1, .ofRat 5, .ofRat 2⟩]⟩ : PointCloud (Point3D F64)) = none ∧
    (0:ℝ) < (⟨3⟩ : Positive ℝ).val ∧ ∀ d, 0 < at3 (⟨1, 2, 1 / 2⟩ : Point3D ℝ) d := by
  refine ⟨?_, by decide +kernel, by decide +kernel, by norm_num, ?_⟩
  · rw [bbm_real_2d]; simp [IsBB2]
  · rw [Spec.forall_fin3]; norm_num [at3_zero, at3_one, at3_two]

end R3D

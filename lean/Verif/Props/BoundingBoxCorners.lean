import Verif.Props.BoundingBoxReal
/-!
# C73: corners, bounding box of a box, default box
-/
namespace R3D
open Scalar LawfulScalar Spec

variable {α : Type} [Scalar α] [LawfulScalar α]

omit [Scalar α] [LawfulScalar α] in
/-- C73: the corners are the points each of whose coordinates is that of min or max, 2 to the dimension
many in all -/
theorem c73_corners_2d (b : BoundingBox2D α) :
    b.corners.length = 2 ^ 2 ∧
    ∀ p, p ∈ b.corners ↔ ∀ d : Fin 2, at2 p d = (box2 b).lo d ∨ at2 p d = (box2 b).hi d := by
  refine ⟨rfl, fun p => ?_⟩
  obtain ⟨x, y⟩ := p
  simp only [Fin.forall_fin_two, box2, at2_zero, at2_one]
  simp only [BoundingBox2D.corners, List.mem_cons, List.not_mem_nil, or_false, Point2D.mk.injEq]
  tauto

/-- C73: the corners span the box they come from, for doubles as well as reals -/
theorem c73_corners_span_2d (b : BoundingBox2D α) (hv : (box2 b).Valid) :
    BoundingBox2D.fromIterator b.corners = .ok b := by
  have hc := (c73_corners_2d b).2
  have hlo : b.min ∈ b.corners := (hc _).2 fun d => Or.inl rfl
  have hhi : b.max ∈ b.corners := (hc _).2 fun d => Or.inr rfl
  have hok : ∀ p ∈ b.corners, ∀ d, ok (at2 p d) := by
    intro p hp d
    rcases (hc p).1 hp d with e | e <;> rw [e]
    · exact (hv.1 d).1
    · exact (hv.1 d).2
  obtain ⟨b', hb', -, hin, hat, -⟩ := (c16_from_iterator_2d b.corners hok).2.2 (by decide : 2 ≤ 4)
    fun d => ⟨b.min, hlo, b.max, hhi, (hv.2 d).ne⟩
  rw [hb']
  have h1 : ∀ d, at2 b'.min d = at2 b.min d := by
    intro d
    obtain ⟨⟨p, hp, e⟩, -⟩ := hat d
    rcases (hc p).1 hp d with e' | e'
    · exact e.trans e'
    · have h2 := (hin _ hlo d).1
      rw [e, e'] at h2
      exact absurd h2 (not_le.2 (hv.2 d))
  have h2 : ∀ d, at2 b'.max d = at2 b.max d := by
    intro d
    obtain ⟨-, p, hp, e⟩ := hat d
    rcases (hc p).1 hp d with e' | e'
    · have h2 := (hin _ hhi d).2
      rw [e, e'] at h2
      exact absurd h2 (not_le.2 (hv.2 d))
    · exact e.trans e'
  obtain ⟨mn, mx⟩ := b'
  obtain ⟨mn', mx'⟩ := b
  rw [show mn = mn' from ext2 h1, show mx = mx' from ext2 h2]

/-- C73: the bounding box of a valid box is the box itself, and asking for it does not panic -/
theorem c73_bounding_box_2d (b : BoundingBox2D α) (hv : (box2 b).Valid) : b.boundingBox = some b := by
  unfold BoundingBox2D.boundingBox
  rw [((c15_new_2d_partial b.min b.max (fun d => (hv.1 d).1) (fun d => (hv.1 d).2)).1 b).2 ⟨hv.2, rfl, rfl⟩]
  rfl

/-- C73: the default box is the unit box around the origin -/
theorem c73_default_2d : (box2 (BoundingBox2D.default : BoundingBox2D ℝ)).Valid ∧
    (∀ d, (box2 (BoundingBox2D.default : BoundingBox2D ℝ)).lo d = -1/2) ∧
    (∀ d, (box2 (BoundingBox2D.default : BoundingBox2D ℝ)).hi d = 1/2) := by
  rw [valid_real_2d]
  simp only [Fin.forall_fin_two, box2, at2_zero, at2_one]
  simp [BoundingBox2D.default]
  norm_num

/-- the same for doubles -/
theorem c73_default_2d_f64 : (box2 (BoundingBox2D.default : BoundingBox2D F64)).Valid := by
  refine ⟨?_, ?_⟩
  · simp only [Box.Ok, Fin.forall_fin_two, box2, at2_zero, at2_one]
    have : F64.ok (Scalar.lit (-1/2)) ∧ F64.ok (Scalar.lit (1/2)) := by
      unfold F64.ok; decide +kernel
    exact ⟨this, this⟩
  · have h := (LawfulScalar.lt_iff (Scalar.lit (-1/2) : F64) (Scalar.lit (1/2))).1 (by decide +kernel)
    simp only [Fin.forall_fin_two, box2, at2_zero, at2_one]
    exact ⟨h.2.2, h.2.2⟩

omit [Scalar α] [LawfulScalar α] in
/-- C73: the corners are the points each of whose coordinates is that of min or max, 2 to the dimension
many in all -/
theorem c73_corners_3d (b : BoundingBox3D α) :
    b.corners.length = 2 ^ 3 ∧
    ∀ p, p ∈ b.corners ↔ ∀ d : Fin 3, at3 p d = (box3 b).lo d ∨ at3 p d = (box3 b).hi d := by
  refine ⟨rfl, fun p => ?_⟩
  obtain ⟨x, y, z⟩ := p
  simp only [forall_fin3, box3, at3_zero, at3_one, at3_two]
  simp only [BoundingBox3D.corners, List.mem_cons, List.not_mem_nil, or_false, Point3D.mk.injEq]
  tauto

/-- C73: the corners span the box they come from, for doubles as well as reals -/
theorem c73_corners_span_3d (b : BoundingBox3D α) (hv : (box3 b).Valid) :
    BoundingBox3D.fromIterator b.corners = .ok b := by
  have hc := (c73_corners_3d b).2
  have hlo : b.min ∈ b.corners := (hc _).2 fun d => Or.inl rfl
  have hhi : b.max ∈ b.corners := (hc _).2 fun d => Or.inr rfl
  have hok : ∀ p ∈ b.corners, ∀ d, ok (at3 p d) := by
    intro p hp d
    rcases (hc p).1 hp d with e | e <;> rw [e]
    · exact (hv.1 d).1
    · exact (hv.1 d).2
  obtain ⟨b', hb', -, hin, hat, -⟩ := (c16_from_iterator_3d b.corners hok).2.2 (by decide : 2 ≤ 8)
    fun d => ⟨b.min, hlo, b.max, hhi, (hv.2 d).ne⟩
  rw [hb']
  have h1 : ∀ d, at3 b'.min d = at3 b.min d := by
    intro d
    obtain ⟨⟨p, hp, e⟩, -⟩ := hat d
    rcases (hc p).1 hp d with e' | e'
    · exact e.trans e'
    · have h2 := (hin _ hlo d).1
      rw [e, e'] at h2
      exact absurd h2 (not_le.2 (hv.2 d))
  have h2 : ∀ d, at3 b'.max d = at3 b.max d := by
    intro d
    obtain ⟨-, p, hp, e⟩ := hat d
    rcases (hc p).1 hp d with e' | e'
    · have h2 := (hin _ hhi d).2
      rw [e, e'] at h2
      exact absurd h2 (not_le.2 (hv.2 d))
    · exact e.trans e'
  obtain ⟨mn, mx⟩ := b'
  obtain ⟨mn', mx'⟩ := b
  rw [show mn = mn' from ext3 h1, show mx = mx' from ext3 h2]

/-- C73: the bounding box of a valid box is the box itself, and asking for it does not panic -/
theorem c73_bounding_box_3d (b : BoundingBox3D α) (hv : (box3 b).Valid) : b.boundingBox = some b := by
  unfold BoundingBox3D.boundingBox
  rw [((c15_new_3d_partial b.min b.max (fun d => (hv.1 d).1) (fun d => (hv.1 d).2)).1 b).2 ⟨hv.2, rfl, rfl⟩]
  rfl

/-- C73: the default box is the unit box around the origin -/
theorem c73_default_3d : (box3 (BoundingBox3D.default : BoundingBox3D ℝ)).Valid ∧
    (∀ d, (box3 (BoundingBox3D.default : BoundingBox3D ℝ)).lo d = -1/2) ∧
    (∀ d, (box3 (BoundingBox3D.default : BoundingBox3D ℝ)).hi d = 1/2) := by
  rw [valid_real_3d]
  simp only [forall_fin3, box3, at3_zero, at3_one, at3_two]
  simp [BoundingBox3D.default]
  norm_num

/-- the same for doubles -/
theorem c73_default_3d_f64 : (box3 (BoundingBox3D.default : BoundingBox3D F64)).Valid := by
  refine ⟨?_, ?_⟩
  · simp only [Box.Ok, forall_fin3, box3, at3_zero, at3_one, at3_two]
    have : F64.ok (Scalar.lit (-1/2)) ∧ F64.ok (Scalar.lit (1/2)) := by
      unfold F64.ok; decide +kernel
    exact ⟨this, this, this⟩
  · have h := (LawfulScalar.lt_iff (Scalar.lit (-1/2) : F64) (Scalar.lit (1/2))).1 (by decide +kernel)
    simp only [forall_fin3, box3, at3_zero, at3_one, at3_two]
    exact ⟨h.2.2, h.2.2, h.2.2⟩

/-- the hypotheses are met by a box of doubles and a box of reals -/
example : (box2 (BoundingBox2D.default : BoundingBox2D F64)).Valid ∧
    (box3 (⟨⟨0, 0, 0⟩, ⟨1, 2, 3⟩⟩ : BoundingBox3D ℝ)).Valid :=
  ⟨c73_default_2d_f64, by rw [valid_real_3d]; norm_num⟩

end R3D

import Verif.Lemmas.BoundingBox
/-
C15 construction, C16 tightness, C17 join, C20 containment of bounding boxes.
All theorems are generic in a scalar type with lawful comparisons, in particular they hold for the
binary64 model with infinities (and NaN where no `ok` hypothesis is present).
-/
namespace R3D
open Scalar LawfulScalar Spec

section
variable {α : Type} [Scalar α] [LawfulScalar α]

/-! ### C15 -/

/-- C15 (2D) for all corners without NaN. Missing for the full statement: NaN corners, where the
statement is false (`c15_violated_2d`). -/
theorem c15_new_2d_partial (mn mx : Point2D α) (h1 : ∀ d, ok (at2 mn d)) (h2 : ∀ d, ok (at2 mx d)) :
    (∀ b, BoundingBox2D.new mn mx = .ok b ↔
      (∀ d, key (at2 mn d) < key (at2 mx d)) ∧ b.min = mn ∧ b.max = mx) ∧
    (BoundingBox2D.new mn mx = .error .MinMaxEqual ↔ ∃ d, key (at2 mn d) = key (at2 mx d)) ∧
    (BoundingBox2D.new mn mx = .error .MinMaxSwapped ↔
      (∀ d, key (at2 mn d) ≠ key (at2 mx d)) ∧ ∃ d, key (at2 mx d) < key (at2 mn d)) := by
  have h := dims_decide _ _ _ _ (BoundingBox2D.new_eq mn mx h1 h2)
  refine ⟨fun b => ?_, h.2⟩
  rw [h.1]
  cases b; simp

/-- C15 (3D), see `c15_new_2d_partial`. -/
theorem c15_new_3d_partial (mn mx : Point3D α) (h1 : ∀ d, ok (at3 mn d)) (h2 : ∀ d, ok (at3 mx d)) :
    (∀ b, BoundingBox3D.new mn mx = .ok b ↔
      (∀ d, key (at3 mn d) < key (at3 mx d)) ∧ b.min = mn ∧ b.max = mx) ∧
    (BoundingBox3D.new mn mx = .error .MinMaxEqual ↔ ∃ d, key (at3 mn d) = key (at3 mx d)) ∧
    (BoundingBox3D.new mn mx = .error .MinMaxSwapped ↔
      (∀ d, key (at3 mn d) ≠ key (at3 mx d)) ∧ ∃ d, key (at3 mx d) < key (at3 mn d)) := by
  have h := dims_decide _ _ _ _ (BoundingBox3D.new_eq mn mx h1 h2)
  refine ⟨fun b => ?_, h.2⟩
  rw [h.1]
  cases b; simp
end

example : ∃ b, BoundingBox2D.new (⟨F64.ofRat 0, F64.ofRat 1⟩ : Point2D F64) ⟨F64.ofRat 2, .inf false⟩
    = .ok b := ⟨⟨⟨F64.ofRat 0, F64.ofRat 1⟩, ⟨F64.ofRat 2, .inf false⟩⟩, by decide +kernel⟩

/-- C15 fails on NaN: a corner with a NaN coordinate is accepted although no ordering holds, and the
size accessor of the resulting box panics. -/
theorem c15_violated_2d : ∃ (mn mx : Point2D F64) (b : BoundingBox2D F64),
    BoundingBox2D.new mn mx = .ok b ∧ ¬ (mn.x <. mx.x) = true ∧ b.sizeX = none :=
  ⟨⟨.nan, F64.ofRat 0⟩, ⟨F64.ofRat 1, F64.ofRat 1⟩,
   ⟨⟨.nan, F64.ofRat 0⟩, ⟨F64.ofRat 1, F64.ofRat 1⟩⟩, by decide +kernel⟩

theorem c15_violated_3d : ∃ (mn mx : Point3D F64) (b : BoundingBox3D F64),
    BoundingBox3D.new mn mx = .ok b ∧ ¬ (mn.z <. mx.z) = true ∧ b.sizeZ = none :=
  ⟨⟨F64.ofRat 0, F64.ofRat 0, F64.ofRat 0⟩, ⟨F64.ofRat 1, F64.ofRat 1, .nan⟩,
   ⟨⟨F64.ofRat 0, F64.ofRat 0, F64.ofRat 0⟩, ⟨F64.ofRat 1, F64.ofRat 1, .nan⟩⟩, by decide +kernel⟩
section
variable {α : Type} [Scalar α] [LawfulScalar α]

/-! ### C16 -/

/-- C16 (2D): fewer than two points are rejected, a flat point set is rejected with `MinMaxEqual`,
every other point set gives a valid box which has every point within its closed extent, is touched
by a point on every side and is enclosed by every box around the points. -/
theorem c16_from_iterator_2d (pts : List (Point2D α)) (hok : ∀ p ∈ pts, ∀ d, ok (at2 p d)) :
    (pts.length < 2 → BoundingBox2D.fromIterator pts = .error .TooFewPoints) ∧
    (2 ≤ pts.length → (∃ d, ∀ p ∈ pts, ∀ q ∈ pts, key (at2 p d) = key (at2 q d)) →
      BoundingBox2D.fromIterator pts = .error .MinMaxEqual) ∧
    (2 ≤ pts.length → (∀ d, ∃ p ∈ pts, ∃ q ∈ pts, key (at2 p d) ≠ key (at2 q d)) →
      ∃ b, BoundingBox2D.fromIterator pts = .ok b ∧ (box2 b).Valid ∧ (∀ p ∈ pts, (box2 b).Mem (at2 p)) ∧
        (∀ d, (∃ p ∈ pts, (box2 b).lo d = at2 p d) ∧ ∃ p ∈ pts, (box2 b).hi d = at2 p d) ∧
        ∀ c : Box 2 α, (∀ p ∈ pts, c.Mem (at2 p)) → c.Encloses (box2 b)) := by
  match pts with
  | [] => refine ⟨fun _ => rfl, ?_, ?_⟩ <;> simp
  | [p] => refine ⟨fun _ => rfl, ?_, ?_⟩ <;> simp
  | p :: p' :: ps =>
    have hF : ∃ lo hi : Point2D α, BoundingBox2D.fromIterator (p :: p' :: ps) = BoundingBox2D.new lo hi ∧
        ∀ d, ok (at2 lo d) ∧ ok (at2 hi d) ∧ (∃ q ∈ p :: p' :: ps, at2 lo d = at2 q d) ∧
          (∃ q ∈ p :: p' :: ps, at2 hi d = at2 q d) ∧
          ∀ q ∈ p :: p' :: ps, key (at2 lo d) ≤ key (at2 q d) ∧ key (at2 q d) ≤ key (at2 hi d) := by
      refine ⟨⟨((p' :: ps).map (fun q : Point2D α => q.x)).foldl mn p.x, ((p' :: ps).map (fun q : Point2D α => q.y)).foldl mn p.y⟩, ⟨((p' :: ps).map (fun q : Point2D α => q.x)).foldl mx p.x, ((p' :: ps).map (fun q : Point2D α => q.y)).foldl mx p.y⟩, ?_, ?_⟩
      · have hc : 1 + (p' :: ps).length ≥ 2 := by simp only [List.length_cons]; omega
        rw [BoundingBox2D.fromIterator]
        simp only [BoundingBox2D.foldl_step]
        rw [if_pos hc]
      · simp only [Fin.forall_fin_two, at2_zero, at2_one] at hok ⊢
        have ex := extent (fun q : Point2D α => q.x) p (p' :: ps) (fun q hq => (hok q hq).1)
        have ey := extent (fun q : Point2D α => q.y) p (p' :: ps) (fun q hq => (hok q hq).2)
        exact ⟨ex, ey⟩
    obtain ⟨lo, hi, hn, hd⟩ := hF
    have hD := dims_decide _ _ _ _ (BoundingBox2D.new_eq lo hi (fun d => (hd d).1) (fun d => (hd d).2.1))
    rw [hn]
    refine ⟨fun h => absurd h (by simp), fun _ => ?_, fun _ hne => ?_⟩
    · rintro ⟨d, hf⟩
      rw [hD.2.1]
      obtain ⟨_, _, ⟨q, hq, eq⟩, ⟨r, hr, er⟩, _⟩ := hd d
      exact ⟨d, by rw [eq, er]; exact hf q hq r hr⟩
    · refine ⟨⟨lo, hi⟩, ?_, ⟨fun d => ⟨(hd d).1, (hd d).2.1⟩, ?_⟩, fun q hq d => (hd d).2.2.2.2 q hq,
        fun d => ⟨(hd d).2.2.1, (hd d).2.2.2.1⟩, ?_⟩
      · rw [hD.1]
        refine ⟨fun d => ?_, rfl⟩
        obtain ⟨_, _, _, _, hb⟩ := hd d
        obtain ⟨q, hq, r, hr, hqr⟩ := hne d
        rcases lt_or_gt_of_ne hqr with h | h
        · exact lt_of_le_of_lt (hb q hq).1 (lt_of_lt_of_le h (hb r hr).2)
        · exact lt_of_le_of_lt (hb r hr).1 (lt_of_lt_of_le h (hb q hq).2)
      · intro d
        obtain ⟨_, _, _, _, hb⟩ := hd d
        obtain ⟨q, hq, r, hr, hqr⟩ := hne d
        rcases lt_or_gt_of_ne hqr with h | h
        · exact lt_of_le_of_lt (hb q hq).1 (lt_of_lt_of_le h (hb r hr).2)
        · exact lt_of_le_of_lt (hb r hr).1 (lt_of_lt_of_le h (hb q hq).2)
      · intro c hc d
        obtain ⟨_, _, ⟨q, hq, eq⟩, ⟨r, hr, er⟩, _⟩ := hd d
        have h1 := (hc q hq d).1
        have h2 := (hc r hr d).2
        rw [← eq] at h1
        rw [← er] at h2
        exact ⟨h1, h2⟩

/-- C16 (2D): the outcome does not depend on the order of the points (boxes up to numerical
equality, i.e. the sign of zero). -/
theorem c16_order_independent_2d (pts pts' : List (Point2D α)) (hp : pts.Perm pts')
    (hok : ∀ p ∈ pts, ∀ d, ok (at2 p d)) :
    (∀ e, BoundingBox2D.fromIterator pts = .error e → BoundingBox2D.fromIterator pts' = .error e) ∧
    ∀ b, BoundingBox2D.fromIterator pts = .ok b →
      ∃ b', BoundingBox2D.fromIterator pts' = .ok b' ∧ (box2 b).NumEq (box2 b') := by
  have hm : ∀ q, q ∈ pts ↔ q ∈ pts' := fun q => hp.mem_iff
  have hok' : ∀ p ∈ pts', ∀ d, ok (at2 p d) := fun p h => hok p ((hm p).2 h)
  obtain ⟨a1, a2, a3⟩ := c16_from_iterator_2d pts hok
  obtain ⟨b1, b2, b3⟩ := c16_from_iterator_2d pts' hok'
  rcases Nat.lt_or_ge pts.length 2 with hl | hl
  · rw [a1 hl, b1 (hp.length_eq ▸ hl)]
    simp
  · have hl' : 2 ≤ pts'.length := hp.length_eq ▸ hl
    by_cases hf : ∃ d, ∀ p ∈ pts, ∀ q ∈ pts, key (at2 p d) = key (at2 q d)
    · rw [a2 hl hf, b2 hl' (by simpa only [hm] using hf)]
      simp
    · push Not at hf
      obtain ⟨b, hb, _, hin, ht, hle⟩ := a3 hl hf
      obtain ⟨b', hb', _, hin', ht', hle'⟩ := b3 hl' (by simpa only [hm] using hf)
      rw [hb, hb']
      refine ⟨by simp, fun c hc => ⟨b', rfl, ?_⟩⟩
      cases hc
      have e1 := hle' (box2 b) (fun q hq => hin q ((hm q).2 hq))
      have e2 := hle (box2 b') (fun q hq => hin' q ((hm q).1 hq))
      exact fun d => ⟨le_antisymm (e1 d).1 (e2 d).1, le_antisymm (e2 d).2 (e1 d).2⟩

/-- C16 (3D): fewer than two points are rejected, a flat point set is rejected with `MinMaxEqual`,
every other point set gives a valid box which has every point within its closed extent, is touched
by a point on every side and is enclosed by every box around the points. -/
theorem c16_from_iterator_3d (pts : List (Point3D α)) (hok : ∀ p ∈ pts, ∀ d, ok (at3 p d)) :
    (pts.length < 2 → BoundingBox3D.fromIterator pts = .error .TooFewPoints) ∧
    (2 ≤ pts.length → (∃ d, ∀ p ∈ pts, ∀ q ∈ pts, key (at3 p d) = key (at3 q d)) →
      BoundingBox3D.fromIterator pts = .error .MinMaxEqual) ∧
    (2 ≤ pts.length → (∀ d, ∃ p ∈ pts, ∃ q ∈ pts, key (at3 p d) ≠ key (at3 q d)) →
      ∃ b, BoundingBox3D.fromIterator pts = .ok b ∧ (box3 b).Valid ∧ (∀ p ∈ pts, (box3 b).Mem (at3 p)) ∧
        (∀ d, (∃ p ∈ pts, (box3 b).lo d = at3 p d) ∧ ∃ p ∈ pts, (box3 b).hi d = at3 p d) ∧
        ∀ c : Box 3 α, (∀ p ∈ pts, c.Mem (at3 p)) → c.Encloses (box3 b)) := by
  match pts with
  | [] => refine ⟨fun _ => rfl, ?_, ?_⟩ <;> simp
  | [p] => refine ⟨fun _ => rfl, ?_, ?_⟩ <;> simp
  | p :: p' :: ps =>
    have hF : ∃ lo hi : Point3D α, BoundingBox3D.fromIterator (p :: p' :: ps) = BoundingBox3D.new lo hi ∧
        ∀ d, ok (at3 lo d) ∧ ok (at3 hi d) ∧ (∃ q ∈ p :: p' :: ps, at3 lo d = at3 q d) ∧
          (∃ q ∈ p :: p' :: ps, at3 hi d = at3 q d) ∧
          ∀ q ∈ p :: p' :: ps, key (at3 lo d) ≤ key (at3 q d) ∧ key (at3 q d) ≤ key (at3 hi d) := by
      refine ⟨⟨((p' :: ps).map (fun q : Point3D α => q.x)).foldl mn p.x, ((p' :: ps).map (fun q : Point3D α => q.y)).foldl mn p.y, ((p' :: ps).map (fun q : Point3D α => q.z)).foldl mn p.z⟩, ⟨((p' :: ps).map (fun q : Point3D α => q.x)).foldl mx p.x, ((p' :: ps).map (fun q : Point3D α => q.y)).foldl mx p.y, ((p' :: ps).map (fun q : Point3D α => q.z)).foldl mx p.z⟩, ?_, ?_⟩
      · have hc : 1 + (p' :: ps).length ≥ 2 := by simp only [List.length_cons]; omega
        rw [BoundingBox3D.fromIterator]
        simp only [BoundingBox3D.foldl_step]
        rw [if_pos hc]
      · simp only [forall_fin3, at3_zero, at3_one, at3_two] at hok ⊢
        have ex := extent (fun q : Point3D α => q.x) p (p' :: ps) (fun q hq => (hok q hq).1)
        have ey := extent (fun q : Point3D α => q.y) p (p' :: ps) (fun q hq => (hok q hq).2.1)
        have ez := extent (fun q : Point3D α => q.z) p (p' :: ps) (fun q hq => (hok q hq).2.2)
        exact ⟨ex, ey, ez⟩
    obtain ⟨lo, hi, hn, hd⟩ := hF
    have hD := dims_decide _ _ _ _ (BoundingBox3D.new_eq lo hi (fun d => (hd d).1) (fun d => (hd d).2.1))
    rw [hn]
    refine ⟨fun h => absurd h (by simp), fun _ => ?_, fun _ hne => ?_⟩
    · rintro ⟨d, hf⟩
      rw [hD.2.1]
      obtain ⟨_, _, ⟨q, hq, eq⟩, ⟨r, hr, er⟩, _⟩ := hd d
      exact ⟨d, by rw [eq, er]; exact hf q hq r hr⟩
    · refine ⟨⟨lo, hi⟩, ?_, ⟨fun d => ⟨(hd d).1, (hd d).2.1⟩, ?_⟩, fun q hq d => (hd d).2.2.2.2 q hq,
        fun d => ⟨(hd d).2.2.1, (hd d).2.2.2.1⟩, ?_⟩
      · rw [hD.1]
        refine ⟨fun d => ?_, rfl⟩
        obtain ⟨_, _, _, _, hb⟩ := hd d
        obtain ⟨q, hq, r, hr, hqr⟩ := hne d
        rcases lt_or_gt_of_ne hqr with h | h
        · exact lt_of_le_of_lt (hb q hq).1 (lt_of_lt_of_le h (hb r hr).2)
        · exact lt_of_le_of_lt (hb r hr).1 (lt_of_lt_of_le h (hb q hq).2)
      · intro d
        obtain ⟨_, _, _, _, hb⟩ := hd d
        obtain ⟨q, hq, r, hr, hqr⟩ := hne d
        rcases lt_or_gt_of_ne hqr with h | h
        · exact lt_of_le_of_lt (hb q hq).1 (lt_of_lt_of_le h (hb r hr).2)
        · exact lt_of_le_of_lt (hb r hr).1 (lt_of_lt_of_le h (hb q hq).2)
      · intro c hc d
        obtain ⟨_, _, ⟨q, hq, eq⟩, ⟨r, hr, er⟩, _⟩ := hd d
        have h1 := (hc q hq d).1
        have h2 := (hc r hr d).2
        rw [← eq] at h1
        rw [← er] at h2
        exact ⟨h1, h2⟩

/-- C16 (3D): the outcome does not depend on the order of the points (boxes up to numerical
equality, i.e. the sign of zero). -/
theorem c16_order_independent_3d (pts pts' : List (Point3D α)) (hp : pts.Perm pts')
    (hok : ∀ p ∈ pts, ∀ d, ok (at3 p d)) :
    (∀ e, BoundingBox3D.fromIterator pts = .error e → BoundingBox3D.fromIterator pts' = .error e) ∧
    ∀ b, BoundingBox3D.fromIterator pts = .ok b →
      ∃ b', BoundingBox3D.fromIterator pts' = .ok b' ∧ (box3 b).NumEq (box3 b') := by
  have hm : ∀ q, q ∈ pts ↔ q ∈ pts' := fun q => hp.mem_iff
  have hok' : ∀ p ∈ pts', ∀ d, ok (at3 p d) := fun p h => hok p ((hm p).2 h)
  obtain ⟨a1, a2, a3⟩ := c16_from_iterator_3d pts hok
  obtain ⟨b1, b2, b3⟩ := c16_from_iterator_3d pts' hok'
  rcases Nat.lt_or_ge pts.length 2 with hl | hl
  · rw [a1 hl, b1 (hp.length_eq ▸ hl)]
    simp
  · have hl' : 2 ≤ pts'.length := hp.length_eq ▸ hl
    by_cases hf : ∃ d, ∀ p ∈ pts, ∀ q ∈ pts, key (at3 p d) = key (at3 q d)
    · rw [a2 hl hf, b2 hl' (by simpa only [hm] using hf)]
      simp
    · push Not at hf
      obtain ⟨b, hb, _, hin, ht, hle⟩ := a3 hl hf
      obtain ⟨b', hb', _, hin', ht', hle'⟩ := b3 hl' (by simpa only [hm] using hf)
      rw [hb, hb']
      refine ⟨by simp, fun c hc => ⟨b', rfl, ?_⟩⟩
      cases hc
      have e1 := hle' (box3 b) (fun q hq => hin q ((hm q).2 hq))
      have e2 := hle (box3 b') (fun q hq => hin' q ((hm q).1 hq))
      exact fun d => ⟨le_antisymm (e1 d).1 (e2 d).1, le_antisymm (e2 d).2 (e1 d).2⟩

/-! ### C17 -/

/-- C17 (2D): `combine` is the least enclosing box of its (valid) operands, valid again,
commutative, associative and idempotent (up to the sign of zero), and `consume` computes the same. -/
theorem c17_combine_2d (a b : BoundingBox2D α) (ha : (box2 a).Valid) (hb : (box2 b).Valid) :
    (box2 (a.combine b)).Valid ∧ (box2 (a.combine b)).Encloses (box2 a) ∧
    (box2 (a.combine b)).Encloses (box2 b) ∧
    (∀ c : Box 2 α, c.Encloses (box2 a) → c.Encloses (box2 b) → c.Encloses (box2 (a.combine b))) ∧
    a.consume b = a.combine b ∧ a.combine a = a ∧
    (box2 (a.combine b)).NumEq (box2 (b.combine a)) ∧
    ∀ c : BoundingBox2D α, (box2 c).Valid →
      (box2 ((a.combine b).combine c)).NumEq (box2 (a.combine (b.combine c))) := by
  have hlo : ∀ (a b : BoundingBox2D α), (box2 a).Ok → (box2 b).Ok → ∀ d,
      ok ((box2 (a.combine b)).lo d) ∧ ok ((box2 (a.combine b)).hi d) ∧
      key ((box2 (a.combine b)).lo d) = min (key ((box2 a).lo d)) (key ((box2 b).lo d)) ∧
      key ((box2 (a.combine b)).hi d) = max (key ((box2 a).hi d)) (key ((box2 b).hi d)) := by
    intro a b ha hb
    simp only [Box.Ok, Fin.forall_fin_two, at2_zero, at2_one, box2] at ha hb ⊢
    simp only [BoundingBox2D.combine_eq]
    simp only [ok_mn, ok_mx, key_mn, key_mx, ha, hb, and_self]
  have hab := hlo a b ha.1 hb.1
  have hba := hlo b a hb.1 ha.1
  have okab : (box2 (a.combine b)).Ok := fun d => ⟨(hab d).1, (hab d).2.1⟩
  refine ⟨⟨okab, fun d => ?_⟩, fun d => ?_, fun d => ?_, fun c h1 h2 d => ?_, rfl, ?_, fun d => ?_,
    fun c hc => ?_⟩
  · rw [(hab d).2.2.1, (hab d).2.2.2]
    exact lt_of_le_of_lt (min_le_left _ _) (lt_of_lt_of_le (ha.2 d) (le_max_left _ _))
  · rw [(hab d).2.2.1, (hab d).2.2.2]
    exact ⟨min_le_left _ _, le_max_left _ _⟩
  · rw [(hab d).2.2.1, (hab d).2.2.2]
    exact ⟨min_le_right _ _, le_max_right _ _⟩
  · rw [(hab d).2.2.1, (hab d).2.2.2]
    exact ⟨le_min (h1 d).1 (h2 d).1, max_le (h1 d).2 (h2 d).2⟩
  · rw [BoundingBox2D.combine_eq]
    simp only [mn_self, mx_self]
  · rw [(hab d).2.2.1, (hab d).2.2.2, (hba d).2.2.1, (hba d).2.2.2]
    exact ⟨min_comm _ _, max_comm _ _⟩
  · have hbc := hlo b c hb.1 hc.1
    have h1 := hlo (a.combine b) c okab hc.1
    have h2 := hlo a (b.combine c) ha.1 (fun d => ⟨(hbc d).1, (hbc d).2.1⟩)
    intro d
    rw [(h1 d).2.2.1, (h1 d).2.2.2, (h2 d).2.2.1, (h2 d).2.2.2, (hab d).2.2.1, (hab d).2.2.2,
      (hbc d).2.2.1, (hbc d).2.2.2]
    exact ⟨min_assoc _ _ _, max_assoc _ _ _⟩

/-- C17 (3D): `combine` is the least enclosing box of its (valid) operands, valid again,
commutative, associative and idempotent (up to the sign of zero), and `consume` computes the same. -/
theorem c17_combine_3d (a b : BoundingBox3D α) (ha : (box3 a).Valid) (hb : (box3 b).Valid) :
    (box3 (a.combine b)).Valid ∧ (box3 (a.combine b)).Encloses (box3 a) ∧
    (box3 (a.combine b)).Encloses (box3 b) ∧
    (∀ c : Box 3 α, c.Encloses (box3 a) → c.Encloses (box3 b) → c.Encloses (box3 (a.combine b))) ∧
    a.consume b = a.combine b ∧ a.combine a = a ∧
    (box3 (a.combine b)).NumEq (box3 (b.combine a)) ∧
    ∀ c : BoundingBox3D α, (box3 c).Valid →
      (box3 ((a.combine b).combine c)).NumEq (box3 (a.combine (b.combine c))) := by
  have hlo : ∀ (a b : BoundingBox3D α), (box3 a).Ok → (box3 b).Ok → ∀ d,
      ok ((box3 (a.combine b)).lo d) ∧ ok ((box3 (a.combine b)).hi d) ∧
      key ((box3 (a.combine b)).lo d) = min (key ((box3 a).lo d)) (key ((box3 b).lo d)) ∧
      key ((box3 (a.combine b)).hi d) = max (key ((box3 a).hi d)) (key ((box3 b).hi d)) := by
    intro a b ha hb
    simp only [Box.Ok, forall_fin3, at3_zero, at3_one, at3_two, box3] at ha hb ⊢
    simp only [BoundingBox3D.combine_eq]
    simp only [ok_mn, ok_mx, key_mn, key_mx, ha, hb, and_self]
  have hab := hlo a b ha.1 hb.1
  have hba := hlo b a hb.1 ha.1
  have okab : (box3 (a.combine b)).Ok := fun d => ⟨(hab d).1, (hab d).2.1⟩
  refine ⟨⟨okab, fun d => ?_⟩, fun d => ?_, fun d => ?_, fun c h1 h2 d => ?_, rfl, ?_, fun d => ?_,
    fun c hc => ?_⟩
  · rw [(hab d).2.2.1, (hab d).2.2.2]
    exact lt_of_le_of_lt (min_le_left _ _) (lt_of_lt_of_le (ha.2 d) (le_max_left _ _))
  · rw [(hab d).2.2.1, (hab d).2.2.2]
    exact ⟨min_le_left _ _, le_max_left _ _⟩
  · rw [(hab d).2.2.1, (hab d).2.2.2]
    exact ⟨min_le_right _ _, le_max_right _ _⟩
  · rw [(hab d).2.2.1, (hab d).2.2.2]
    exact ⟨le_min (h1 d).1 (h2 d).1, max_le (h1 d).2 (h2 d).2⟩
  · rw [BoundingBox3D.combine_eq]
    simp only [mn_self, mx_self]
  · rw [(hab d).2.2.1, (hab d).2.2.2, (hba d).2.2.1, (hba d).2.2.2]
    exact ⟨min_comm _ _, max_comm _ _⟩
  · have hbc := hlo b c hb.1 hc.1
    have h1 := hlo (a.combine b) c okab hc.1
    have h2 := hlo a (b.combine c) ha.1 (fun d => ⟨(hbc d).1, (hbc d).2.1⟩)
    intro d
    rw [(h1 d).2.2.1, (h1 d).2.2.2, (h2 d).2.2.1, (h2 d).2.2.2, (hab d).2.2.1, (hab d).2.2.2,
      (hbc d).2.2.1, (hbc d).2.2.2]
    exact ⟨min_assoc _ _ _, max_assoc _ _ _⟩
end

section
variable {α : Type} [Scalar α] [LawfulZero α]

/-! ### C20 -/

/-- C20 (2D), for every scalar type incl. binary64 with NaN: meaning of `contains` and `is_inside`,
duality with `has_inside`, strict partial order, compatibility, and the crossing tests. -/
theorem c20_containment_2d (a b c : BoundingBox2D α) :
    (∀ p, a.contains p = true ↔ ((box2 a).Ok ∧ ∀ d, ok (at2 p d)) ∧ (box2 a).MemInt (at2 p)) ∧
    (a.isInside b = true ↔ ((box2 a).Ok ∧ (box2 b).Ok) ∧
      ∀ d, key ((box2 b).lo d) < key ((box2 a).lo d) ∧ key ((box2 a).hi d) < key ((box2 b).hi d)) ∧
    a.isInside b = b.hasInside a ∧
    a.isInside a = false ∧
    (a.isInside b = true → b.isInside c = true → a.isInside c = true) ∧
    (∀ p, a.isInside b = true → a.contains p = true → b.contains p = true) ∧
    (∀ p, a.contains p = true → ∃ v w, a.sqrDistance p = some v ∧ key v.val = 0 ∧
      a.distance p = some w ∧ key w.val = 0) ∧
    (∀ v, (∃ p, a.contains p = true ∧ p.x = v) ↔ a.crossingXValue v = true ∧ ∃ w, a.crossingYValue w = true) ∧
    (∀ v, (∃ p, a.contains p = true ∧ p.y = v) ↔ a.crossingYValue v = true ∧ ∃ w, a.crossingXValue w = true) := by
  have hT : ∀ {u v w : α}, (u <. v) = true → (v <. w) = true → (u <. w) = true := by
    intro u v w h1 h2
    rw [lt_iff] at *
    exact ⟨h1.1, h2.2.1, h1.2.2.trans h2.2.2⟩
  have hI : ∀ u : α, (u <. u) = false := by
    intro u
    rw [Bool.eq_false_iff]
    intro h
    rw [lt_iff] at h
    exact absurd h.2.2 (lt_irrefl _)
  refine ⟨?_, ?_, rfl, ?_, ?_, ?_, ?_, ?_, ?_⟩
  · intro p
    simp only [BoundingBox2D.contains, Bool.and_eq_true, lt_iff, Box.Ok, Box.MemInt, Fin.forall_fin_two, at2_zero, at2_one, box2]
    tauto
  · simp only [BoundingBox2D.isInside, Bool.and_eq_true, lt_iff, Box.Ok, Fin.forall_fin_two, at2_zero, at2_one, box2]
    tauto
  · simp only [BoundingBox2D.isInside, hI, Bool.false_and]
  · intro h1 h2
    simp only [BoundingBox2D.isInside, Bool.and_eq_true] at h1 h2 ⊢
    exact ⟨⟨⟨hT h2.1.1.1 h1.1.1.1, hT h2.1.1.2 h1.1.1.2⟩, hT h1.1.2 h2.1.2⟩, hT h1.2 h2.2⟩
  · intro p h1 h2
    simp only [BoundingBox2D.isInside, BoundingBox2D.contains, Bool.and_eq_true] at h1 h2 ⊢
    exact ⟨⟨⟨hT h1.1.1.1 h2.1.1.1, hT h2.1.1.2 h1.1.2⟩, hT h1.1.1.2 h2.1.2⟩, hT h2.2 h1.2⟩
  · intro p hp
    simp only [BoundingBox2D.contains, Bool.and_eq_true] at hp
    obtain ⟨ox, zx⟩ := max3_zero (lo := a.min.x) (x := p.x) (hi := a.max.x) (by tauto) (by tauto)
    obtain ⟨oy, zy⟩ := max3_zero (lo := a.min.y) (x := p.y) (hi := a.max.y) (by tauto) (by tauto)
    obtain ⟨px, qx⟩ := LawfulZero.mul_zero _ _ ox ox zx zx
    obtain ⟨py, qy⟩ := LawfulZero.mul_zero _ _ oy oy zy zy
    obtain ⟨os, zs⟩ := LawfulZero.add_zero _ _ px py qx qy
    obtain ⟨or, zr⟩ := LawfulZero.sqrt_zero _ os zs
    refine ⟨_, _, nonNegative_zero os zs, zs, ?_, zr⟩
    simp only [BoundingBox2D.distance, BoundingBox2D.sqrDistance, nonNegative_zero os zs, Option.bind_eq_bind, Option.bind_some,
      nonNegative_zero or zr]
  · intro v
    constructor
    · rintro ⟨p, hp, rfl⟩
      simp only [BoundingBox2D.contains, Bool.and_eq_true] at hp
      simp only [BoundingBox2D.crossingXValue, BoundingBox2D.crossingYValue, Bool.and_eq_true]
      exact ⟨by tauto, ⟨p.y, by tauto⟩⟩
    · rintro ⟨hv, ⟨wY, hY⟩⟩
      simp only [BoundingBox2D.crossingXValue, BoundingBox2D.crossingYValue, Bool.and_eq_true] at hv hY
      refine ⟨⟨v, wY⟩, ?_, rfl⟩
      simp only [BoundingBox2D.contains, Bool.and_eq_true]
      tauto
  · intro v
    constructor
    · rintro ⟨p, hp, rfl⟩
      simp only [BoundingBox2D.contains, Bool.and_eq_true] at hp
      simp only [BoundingBox2D.crossingXValue, BoundingBox2D.crossingYValue, Bool.and_eq_true]
      exact ⟨by tauto, ⟨p.x, by tauto⟩⟩
    · rintro ⟨hv, ⟨wX, hX⟩⟩
      simp only [BoundingBox2D.crossingXValue, BoundingBox2D.crossingYValue, Bool.and_eq_true] at hv hX
      refine ⟨⟨wX, v⟩, ?_, rfl⟩
      simp only [BoundingBox2D.contains, Bool.and_eq_true]
      tauto

/-- C20 (3D), for every scalar type incl. binary64 with NaN: meaning of `contains` and `is_inside`,
duality with `has_inside`, strict partial order, compatibility, and the crossing tests. -/
theorem c20_containment_3d (a b c : BoundingBox3D α) :
    (∀ p, a.contains p = true ↔ ((box3 a).Ok ∧ ∀ d, ok (at3 p d)) ∧ (box3 a).MemInt (at3 p)) ∧
    (a.isInside b = true ↔ ((box3 a).Ok ∧ (box3 b).Ok) ∧
      ∀ d, key ((box3 b).lo d) < key ((box3 a).lo d) ∧ key ((box3 a).hi d) < key ((box3 b).hi d)) ∧
    a.isInside b = b.hasInside a ∧
    a.isInside a = false ∧
    (a.isInside b = true → b.isInside c = true → a.isInside c = true) ∧
    (∀ p, a.isInside b = true → a.contains p = true → b.contains p = true) ∧
    (∀ p, a.contains p = true → ∃ v w, a.sqrDistance p = some v ∧ key v.val = 0 ∧
      a.distance p = some w ∧ key w.val = 0) ∧
    (∀ v, (∃ p, a.contains p = true ∧ p.x = v) ↔ a.crossingXValue v = true ∧ (∃ w, a.crossingYValue w = true) ∧ ∃ w, a.crossingZValue w = true) ∧
    (∀ v, (∃ p, a.contains p = true ∧ p.y = v) ↔ a.crossingYValue v = true ∧ (∃ w, a.crossingXValue w = true) ∧ ∃ w, a.crossingZValue w = true) ∧
    (∀ v, (∃ p, a.contains p = true ∧ p.z = v) ↔ a.crossingZValue v = true ∧ (∃ w, a.crossingXValue w = true) ∧ ∃ w, a.crossingYValue w = true) := by
  have hT : ∀ {u v w : α}, (u <. v) = true → (v <. w) = true → (u <. w) = true := by
    intro u v w h1 h2
    rw [lt_iff] at *
    exact ⟨h1.1, h2.2.1, h1.2.2.trans h2.2.2⟩
  have hI : ∀ u : α, (u <. u) = false := by
    intro u
    rw [Bool.eq_false_iff]
    intro h
    rw [lt_iff] at h
    exact absurd h.2.2 (lt_irrefl _)
  refine ⟨?_, ?_, rfl, ?_, ?_, ?_, ?_, ?_, ?_, ?_⟩
  · intro p
    simp only [BoundingBox3D.contains, Bool.and_eq_true, lt_iff, Box.Ok, Box.MemInt, forall_fin3, at3_zero, at3_one, at3_two, box3]
    tauto
  · simp only [BoundingBox3D.isInside, Bool.and_eq_true, lt_iff, Box.Ok, forall_fin3, at3_zero, at3_one, at3_two, box3]
    tauto
  · simp only [BoundingBox3D.isInside, hI, Bool.false_and]
  · intro h1 h2
    simp only [BoundingBox3D.isInside, Bool.and_eq_true] at h1 h2 ⊢
    exact ⟨⟨⟨⟨⟨hT h2.1.1.1.1.1 h1.1.1.1.1.1, hT h2.1.1.1.1.2 h1.1.1.1.1.2⟩, hT h2.1.1.1.2 h1.1.1.1.2⟩, hT h1.1.1.2 h2.1.1.2⟩, hT h1.1.2 h2.1.2⟩, hT h1.2 h2.2⟩
  · intro p h1 h2
    simp only [BoundingBox3D.isInside, BoundingBox3D.contains, Bool.and_eq_true] at h1 h2 ⊢
    exact ⟨⟨⟨⟨⟨hT h1.1.1.1.1.1 h2.1.1.1.1.1, hT h2.1.1.1.1.2 h1.1.1.2⟩, hT h1.1.1.1.1.2 h2.1.1.1.2⟩, hT h2.1.1.2 h1.1.2⟩, hT h1.1.1.1.2 h2.1.2⟩, hT h2.2 h1.2⟩
  · intro p hp
    simp only [BoundingBox3D.contains, Bool.and_eq_true] at hp
    obtain ⟨ox, zx⟩ := max3_zero (lo := a.min.x) (x := p.x) (hi := a.max.x) (by tauto) (by tauto)
    obtain ⟨oy, zy⟩ := max3_zero (lo := a.min.y) (x := p.y) (hi := a.max.y) (by tauto) (by tauto)
    obtain ⟨oz, zz⟩ := max3_zero (lo := a.min.z) (x := p.z) (hi := a.max.z) (by tauto) (by tauto)
    obtain ⟨px, qx⟩ := LawfulZero.mul_zero _ _ ox ox zx zx
    obtain ⟨py, qy⟩ := LawfulZero.mul_zero _ _ oy oy zy zy
    obtain ⟨pz, qz⟩ := LawfulZero.mul_zero _ _ oz oz zz zz
    obtain ⟨os', zs'⟩ := LawfulZero.add_zero _ _ px py qx qy
    obtain ⟨os, zs⟩ := LawfulZero.add_zero _ _ os' pz zs' qz
    obtain ⟨or, zr⟩ := LawfulZero.sqrt_zero _ os zs
    refine ⟨_, _, nonNegative_zero os zs, zs, ?_, zr⟩
    simp only [BoundingBox3D.distance, BoundingBox3D.sqrDistance, nonNegative_zero os zs, Option.bind_eq_bind, Option.bind_some,
      nonNegative_zero or zr]
  · intro v
    constructor
    · rintro ⟨p, hp, rfl⟩
      simp only [BoundingBox3D.contains, Bool.and_eq_true] at hp
      simp only [BoundingBox3D.crossingXValue, BoundingBox3D.crossingYValue, BoundingBox3D.crossingZValue, Bool.and_eq_true]
      exact ⟨by tauto, ⟨p.y, by tauto⟩, ⟨p.z, by tauto⟩⟩
    · rintro ⟨hv, ⟨wY, hY⟩, ⟨wZ, hZ⟩⟩
      simp only [BoundingBox3D.crossingXValue, BoundingBox3D.crossingYValue, BoundingBox3D.crossingZValue, Bool.and_eq_true] at hv hY hZ
      refine ⟨⟨v, wY, wZ⟩, ?_, rfl⟩
      simp only [BoundingBox3D.contains, Bool.and_eq_true]
      tauto
  · intro v
    constructor
    · rintro ⟨p, hp, rfl⟩
      simp only [BoundingBox3D.contains, Bool.and_eq_true] at hp
      simp only [BoundingBox3D.crossingXValue, BoundingBox3D.crossingYValue, BoundingBox3D.crossingZValue, Bool.and_eq_true]
      exact ⟨by tauto, ⟨p.x, by tauto⟩, ⟨p.z, by tauto⟩⟩
    · rintro ⟨hv, ⟨wX, hX⟩, ⟨wZ, hZ⟩⟩
      simp only [BoundingBox3D.crossingXValue, BoundingBox3D.crossingYValue, BoundingBox3D.crossingZValue, Bool.and_eq_true] at hv hX hZ
      refine ⟨⟨wX, v, wZ⟩, ?_, rfl⟩
      simp only [BoundingBox3D.contains, Bool.and_eq_true]
      tauto
  · intro v
    constructor
    · rintro ⟨p, hp, rfl⟩
      simp only [BoundingBox3D.contains, Bool.and_eq_true] at hp
      simp only [BoundingBox3D.crossingXValue, BoundingBox3D.crossingYValue, BoundingBox3D.crossingZValue, Bool.and_eq_true]
      exact ⟨by tauto, ⟨p.x, by tauto⟩, ⟨p.y, by tauto⟩⟩
    · rintro ⟨hv, ⟨wX, hX⟩, ⟨wY, hY⟩⟩
      simp only [BoundingBox3D.crossingXValue, BoundingBox3D.crossingYValue, BoundingBox3D.crossingZValue, Bool.and_eq_true] at hv hX hY
      refine ⟨⟨wX, wY, v⟩, ?_, rfl⟩
      simp only [BoundingBox3D.contains, Bool.and_eq_true]
      tauto
end

/-- the hypotheses of the theorems on C15 to C17 above are met by doubles, among them infinity: points whose
coordinates are no NaN, in two orders, and two ordered boxes -/
example : (∀ p ∈ [(⟨.fin false 1, .inf false, .fin true 0⟩ : Point3D F64), ⟨.fin false 2, .fin true 3, .fin false 0⟩],
      ∀ d, ok (at3 p d)) ∧
    (∀ p ∈ [(⟨.fin false 1, .inf false⟩ : Point2D F64), ⟨.fin false 2, .fin true 3⟩], ∀ d, ok (at2 p d)) ∧
    [(⟨.fin false 1, .inf false⟩ : Point2D F64), ⟨.fin false 2, .fin true 3⟩].Perm [⟨.fin false 2, .fin true 3⟩, ⟨.fin false 1, .inf false⟩] ∧
    (box2 (⟨⟨.fin false 1, .fin true 3⟩, ⟨.fin false 2, .inf false⟩⟩ : BoundingBox2D F64)).Valid ∧
    (box3 (⟨⟨.fin false 1, .fin true 3, .fin true 1⟩, ⟨.fin false 2, .inf false, .fin false 5⟩⟩ : BoundingBox3D F64)).Valid := by
  refine ⟨?_, ?_, .swap _ _ _, ⟨?_, ?_⟩, ⟨?_, ?_⟩⟩
  · simp [forall_fin3, at3_zero, at3_one, at3_two, LawfulScalar.ok, F64.ok]
  · simp [at2_zero, at2_one, LawfulScalar.ok, F64.ok]
  · simp [Box.Ok, box2, at2_zero, at2_one, LawfulScalar.ok, F64.ok]
  · exact Fin.forall_fin_two.2 ⟨((F64.lt_iff _ _).1 (by decide +kernel)).2.2, ((F64.lt_iff _ _).1 (by decide +kernel)).2.2⟩
  · simp [Box.Ok, box3, forall_fin3, at3_zero, at3_one, at3_two, LawfulScalar.ok, F64.ok]
  · exact forall_fin3.2 ⟨((F64.lt_iff _ _).1 (by decide +kernel)).2.2, ((F64.lt_iff _ _).1 (by decide +kernel)).2.2,
      ((F64.lt_iff _ _).1 (by decide +kernel)).2.2⟩

end R3D

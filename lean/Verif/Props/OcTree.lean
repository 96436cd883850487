import Verif.Lemmas.OcTree
import Mathlib.Data.Nat.Prime.Basic
/-!
# C28, C29: the octree
-/
namespace R3D
open Scalar LawfulScalar Spec
namespace OcTree

variable {α : Type} [Scalar α]

/-- What the code relies on the hash set for: members come from the input, and every input point has a
numerically equal member. -/
def Enumerates [LawfulScalar α] (u pts : List (Point3D α)) : Prop :=
  (∀ p ∈ u, p ∈ pts) ∧ ∀ p ∈ pts, ∃ q ∈ u, ∀ d, key (at3 q d) = key (at3 p d)

/-- C28 fails for every cloud the octree can be built for, whatever the number type: one of the input
points that span the bounding box is neither collected nor counted, since the cells are open boxes. The
only assumptions are that the coordinates are not NaN and that the hash set lists the input points. -/
theorem c28_violated [LawfulScalar α] (fuel : Nat) (uniq : List (Point3D α) → List (Point3D α))
    (old t : OcTree α) (pts : List (Point3D α)) (hok : ∀ p ∈ pts, ∀ d, ok (at3 p d))
    (hu : Enumerates (uniq pts) pts) (hnd : (uniq pts).Nodup)
    (h : build fuel uniq old pts = (t, .ok ())) :
    (∃ p ∈ pts, ∀ r, t.toPointcloud = some r → ∀ q ∈ r, ¬ ∀ d, key (at3 q d) = key (at3 p d)) ∧
      t.size < (uniq pts).length := by
  obtain ⟨hfew, heq, hbox⟩ := c16_from_iterator_3d pts hok
  unfold build at h
  by_cases h2 : 2 ≤ pts.length
  · by_cases hd : ∃ d, ∀ p ∈ pts, ∀ q ∈ pts, key (at3 p d) = key (at3 q d)
    · rw [heq h2 hd] at h; simp [Except.toOption] at h
    · push Not at hd
      obtain ⟨b, hb, hv, hin, hat, -⟩ := hbox h2 hd
      rw [hb] at h
      simp only [Except.toOption] at h
      cases hn : OcNode.newNode fuel b (uniq pts) with
      | error e => rw [hn] at h; simp at h
      | ok r =>
        rw [hn] at h
        simp only [Prod.mk.injEq, and_true] at h
        have hlen : (uniq pts).length ≠ 1 := by
          intro hl
          obtain ⟨u, hu1⟩ := List.length_eq_one_iff.1 hl
          obtain ⟨p, hp, q, hq, hpq⟩ := hd 0
          obtain ⟨p', hp', e1⟩ := hu.2 p hp
          obtain ⟨q', hq', e2⟩ := hu.2 q hq
          rw [hu1, List.mem_singleton] at hp' hq'
          rw [← e1 0, ← e2 0, hp', hq'] at hpq
          exact hpq rfl
        have hint := OcNode.newNode_interior fuel b (uniq pts) r hn hv.1 hlen
        obtain ⟨⟨p, hp, hlo⟩, -⟩ := hat 0
        have hmiss : ∀ q ∈ r.points, ¬ ∀ d, key (at3 q d) = key (at3 p d) := by
          intro q hq he
          have := (hint q hq 0).1
          rw [hlo, he 0] at this
          exact lt_irrefl _ this
        refine ⟨⟨p, hp, fun l hl q hq => ?_⟩, ?_⟩
        · refine hmiss q ?_
          rw [← h] at hl
          rw [← OcNode.collectNode_neg (-1) (by decide) r 0 l hl]
          exact hq
        · rw [← h]
          show r.size < _
          rw [OcNode.size_eq]
          obtain ⟨q, hq, he⟩ := hu.2 p hp
          have hqn : q ∉ r.points := fun hq' => hmiss q hq' he
          have hsub : (q :: r.points) ⊆ uniq pts := by
            intro a ha
            rcases List.mem_cons.1 ha with rfl | ha
            · exact hq
            · exact OcNode.newNode_mem _ _ _ _ hn a ha
          have := (List.subperm_of_subset
            (List.nodup_cons.2 ⟨hqn, OcNode.newNode_nodup _ _ _ _ hn hnd⟩) hsub).length_le
          simp only [List.length_cons] at this
          omega
  · rw [hfew (by omega)] at h; simp [Except.toOption] at h

/-- an old tree -/
def old0 : OcTree F64 := ⟨.nil, ⟨⟨F64.ofRat 0, F64.ofRat 0, F64.ofRat 0⟩, ⟨F64.ofRat 1, F64.ofRat 1, F64.ofRat 1⟩⟩⟩
def q0 : List (Point3D F64) := [⟨F64.ofRat 0, F64.ofRat 0, F64.ofRat 0⟩,
  ⟨F64.ofRat 1, F64.ofRat 1, F64.ofRat 1⟩, ⟨F64.ofRat (1/4), F64.ofRat (1/8), F64.ofRat (3/4)⟩]

/-- three points of doubles: the build succeeds, and only the third point is left -/
example : (build 9 id old0 q0).2.toOption = some () ∧ (build 9 id old0 q0).1.size = 1 ∧
    (build 9 id old0 q0).1.toPointcloud = some [⟨F64.ofRat (1/4), F64.ofRat (1/8), F64.ofRat (3/4)⟩] := by
  decide +kernel

example : (∀ p ∈ q0, ∀ d, ok (at3 p d)) ∧ Enumerates (id q0) q0 ∧ (id q0).Nodup := by
  refine ⟨?_, ⟨fun _ h => h, fun p hp => ⟨p, hp, fun _ => rfl⟩⟩, by decide +kernel⟩
  have h : ∀ p ∈ q0, p.x ≠ .nan ∧ p.y ≠ .nan ∧ p.z ≠ .nan := by decide +kernel
  intro p hp
  rw [forall_fin3]
  exact h p hp

/-- C29: the construction ends (with exact arithmetic): for every cloud there is a number of steps after
which the result stays the same and no branch of the tree is unfinished. A cloud without a bounding box is
reported and leaves the tree as it was. -/
theorem c29_terminates (uniq : List (Point3D ℝ) → List (Point3D ℝ)) (old : OcTree ℝ)
    (pts : List (Point3D ℝ)) (hu : ∀ p, p ∈ uniq pts ↔ p ∈ pts) (hnd : (uniq pts).Nodup) :
    ((∀ b, BoundingBox3D.fromIterator pts ≠ .ok b) →
      ∀ fuel, build fuel uniq old pts = (old, .error .BoundingBoxMissing)) ∧
    (∀ b, BoundingBox3D.fromIterator pts = .ok b →
      ∃ N t, t.Complete ∧ ∀ fuel, N ≤ fuel → build fuel uniq old pts = (⟨t, b⟩, .ok ())) := by
  constructor
  · intro h fuel
    unfold build
    cases hb : BoundingBox3D.fromIterator pts with
    | error e => rfl
    | ok b => exact absurd hb (h b)
  · intro b hb
    obtain ⟨hfew, heq, hbox⟩ := c16_from_iterator_3d pts (fun _ _ _ => trivial)
    have h2 : 2 ≤ pts.length := by
      by_contra hc
      rw [hfew (by omega)] at hb; simp at hb
    have hd : ¬ ∃ d, ∀ p ∈ pts, ∀ q ∈ pts, key (at3 p d) = key (at3 q d) := by
      intro hc
      rw [heq h2 hc] at hb; simp at hb
    push Not at hd
    obtain ⟨b', hb', hv, hin, -, -⟩ := hbox h2 hd
    rw [hb] at hb'
    obtain rfl := Except.ok.inj hb'
    obtain ⟨δ, hδ, hsep⟩ := OcNode.exists_sep (uniq pts)
    -- enough halvings
    have hk : ∀ d : Fin 3, ∃ k : ℕ, (box3 b).hi d - (box3 b).lo d < δ * 2 ^ k := by
      intro d
      obtain ⟨k, hk⟩ := pow_unbounded_of_one_lt (((box3 b).hi d - (box3 b).lo d) / δ) one_lt_two
      exact ⟨k, by rw [div_lt_iff₀ hδ] at hk; linarith⟩
    obtain ⟨k0, h0⟩ := hk 0
    obtain ⟨k1, h1⟩ := hk 1
    obtain ⟨k2, h2'⟩ := hk 2
    have mono : ∀ {a c : ℕ}, a ≤ c → δ * 2 ^ a ≤ δ * (2:ℝ) ^ c := fun h =>
      mul_le_mul_of_nonneg_left (pow_le_pow_right₀ one_le_two h) hδ.le
    have hne : uniq pts ≠ [] := by
      match pts, h2 with
      | p :: _, _ => exact List.ne_nil_of_mem ((hu p).2 (by simp))
    obtain ⟨t, ht, hf⟩ := OcNode.newNode_terminates δ (k0 + k1 + k2) b (uniq pts) hv hsep hnd hne
      (fun p hp d => by
        have := hin p ((hu p).1 hp) d
        rwa [Real.key_le, Real.key_le] at this)
      (by
        rw [forall_fin3]
        exact ⟨h0.trans_le (mono (by omega)), h1.trans_le (mono (by omega)), h2'.trans_le (mono (by omega))⟩)
    refine ⟨k0 + k1 + k2 + 1, t, ht, fun fuel hfu => ?_⟩
    unfold build
    rw [hb]
    simp only [Except.toOption]
    rw [hf fuel hfu]

/-- C29: no point is invented or doubled, and `size` counts what is collected -/
theorem c29_sound (fuel : Nat) (uniq : List (Point3D α) → List (Point3D α)) (old t : OcTree α)
    (pts r : List (Point3D α)) (hu : ∀ p ∈ uniq pts, p ∈ pts) (hnd : (uniq pts).Nodup)
    (h : build fuel uniq old pts = (t, .ok ())) (hr : t.toPointcloud = some r) :
    (∀ p ∈ r, p ∈ pts) ∧ r.Nodup ∧ t.size = r.length := by
  unfold build at h
  split at h
  · simp at h
  · split at h
    · simp at h
    · rename_i x hx
      simp only [Prod.mk.injEq, and_true] at h
      subst h
      have e := OcNode.collectNode_neg (-1) (by decide) x 0 r hr
      subst e
      exact ⟨fun p hp => hu p (OcNode.newNode_mem _ _ _ _ hx p hp), OcNode.newNode_nodup _ _ _ _ hx hnd,
        OcNode.size_eq x⟩

/-- two points of reals: the hypotheses of both are met -/
noncomputable def p0 : List (Point3D ℝ) := [⟨0, 0, 0⟩, ⟨1, 1, 1⟩, ⟨1/3, 1/3, 1/3⟩]

theorem p0_box : BoundingBox3D.fromIterator p0 = .ok ⟨⟨0, 0, 0⟩, ⟨1, 1, 1⟩⟩ := by
  have h1 : ¬ (3:ℝ)⁻¹ < 0 := by norm_num
  have h2 : ¬ (1:ℝ) < 3⁻¹ := by norm_num
  have h3 : ¬ (1:ℝ) < 0 := by norm_num
  simp [p0, BoundingBox3D.fromIterator, BoundingBox3D.step, BoundingBox3D.new, h1, h2, h3]

example : ∃ N t, t.Complete ∧ ∀ fuel, N ≤ fuel →
    build fuel id ⟨.nil, ⟨⟨0, 0, 0⟩, ⟨1, 1, 1⟩⟩⟩ p0 = (⟨t, ⟨⟨0, 0, 0⟩, ⟨1, 1, 1⟩⟩⟩, .ok ()) :=
  (c29_terminates id _ p0 (fun _ => Iff.rfl) (by
    have h1 : (3:ℝ) ≠ 1 := by norm_num
    simp [p0, h1])).2 _ p0_box

/-- C28, what holds (exact arithmetic): an input point that lies on none of the planes bounding the cells
(`lo + m/2^k (hi - lo)` in some dimension) is kept, and collected exactly once. Missing: points on such
planes, above all the points that span the bounding box, are lost, see `c28_violated`. -/
theorem c28_keeps_partial (fuel : Nat) (uniq : List (Point3D ℝ) → List (Point3D ℝ)) (old t : OcTree ℝ)
    (pts r : List (Point3D ℝ)) (hu : ∀ p, p ∈ uniq pts ↔ p ∈ pts) (hnd : (uniq pts).Nodup)
    (h : build fuel uniq old pts = (t, .ok ())) (hc : t.root.Complete) (hr : t.toPointcloud = some r)
    (p : Point3D ℝ) (hp : p ∈ pts)
    (hoff : ∀ (d : Fin 3) (m k : ℕ), at3 p d ≠ at3 t.bb.min d + m / 2 ^ k * (at3 t.bb.max d - at3 t.bb.min d)) :
    ∃ a b, r = a ++ p :: b ∧ p ∉ a ∧ p ∉ b := by
  have hs := c29_sound fuel uniq old t pts r (fun p hp => (hu p).1 hp) hnd h hr
  have hmem : p ∈ r := by
    obtain ⟨hfew, heq, hbox⟩ := c16_from_iterator_3d pts (fun _ _ _ => trivial)
    unfold build at h
    split at h
    · simp at h
    · rename_i b hb
      split at h
      · simp at h
      · rename_i x hx
        simp only [Prod.mk.injEq, and_true] at h
        subst h
        have hb' : BoundingBox3D.fromIterator pts = .ok b := by
          cases hq : BoundingBox3D.fromIterator pts with
          | error e => rw [hq] at hb; simp [Except.toOption] at hb
          | ok c => rw [hq] at hb; simp only [Except.toOption, Option.some.injEq] at hb; rw [hb]
        have h2 : 2 ≤ pts.length := by
          by_contra hc
          rw [hfew (by omega)] at hb'; simp at hb'
        have hd : ¬ ∃ d, ∀ p ∈ pts, ∀ q ∈ pts, key (at3 p d) = key (at3 q d) := by
          intro hc
          rw [heq h2 hc] at hb'; simp at hb'
        push Not at hd
        obtain ⟨b', hb'', hv, hin, -, -⟩ := hbox h2 hd
        rw [hb'] at hb''
        obtain rfl := Except.ok.inj hb''
        rw [OcNode.collectNode_neg (-1) (by decide) x 0 r hr]
        refine OcNode.newNode_keeps fuel b (uniq pts) x p hx hc hv ((hu p).2 hp) (fun d => ?_) ?_
        · have := hin p hp d
          rwa [Real.key_le, Real.key_le] at this
        · rintro d ⟨m, k, e⟩
          exact hoff d m k e
  obtain ⟨a, b, e⟩ := List.append_of_mem hmem
  refine ⟨a, b, e, ?_, ?_⟩
  · intro ha
    have := hs.2.1
    rw [e, List.nodup_append] at this
    exact this.2.2 p ha p (by simp) rfl
  · intro hb
    have := hs.2.1
    rw [e, List.nodup_append, List.nodup_cons] at this
    exact this.2.1.1 hb

/-- one third is on none of the planes of the unit box -/
example : ∀ (d : Fin 3) (m k : ℕ), at3 (⟨1/3, 1/3, 1/3⟩ : Point3D ℝ) d ≠
    at3 (⟨0, 0, 0⟩ : Point3D ℝ) d + m / 2 ^ k * (at3 (⟨1, 1, 1⟩ : Point3D ℝ) d - at3 (⟨0, 0, 0⟩ : Point3D ℝ) d) := by
  have h : ∀ m k : ℕ, (1/3 : ℝ) ≠ 0 + m / 2 ^ k * (1 - 0) := by
    intro m k e
    have e1 : (2:ℝ) ^ k = 3 * m := by
      have : (2:ℝ) ^ k ≠ 0 := by positivity
      field_simp at e
      linarith
    have e2 : 2 ^ k = 3 * m := by exact_mod_cast e1
    have : 3 ∣ 2 ^ k := ⟨m, e2⟩
    exact absurd (Nat.Prime.dvd_of_dvd_pow Nat.prime_three this) (by decide)
  intro d m k
  revert d
  rw [forall_fin3]
  exact ⟨h m k, h m k, h m k⟩

/-- two points next to the corner of the unit box -/
noncomputable def deep : List (Point3D ℝ) :=
  [⟨0, 0, 0⟩, ⟨1, 1, 1⟩, ⟨1 / 2 ^ 201, 1 / 2 ^ 201, 1 / 2 ^ 201⟩, ⟨1 / 2 ^ 202, 1 / 2 ^ 202, 1 / 2 ^ 202⟩]

/-- C28, a second way it fails: two points close to each other compared to the extent of the cloud make
the tree deeper than the `i8` counting the depth in `collect` can count. The build succeeds, but `collect`
panics for every depth limit (overflow checks on) . -/
theorem c28_collect_violated (maxdepth : Int) : ∃ N t, t.root.Complete ∧
    (∀ fuel, N ≤ fuel → build fuel id ⟨.nil, ⟨⟨0, 0, 0⟩, ⟨1, 1, 1⟩⟩⟩ deep = (t, .ok ())) ∧
    t.collect maxdepth = none := by
  have pos : ∀ n : ℕ, 0 < 1 / (2:ℝ) ^ n := fun n => by positivity
  have mono : ∀ a b : ℕ, a < b → 1 / (2:ℝ) ^ b < 1 / 2 ^ a := fun a b h =>
    one_div_lt_one_div_of_lt (by positivity) (pow_lt_pow_right₀ one_lt_two h)
  have a1 := pos 201; have a2 := pos 202
  have b1 := mono 0 201 (by norm_num); have b2 := mono 0 202 (by norm_num)
  have c1 := mono 201 202 (by norm_num)
  rw [pow_zero, div_one] at b1 b2
  have hb : BoundingBox3D.fromIterator deep = .ok ⟨⟨0, 0, 0⟩, ⟨1, 1, 1⟩⟩ := by
    unfold deep
    generalize 1 / (2:ℝ) ^ 201 = a at a1 a2 b1 b2 c1 ⊢
    generalize 1 / (2:ℝ) ^ 202 = b at a1 a2 b1 b2 c1 ⊢
    have h3 : ¬ (1:ℝ) < 0 := by norm_num
    simp [BoundingBox3D.fromIterator, BoundingBox3D.step, BoundingBox3D.new, h3, a1.not_gt, a2.not_gt,
      b1.not_gt, b2.not_gt]
  have hnd : deep.Nodup := by
    unfold deep
    generalize 1 / (2:ℝ) ^ 201 = a at a1 a2 b1 b2 c1 ⊢
    generalize 1 / (2:ℝ) ^ 202 = b at a1 a2 b1 b2 c1 ⊢
    simp [a1.ne, a2.ne, b1.ne', b2.ne', c1.ne']
  obtain ⟨N, t, ht, hf⟩ := (c29_terminates id ⟨.nil, ⟨⟨0, 0, 0⟩, ⟨1, 1, 1⟩⟩⟩ deep (fun _ => Iff.rfl) hnd).2 _ hb
  refine ⟨N, _, ht, hf, ?_⟩
  have h1 := hf N le_rfl
  unfold build at h1
  rw [hb] at h1
  simp only [Except.toOption] at h1
  cases hn : OcNode.newNode N (⟨⟨0, 0, 0⟩, ⟨1, 1, 1⟩⟩ : BoundingBox3D ℝ) (id deep) with
  | error e => rw [hn] at h1; simp at h1
  | ok x =>
    rw [hn] at h1
    simp only [Prod.mk.injEq, OcTree.mk.injEq, and_true] at h1
    subst h1
    refine OcNode.collectNode_deep maxdepth 199 x 0 ?_ (by norm_num)
    refine OcNode.newNode_spine 200 N 1 (id deep) x ⟨1 / 2 ^ 201, 1 / 2 ^ 201, 1 / 2 ^ 201⟩
      ⟨1 / 2 ^ 202, 1 / 2 ^ 202, 1 / 2 ^ 202⟩ hn ht one_pos (by simp [deep]) (by simp [deep]) ?_ ?_ ?_
    · intro e
      exact c1.ne' (congrArg Point3D.x e)
    · have := mono 200 201 (by norm_num)
      rw [forall_fin3]; exact ⟨⟨a1, this⟩, ⟨a1, this⟩, a1, this⟩
    · have := mono 200 202 (by norm_num)
      rw [forall_fin3]; exact ⟨⟨a2, this⟩, ⟨a2, this⟩, a2, this⟩

end OcTree
end R3D

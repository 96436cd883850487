import Verif.Props.BoundingBox
import Verif.Lemmas.BoundingBoxReal
/-!
The bounding box of a list of points with exact arithmetic, as an equivalence.
-/
namespace R3D
open Scalar LawfulScalar Spec

/-- `b` is the tight box around the points -/
def Spec.IsBB2 (pts : List (Point2D ℝ)) (b : BoundingBox2D ℝ) : Prop :=
  (∀ d, at2 b.min d < at2 b.max d) ∧
  (∀ p ∈ pts, ∀ d, at2 b.min d ≤ at2 p d ∧ at2 p d ≤ at2 b.max d) ∧
  ∀ d, (∃ p ∈ pts, at2 p d = at2 b.min d) ∧ ∃ p ∈ pts, at2 p d = at2 b.max d

theorem Spec.IsBB2.unique {pts : List (Point2D ℝ)} {a b : BoundingBox2D ℝ} (ha : IsBB2 pts a)
    (hb : IsBB2 pts b) : a = b := by
  obtain ⟨a0, a1⟩ := a
  obtain ⟨b0, b1⟩ := b
  have e0 : a0 = b0 := by
    apply ext2
    intro d
    obtain ⟨p, hp, hpe⟩ := (ha.2.2 d).1
    obtain ⟨q, hq, hqe⟩ := (hb.2.2 d).1
    have h1 := (ha.2.1 q hq d).1
    have h2 := (hb.2.1 p hp d).1
    dsimp only at *
    linarith
  have e1 : a1 = b1 := by
    apply ext2
    intro d
    obtain ⟨p, hp, hpe⟩ := (ha.2.2 d).2
    obtain ⟨q, hq, hqe⟩ := (hb.2.2 d).2
    have h1 := (ha.2.1 q hq d).2
    have h2 := (hb.2.1 p hp d).2
    dsimp only at *
    linarith
  rw [e0, e1]

theorem fromIterator_real_2d (pts : List (Point2D ℝ)) (b : BoundingBox2D ℝ) :
    BoundingBox2D.fromIterator pts = .ok b ↔ IsBB2 pts b := by
  obtain ⟨h1, h2, h3⟩ := c16_from_iterator_2d pts (fun _ _ _ => True.intro)
  have fwd : ∀ b, BoundingBox2D.fromIterator pts = .ok b → IsBB2 pts b := by
    intro b hb
    have hlen : 2 ≤ pts.length := by
      by_contra hc
      rw [h1 (by omega)] at hb
      simp at hb
    have hd : ∀ d, ∃ p ∈ pts, ∃ q ∈ pts, key (at2 p d) ≠ key (at2 q d) := by
      by_contra hc
      push Not at hc
      rw [h2 hlen hc] at hb
      simp at hb
    obtain ⟨b', hb', hv, hm, ht, -⟩ := h3 hlen hd
    rw [hb'] at hb
    cases hb
    refine ⟨fun d => Real.key_lt.1 (hv.2 d), fun p hp d => ?_, fun d => ?_⟩
    · have := hm p hp d
      exact ⟨Real.key_le.1 this.1, Real.key_le.1 this.2⟩
    · obtain ⟨⟨p, hp, e⟩, q, hq, e'⟩ := ht d
      exact ⟨⟨p, hp, e.symm⟩, q, hq, e'.symm⟩
  refine ⟨fwd b, fun hb => ?_⟩
  have hd : ∀ d, ∃ p ∈ pts, ∃ q ∈ pts, key (at2 p d) ≠ key (at2 q d) := by
    intro d
    obtain ⟨⟨p, hp, e⟩, q, hq, e'⟩ := hb.2.2 d
    refine ⟨p, hp, q, hq, fun hc => ?_⟩
    have := hb.1 d
    rw [Real.key_eq] at hc
    linarith
  have hlen : 2 ≤ pts.length := by
    obtain ⟨p, hp, q, hq, hne⟩ := hd 0
    by_contra hc
    match pts, hc with
    | [], _ => simp at hp
    | [r], _ => simp at hp hq; subst hp hq; exact hne rfl
    | _ :: _ :: _, hc => simp at hc
  obtain ⟨b', hb', -⟩ := h3 hlen hd
  rw [hb', Spec.IsBB2.unique (fwd b' hb') hb]

/-- `b` is the tight box around the points -/
def Spec.IsBB3 (pts : List (Point3D ℝ)) (b : BoundingBox3D ℝ) : Prop :=
  (∀ d, at3 b.min d < at3 b.max d) ∧
  (∀ p ∈ pts, ∀ d, at3 b.min d ≤ at3 p d ∧ at3 p d ≤ at3 b.max d) ∧
  ∀ d, (∃ p ∈ pts, at3 p d = at3 b.min d) ∧ ∃ p ∈ pts, at3 p d = at3 b.max d

theorem Spec.IsBB3.unique {pts : List (Point3D ℝ)} {a b : BoundingBox3D ℝ} (ha : IsBB3 pts a)
    (hb : IsBB3 pts b) : a = b := by
  obtain ⟨a0, a1⟩ := a
  obtain ⟨b0, b1⟩ := b
  have e0 : a0 = b0 := by
    apply ext3
    intro d
    obtain ⟨p, hp, hpe⟩ := (ha.2.2 d).1
    obtain ⟨q, hq, hqe⟩ := (hb.2.2 d).1
    have h1 := (ha.2.1 q hq d).1
    have h2 := (hb.2.1 p hp d).1
    dsimp only at *
    linarith
  have e1 : a1 = b1 := by
    apply ext3
    intro d
    obtain ⟨p, hp, hpe⟩ := (ha.2.2 d).2
    obtain ⟨q, hq, hqe⟩ := (hb.2.2 d).2
    have h1 := (ha.2.1 q hq d).2
    have h2 := (hb.2.1 p hp d).2
    dsimp only at *
    linarith
  rw [e0, e1]

theorem fromIterator_real_3d (pts : List (Point3D ℝ)) (b : BoundingBox3D ℝ) :
    BoundingBox3D.fromIterator pts = .ok b ↔ IsBB3 pts b := by
  obtain ⟨h1, h2, h3⟩ := c16_from_iterator_3d pts (fun _ _ _ => True.intro)
  have fwd : ∀ b, BoundingBox3D.fromIterator pts = .ok b → IsBB3 pts b := by
    intro b hb
    have hlen : 2 ≤ pts.length := by
      by_contra hc
      rw [h1 (by omega)] at hb
      simp at hb
    have hd : ∀ d, ∃ p ∈ pts, ∃ q ∈ pts, key (at3 p d) ≠ key (at3 q d) := by
      by_contra hc
      push Not at hc
      rw [h2 hlen hc] at hb
      simp at hb
    obtain ⟨b', hb', hv, hm, ht, -⟩ := h3 hlen hd
    rw [hb'] at hb
    cases hb
    refine ⟨fun d => Real.key_lt.1 (hv.2 d), fun p hp d => ?_, fun d => ?_⟩
    · have := hm p hp d
      exact ⟨Real.key_le.1 this.1, Real.key_le.1 this.2⟩
    · obtain ⟨⟨p, hp, e⟩, q, hq, e'⟩ := ht d
      exact ⟨⟨p, hp, e.symm⟩, q, hq, e'.symm⟩
  refine ⟨fwd b, fun hb => ?_⟩
  have hd : ∀ d, ∃ p ∈ pts, ∃ q ∈ pts, key (at3 p d) ≠ key (at3 q d) := by
    intro d
    obtain ⟨⟨p, hp, e⟩, q, hq, e'⟩ := hb.2.2 d
    refine ⟨p, hp, q, hq, fun hc => ?_⟩
    have := hb.1 d
    rw [Real.key_eq] at hc
    linarith
  have hlen : 2 ≤ pts.length := by
    obtain ⟨p, hp, q, hq, hne⟩ := hd 0
    by_contra hc
    match pts, hc with
    | [], _ => simp at hp
    | [r], _ => simp at hp hq; subst hp hq; exact hne rfl
    | _ :: _ :: _, hc => simp at hc
  obtain ⟨b', hb', -⟩ := h3 hlen hd
  rw [hb', Spec.IsBB3.unique (fwd b' hb') hb]

end R3D

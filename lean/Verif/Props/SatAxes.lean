import Verif.Props.Sat
/-!
C49: which directions the separating axis test of two colliders looks at.
-/
namespace R3D
open Scalar Spec LawfulScalar

namespace Spec
/-- cross product -/
def vcross (a b : Point3D ℝ) : Point3D ℝ :=
  ⟨a.y * b.z - a.z * b.y, a.z * b.x - a.x * b.z, a.x * b.y - a.y * b.x⟩
/-- the vector from `p` to `q` -/
def fromTo (p q : Point3D ℝ) : Point3D ℝ := ⟨q.x - p.x, q.y - p.y, q.z - p.z⟩
/-- a vector orthogonal to a triangle -/
def orth (f : TriFace3D ℝ) : Point3D ℝ := vcross (fromTo f.a f.b) (fromTo f.b f.c)

/-- the directions in which a collider can be separated from others: the directions of the edges of a box; for a
triangle the direction orthogonal to it and, within its plane, those orthogonal to its edges -/
def SepDir : Collider3D ℝ → Point3D ℝ → Prop
  | .aabb _, v => v = ⟨1, 0, 0⟩ ∨ v = ⟨0, 1, 0⟩ ∨ v = ⟨0, 0, 1⟩
  | .box3 b, v => v = vcross b.zDir b.yDir ∨ v = b.yDir ∨ v = b.zDir
  | .face f, v => v = orth f ∨ v = vcross (orth f) (fromTo f.a f.b) ∨ v = vcross (orth f) (fromTo f.b f.c) ∨
      v = vcross (orth f) (fromTo f.c f.a)

/-- boxes with independent edges, triangles that are no line -/
def Solid : Collider3D ℝ → Prop
  | .aabb _ => True
  | .box3 b => vcross b.zDir b.yDir ≠ ⟨0, 0, 0⟩
  | .face f => orth f ≠ ⟨0, 0, 0⟩
end Spec

/-- `w` points in the direction of `v` -/
def SameDir (v w : Point3D ℝ) : Prop := ∃ k : ℝ, 0 < k ∧ w = ⟨k * v.x, k * v.y, k * v.z⟩

theorem SameDir.refl (v : Point3D ℝ) : SameDir v v := ⟨1, one_pos, by simp⟩

theorem SameDir.before {v w : Point3D ℝ} (h : SameDir v w) (A B : List (Point3D ℝ)) : Before A B w ↔ Before A B v := by
  obtain ⟨k, hk, rfl⟩ := h
  have e : ∀ p : Point3D ℝ, dot3 p ⟨k * v.x, k * v.y, k * v.z⟩ = k * dot3 p v := by
    intro p; simp [dot3, Fin.sum_univ_three]; ring
  unfold Before
  simp only [e, mul_lt_mul_iff_right₀ hk]

theorem newOrZ_sameDir {v : Point3D ℝ} (h : v ≠ ⟨0, 0, 0⟩) : ∃ w, Norm3D.newOrZ v = some w ∧ SameDir v w := by
  rw [Norm3D.newOrZ_real, if_neg h]
  refine ⟨_, rfl, 1 / Spec.len v, ?_, rfl⟩
  exact one_div_pos.2 (len_pos h)

theorem SameDir.trans {u v w : Point3D ℝ} (h1 : SameDir u v) (h2 : SameDir v w) : SameDir u w := by
  obtain ⟨k, hk, rfl⟩ := h1
  obtain ⟨l, hl, rfl⟩ := h2
  exact ⟨l * k, mul_pos hl hk, by simp [mul_assoc]⟩

theorem SameDir.cross {u v : Point3D ℝ} (h : SameDir u v) (e : Point3D ℝ) : SameDir (vcross u e) (vcross v e) := by
  obtain ⟨k, hk, rfl⟩ := h
  exact ⟨k, hk, by simp only [vcross, Point3D.mk.injEq]; refine ⟨?_, ?_, ?_⟩ <;> ring⟩

theorem SameDir.ne {u v : Point3D ℝ} (h : SameDir u v) (hu : u ≠ ⟨0, 0, 0⟩) : v ≠ ⟨0, 0, 0⟩ := by
  obtain ⟨k, hk, rfl⟩ := h
  intro hv
  apply hu
  obtain ⟨x, y, z⟩ := u
  simp only [Point3D.mk.injEq, mul_eq_zero, hk.ne', false_or] at hv
  simp [hv]

theorem eq_zero_of_cross {o e : Point3D ℝ} (ho : o ≠ ⟨0, 0, 0⟩) (h1 : vcross o e = ⟨0, 0, 0⟩)
    (h2 : o.x * e.x + o.y * e.y + o.z * e.z = 0) : e = ⟨0, 0, 0⟩ := by
  obtain ⟨a, b, c⟩ := o
  obtain ⟨x, y, z⟩ := e
  simp only [vcross, Point3D.mk.injEq] at h1 h2
  obtain ⟨g1, g2, g3⟩ := h1
  have hn : a * a + b * b + c * c ≠ 0 := by
    intro h
    apply ho
    have ha : a = 0 := by nlinarith [sq_nonneg a, sq_nonneg b, sq_nonneg c]
    have hb : b = 0 := by nlinarith [sq_nonneg a, sq_nonneg b, sq_nonneg c]
    have hc : c = 0 := by nlinarith [sq_nonneg a, sq_nonneg b, sq_nonneg c]
    rw [ha, hb, hc]
  have ex : (a * a + b * b + c * c) * x = 0 := by linear_combination a * h2 - b * g3 + c * g2
  have ey : (a * a + b * b + c * c) * y = 0 := by linear_combination b * h2 + a * g3 - c * g1
  have ez : (a * a + b * b + c * c) * z = 0 := by linear_combination c * h2 - a * g2 + b * g1
  rw [mul_eq_zero] at ex ey ez
  rw [ex.resolve_left hn, ey.resolve_left hn, ez.resolve_left hn]

theorem vcross_ne {f : TriFace3D ℝ} (h : orth f ≠ ⟨0, 0, 0⟩) :
    vcross (orth f) (fromTo f.a f.b) ≠ ⟨0, 0, 0⟩ ∧ vcross (orth f) (fromTo f.b f.c) ≠ ⟨0, 0, 0⟩ ∧
      vcross (orth f) (fromTo f.c f.a) ≠ ⟨0, 0, 0⟩ := by
  obtain ⟨⟨a, b, c⟩, ⟨d, e, g⟩, ⟨p, q, r⟩⟩ := f
  refine ⟨fun hc => ?_, fun hc => ?_, fun hc => ?_⟩
  all_goals
    have h0 := eq_zero_of_cross h hc (by simp only [orth, vcross, fromTo]; ring)
    apply h
    simp only [fromTo, Point3D.mk.injEq] at h0
    obtain ⟨h1, h2, h3⟩ := h0
    simp only [orth, vcross, fromTo, Point3D.mk.injEq]
  · rw [h1, h2, h3]; simp
  · rw [h1, h2, h3]; simp
  · have e1 : d - a = -(p - d) := by linarith
    have e2 : e - b = -(q - e) := by linarith
    have e3 : g - c = -(r - g) := by linarith
    rw [e1, e2, e3]
    refine ⟨?_, ?_, ?_⟩ <;> ring

/-- pairs of equal length whose members point in the same directions -/
theorem axes_of (c : Collider3D ℝ) (hc : Solid c) : ∃ pts axes, c.satObject = some (pts, axes) ∧ pts ≠ [] ∧
    (∀ w ∈ axes, ∃ v, SepDir c v ∧ SameDir v w) ∧ ∀ v, SepDir c v → ∃ w ∈ axes, SameDir v w := by
  cases c with
  | aabb b =>
    refine ⟨_, _, rfl, by simp [BoundingBox3D.satPoints], ?_, ?_⟩
    · intro w hw
      refine ⟨w, ?_, SameDir.refl w⟩
      simpa [BoundingBox3D.satAxes, SepDir, Norm3D.normX, Norm3D.normY, Norm3D.normZ] using hw
    · intro v hv
      refine ⟨v, ?_, SameDir.refl v⟩
      simpa [BoundingBox3D.satAxes, SepDir, Norm3D.normX, Norm3D.normY, Norm3D.normZ] using hv
  | box3 b =>
    obtain ⟨n, hn, hs⟩ := newOrZ_sameDir (v := vcross b.zDir b.yDir) hc
    have hn' : Norm3D.newOrZ (b.zDir.cross b.yDir) = some n := hn
    obtain ⟨pts, axes, e, ne⟩ := (Collider3D.box3 b).satObject_total
    have e' : axes = [n, b.yDir, b.zDir] := by
      simp [Collider3D.satObject, BoxUnaligned3D.satPoints, BoxUnaligned3D.satAxes, BoxUnaligned3D.dX, BoxUnaligned3D.xDir, hn'] at e
      exact e.2.symm
    subst e'
    refine ⟨pts, _, e, ne, ?_, ?_⟩
    · intro w hw
      simp only [List.mem_cons, List.not_mem_nil, or_false] at hw
      rcases hw with rfl | rfl | rfl
      · exact ⟨_, .inl rfl, hs⟩
      · exact ⟨_, .inr (.inl rfl), SameDir.refl _⟩
      · exact ⟨_, .inr (.inr rfl), SameDir.refl _⟩
    · rintro v (rfl | rfl | rfl)
      · exact ⟨n, by simp, hs⟩
      · exact ⟨b.yDir, by simp, SameDir.refl _⟩
      · exact ⟨b.zDir, by simp, SameDir.refl _⟩
  | face f =>
    obtain ⟨n, hn, hs⟩ := newOrZ_sameDir (v := orth f) hc
    obtain ⟨n1, n2, n3⟩ := vcross_ne hc
    obtain ⟨e1, h1, s1⟩ := newOrZ_sameDir ((hs.cross (fromTo f.a f.b)).ne n1)
    obtain ⟨e2, h2, s2⟩ := newOrZ_sameDir ((hs.cross (fromTo f.b f.c)).ne n2)
    obtain ⟨e3, h3, s3⟩ := newOrZ_sameDir ((hs.cross (fromTo f.c f.a)).ne n3)
    have s1' := (hs.cross (fromTo f.a f.b)).trans s1
    have s2' := (hs.cross (fromTo f.b f.c)).trans s2
    have s3' := (hs.cross (fromTo f.c f.a)).trans s3
    have hn' : Norm3D.newOrZ ((conn f.a f.b).cross (conn f.b f.c)) = some n := hn
    have h1' : Norm3D.newOrZ (n.cross (conn f.a f.b)) = some e1 := h1
    have h2' : Norm3D.newOrZ (n.cross (conn f.b f.c)) = some e2 := h2
    have h3' : Norm3D.newOrZ (n.cross (conn f.c f.a)) = some e3 := h3
    refine ⟨f.satPoints, [n, e1, e2, e3], ?_, by simp [TriFace3D.satPoints], ?_, ?_⟩
    · simp [Collider3D.satObject, TriFace3D.satAxes, hn', h1', h2', h3']
    · intro w hw
      simp only [List.mem_cons, List.not_mem_nil, or_false] at hw
      rcases hw with rfl | rfl | rfl | rfl
      · exact ⟨_, .inl rfl, hs⟩
      · exact ⟨_, .inr (.inl rfl), s1'⟩
      · exact ⟨_, .inr (.inr (.inl rfl)), s2'⟩
      · exact ⟨_, .inr (.inr (.inr rfl)), s3'⟩
    · rintro v (rfl | rfl | rfl | rfl)
      · exact ⟨n, by simp, hs⟩
      · exact ⟨e1, by simp, s1'⟩
      · exact ⟨e2, by simp, s2'⟩
      · exact ⟨e3, by simp, s3'⟩

/-- **C49**, exact arithmetic: two colliders (not both axis aligned) are reported exactly when no direction of an
edge of a box, orthogonal to a triangle or orthogonal to one of its edges within it strictly separates their points. -/
theorem c49_exact (a b : Collider3D ℝ) (ha : Solid a) (hb : Solid b) (h : ¬BothAabb a b) :
    ∃ pa pb r, ColliderPoints a pa ∧ ColliderPoints b pb ∧ a.collidesWith b = some r ∧
      (r = true ↔ ∀ v, SepDir a v ∨ SepDir b v → ¬Before pa pb v ∧ ¬Before pb pa v) := by
  obtain ⟨pa, xa, ea, na, a1, a2⟩ := axes_of a ha
  obtain ⟨pb, xb, eb, nb, b1, b2⟩ := axes_of b hb
  refine ⟨pa, pb, Sat.collide pa xa pb xb, ⟨_, ea⟩, ⟨_, eb⟩, ?_, ?_⟩
  · rw [Collider3D.collidesWith_sat a b h]; simp [Collider3D.sat, ea, eb]
  · rw [c49_sat_iff pa xa pb xb na nb]
    simp only [List.mem_append]
    constructor
    · rintro hx v (hv | hv)
      · obtain ⟨w, hw, hs⟩ := a2 v hv
        rw [← hs.before, ← hs.before]; exact hx w (.inl hw)
      · obtain ⟨w, hw, hs⟩ := b2 v hv
        rw [← hs.before, ← hs.before]; exact hx w (.inr hw)
    · rintro hx w (hw | hw)
      · obtain ⟨v, hv, hs⟩ := a1 w hw
        rw [hs.before, hs.before]; exact hx v (.inl hv)
      · obtain ⟨v, hv, hs⟩ := b1 w hw
        rw [hs.before, hs.before]; exact hx v (.inr hv)

/-- non-vacuity -/
example : ∃ (b : BoundingBox3D ℝ) (f : TriFace3D ℝ), Solid (.aabb b) ∧ Solid (.face f) ∧ ¬BothAabb (.aabb b) (.face f) := by
  refine ⟨⟨⟨0, 0, 0⟩, ⟨1, 1, 1⟩⟩, ⟨⟨0, 0, 0⟩, ⟨1, 0, 0⟩, ⟨0, 1, 0⟩⟩, trivial, ?_, id⟩
  simp [Solid, orth, vcross, fromTo]

end R3D

import Verif.Props.Subdivide
import Verif.Props.Within
import Verif.Model.Nd
/-!
C145: linear subdivision, repeated any number of times, refines a mesh without changing its surface.
-/
namespace R3D
open Scalar LawfulScalar Spec SubdivideSpec

/-- the point in the middle, as `center_nd` computes it (`/repo/src/is_buildable_nd.rs` L45-64, see `c145_middle`) -/
def Spec.mid3 {α : Type} [Scalar α] (p q : Point3D α) : Point3D α :=
  ⟨lit (1 / 2) * (p.x + q.x), lit (1 / 2) * (p.y + q.y), lit (1 / 2) * (p.z + q.z)⟩

/-- subdividing `k` times -/
def Spec.subdivided {P : Type} (center : P → P → P) : Nat → TMesh P → Panics (Res (TMesh P))
  | 0, m => some (.ok m)
  | k + 1, m =>
    match TMesh.linear center m with
    | some (.ok r) => subdivided center k r
    | e => e

/-- twice the area of a triangle times its unit normal -/
noncomputable def Spec.areaNormal (a b c : Point3D ℝ) : Fin 3 → ℝ :=
  ![(b.y - a.y) * (c.z - a.z) - (b.z - a.z) * (c.y - a.y), (b.z - a.z) * (c.x - a.x) - (b.x - a.x) * (c.z - a.z),
    (b.x - a.x) * (c.y - a.y) - (b.y - a.y) * (c.x - a.x)]

/-- the area of a triangle -/
noncomputable def Spec.area (a b c : Point3D ℝ) : ℝ := √(∑ d, areaNormal a b c d ^ 2) / 2

/-- the signed volume between a triangle and the origin -/
noncomputable def Spec.signedVolume (a b c : Point3D ℝ) : ℝ :=
  (a.x * (b.y * c.z - b.z * c.y) + a.y * (b.z * c.x - b.x * c.z) + a.z * (b.x * c.y - b.y * c.x)) / 6

/-- the sum of the sides of a triangle -/
noncomputable def Spec.perimeter (a b c : Point3D ℝ) : ℝ := eucl (at3 a) (at3 b) + eucl (at3 b) (at3 c) + eucl (at3 c) (at3 a)

/-- the value of one face -/
noncomputable def Spec.atFace (g : Point3D ℝ → Point3D ℝ → Point3D ℝ → ℝ) (m : TMesh (Point3D ℝ)) (f : Face3) : ℝ :=
  match m.verts[f.a]?, m.verts[f.b]?, m.verts[f.c]? with
  | some a, some b, some c => g a b c
  | _, _, _ => 0

/-- the sum over all faces -/
noncomputable def Spec.overFaces (g : Point3D ℝ → Point3D ℝ → Point3D ℝ → ℝ) (m : TMesh (Point3D ℝ)) : ℝ := (m.faces.map (atFace g m)).sum

/-- the corners of a face -/
def Spec.HasFace (m : TMesh (Point3D ℝ)) (a b c : Point3D ℝ) : Prop :=
  ∃ f ∈ m.faces, m.verts[f.a]? = some a ∧ m.verts[f.b]? = some b ∧ m.verts[f.c]? = some c

/-- `g` of a triangle is the sum of `g` of the four triangles it is divided into -/
def Additive4 (g : Point3D ℝ → Point3D ℝ → Point3D ℝ → ℝ) : Prop := ∀ a b c, g a b c =
  g a (mid3 a b) (mid3 c a) + g (mid3 a b) b (mid3 b c) + g (mid3 a b) (mid3 b c) (mid3 c a) + g (mid3 c a) (mid3 b c) c

/-- the relation of the four triangles to the one they are made from -/
def Shrinks (a' b' c' a b c : Point3D ℝ) : Prop :=
  (∀ d, areaNormal a' b' c' d = 1 / 4 * areaNormal a b c d) ∧ perimeter a' b' c' = 1 / 2 * perimeter a b c

theorem eucl_half {p q r s : Point3D ℝ} (hx : p.x - q.x = 1 / 2 * (r.x - s.x) ∨ p.x - q.x = -(1 / 2 * (r.x - s.x)))
    (hy : p.y - q.y = 1 / 2 * (r.y - s.y) ∨ p.y - q.y = -(1 / 2 * (r.y - s.y)))
    (hz : p.z - q.z = 1 / 2 * (r.z - s.z) ∨ p.z - q.z = -(1 / 2 * (r.z - s.z))) : eucl (at3 p) (at3 q) = 1 / 2 * eucl (at3 r) (at3 s) := by
  have e : ∀ u v : ℝ, u = 1 / 2 * v ∨ u = -(1 / 2 * v) → u ^ 2 = (1 / 2) ^ 2 * v ^ 2 := by
    rintro u v (rfl | rfl) <;> ring
  have : Spec.sqrDist (at3 p) (at3 q) = (1 / 2) ^ 2 * Spec.sqrDist (at3 r) (at3 s) := by
    simp only [Spec.sqrDist, Fin.sum_univ_three, at3, Matrix.cons_val]
    rw [e _ _ hx, e _ _ hy, e _ _ hz]
    ring
  rw [eucl, this, Real.sqrt_mul (by norm_num), Real.sqrt_sq (by norm_num), eucl]

theorem shrinks_four (a b c : Point3D ℝ) :
    Shrinks a (mid3 a b) (mid3 c a) a b c ∧ Shrinks (mid3 a b) b (mid3 b c) a b c ∧
    Shrinks (mid3 a b) (mid3 b c) (mid3 c a) a b c ∧ Shrinks (mid3 c a) (mid3 b c) c a b c := by
  have L : ((lit (1 / 2) : ℝ)) = 1 / 2 := by simp
  refine ⟨⟨?_, ?_⟩, ⟨?_, ?_⟩, ⟨?_, ?_⟩, ?_, ?_⟩
  any_goals
    rw [forall_fin3]
    simp only [areaNormal, mid3, L, Matrix.cons_val]
    refine ⟨?_, ?_, ?_⟩ <;> ring
  all_goals unfold perimeter
  · rw [eucl_half (p := a) (q := mid3 a b) (r := a) (s := b), eucl_half (p := mid3 a b) (q := mid3 c a) (r := b) (s := c),
      eucl_half (p := mid3 c a) (q := a) (r := c) (s := a)]
    · ring
    all_goals simp only [mid3, L]; left; ring
  · rw [eucl_half (p := mid3 a b) (q := b) (r := a) (s := b), eucl_half (p := b) (q := mid3 b c) (r := b) (s := c),
      eucl_half (p := mid3 b c) (q := mid3 a b) (r := c) (s := a)]
    · ring
    all_goals simp only [mid3, L]; left; ring
  · rw [eucl_half (p := mid3 a b) (q := mid3 b c) (r := c) (s := a), eucl_half (p := mid3 b c) (q := mid3 c a) (r := a) (s := b),
      eucl_half (p := mid3 c a) (q := mid3 a b) (r := b) (s := c)]
    · ring
    all_goals simp only [mid3, L]; right; ring
  · rw [eucl_half (p := mid3 c a) (q := mid3 b c) (r := a) (s := b), eucl_half (p := mid3 b c) (q := c) (r := b) (s := c),
      eucl_half (p := c) (q := mid3 c a) (r := c) (s := a)]
    · ring
    all_goals simp only [mid3, L]; left; ring

theorem area_shrinks {a' b' c' a b c : Point3D ℝ} (h : Shrinks a' b' c' a b c) : area a' b' c' = 1 / 4 * area a b c := by
  unfold area
  rw [show ∑ d, areaNormal a' b' c' d ^ 2 = (1 / 4) ^ 2 * ∑ d, areaNormal a b c d ^ 2 by
    rw [Finset.mul_sum]; exact Finset.sum_congr rfl fun d _ => by rw [h.1 d]; ring]
  rw [Real.sqrt_mul (by norm_num), Real.sqrt_sq (by norm_num)]
  ring

theorem area_additive : Additive4 area := fun a b c => by
  obtain ⟨h1, h2, h3, h4⟩ := shrinks_four a b c
  rw [area_shrinks h1, area_shrinks h2, area_shrinks h3, area_shrinks h4]
  ring

theorem volume_additive : Additive4 signedVolume := fun a b c => by
  have L : ((lit (1 / 2) : ℝ)) = 1 / 2 := by simp
  simp only [signedVolume, mid3, L]
  ring

theorem mid3_comm (p q : Point3D ℝ) : mid3 p q = mid3 q p := by simp only [mid3, add_comm]

theorem sub_step (m : TMesh (Point3D ℝ)) (hwf : m.WellFormed) : ∃ r, TMesh.linear mid3 m = some (.ok r) ∧ r.WellFormed ∧
    r.numFaces = 4 * m.numFaces ∧ (∃ new, r.verts = m.verts ++ new ∧ ∀ c ∈ new, ∃ p ∈ m.verts, ∃ q ∈ m.verts, c = mid3 p q) ∧
    (∀ g, Additive4 g → overFaces g r = overFaces g m) ∧
    ∀ a' b' c', HasFace r a' b' c' → ∃ a b c, HasFace m a b c ∧ Shrinks a' b' c' a b c := by
  obtain ⟨r, mid, e, ⟨new, hnew⟩, hf, hn, -, hmid, -, hsurj, hw⟩ := c13_linear_subdivision mid3 mid3_comm m hwf
  have old : ∀ i, i < m.verts.length → r.verts[i]? = m.verts[i]? := fun i h => by rw [hnew, List.getElem?_append_left h]
  have one : ∀ f ∈ m.faces, ∃ a b c, m.verts[f.a]? = some a ∧ m.verts[f.b]? = some b ∧ m.verts[f.c]? = some c ∧
      r.verts[f.a]? = some a ∧ r.verts[f.b]? = some b ∧ r.verts[f.c]? = some c ∧ r.verts[mid f.a f.b]? = some (mid3 a b) ∧
      r.verts[mid f.b f.c]? = some (mid3 b c) ∧ r.verts[mid f.c f.a]? = some (mid3 c a) := by
    intro f hfm
    obtain ⟨h1, h2, h3, n1, n2, n3⟩ := hwf f hfm
    have ga := List.getElem?_eq_getElem h1
    have gb := List.getElem?_eq_getElem h2
    have gc := List.getElem?_eq_getElem h3
    refine ⟨_, _, _, ga, gb, gc, (old _ h1).trans ga, (old _ h2).trans gb, (old _ h3).trans gc, ?_, ?_, ?_⟩
    · obtain ⟨-, p, q, hp, hq, h⟩ := hmid f.a f.b ⟨f, hfm, n1, .inl rfl, .inr (.inl rfl)⟩
      rw [ga] at hp; rw [gb] at hq; cases hp; cases hq; exact h
    · obtain ⟨-, p, q, hp, hq, h⟩ := hmid f.b f.c ⟨f, hfm, n3, .inr (.inl rfl), .inr (.inr rfl)⟩
      rw [gb] at hp; rw [gc] at hq; cases hp; cases hq; exact h
    · obtain ⟨-, p, q, hp, hq, h⟩ := hmid f.c f.a ⟨f, hfm, n2.symm, .inr (.inr rfl), .inl rfl⟩
      rw [gc] at hp; rw [ga] at hq; cases hp; cases hq; exact h
  refine ⟨r, e, hw, hn, ⟨new, hnew, ?_⟩, ?_, ?_⟩
  · intro c hc
    obtain ⟨i, hi, rfl⟩ := List.getElem_of_mem hc
    have hv : r.verts[m.verts.length + i]? = some new[i] := by
      rw [hnew, List.getElem?_append_right (by omega)]
      simp
    obtain ⟨j, k, he, hjk⟩ := hsurj (m.verts.length + i) (by simp [TMesh.numVertices]) (by
      rw [TMesh.numVertices, hnew, List.length_append]; omega)
    obtain ⟨-, p, q, hp, hq, h⟩ := hmid j k he
    rw [hjk, hv] at h
    exact ⟨p, List.mem_of_getElem? hp, q, List.mem_of_getElem? hq, Option.some.inj h⟩
  · intro g hg
    unfold overFaces
    rw [hf]
    have : ∀ l : List Face3, (∀ f ∈ l, f ∈ m.faces) → ((l.flatMap (four mid)).map (atFace g r)).sum = (l.map (atFace g m)).sum := by
      intro l
      induction l with
      | nil => intro _; rfl
      | cons f l ih =>
        intro hl
        obtain ⟨a, b, c, ha, hb, hc, ra, rb, rc, rab, rbc, rca⟩ := one f (hl f (by simp))
        rw [List.flatMap_cons, List.map_append, List.sum_append, ih fun x hx => hl x (by simp [hx]), List.map_cons, List.sum_cons]
        congr 1
        simp only [four, List.map_cons, List.map_nil, List.sum_cons, List.sum_nil, atFace, ha, hb, hc, ra, rb, rc, rab, rbc, rca]
        rw [hg a b c]
        ring
    exact this m.faces fun f h => h
  · rintro a' b' c' ⟨f', hf', ha', hb', hc'⟩
    rw [hf, List.mem_flatMap] at hf'
    obtain ⟨f, hfm, hf4⟩ := hf'
    obtain ⟨a, b, c, ha, hb, hc, ra, rb, rc, rab, rbc, rca⟩ := one f hfm
    refine ⟨a, b, c, ⟨f, hfm, ha, hb, hc⟩, ?_⟩
    obtain ⟨s1, s2, s3, s4⟩ := shrinks_four a b c
    simp only [four, List.mem_cons, List.not_mem_nil, or_false] at hf4
    rcases hf4 with rfl | rfl | rfl | rfl <;>
      simp only [ra, rb, rc, rab, rbc, rca, Option.some.injEq] at ha' hb' hc' <;> subst ha' hb' hc' <;> assumption

/-- **C145** the midpoint used here is the one `subdivide::linear` computes. -/
theorem c145_middle {α : Type} [Scalar α] (p q : Point3D α) : centerNd p q = some (.ok (mid3 p q)) := rfl

/-- **C145** subdividing a well formed mesh any number of times succeeds and changes the description, not the surface: the number of faces is multiplied by 4 every
time, the old vertices keep their ids, the area and the enclosed volume stay the same, nothing leaves a half space the mesh is in,
the bounding box stays the same, every face has the direction of a face of the mesh, `4 ^ k` times smaller, with sides `2 ^ k`
times shorter (exact arithmetic). -/
theorem c145_subdivide (k : Nat) (m : TMesh (Point3D ℝ)) (hwf : m.WellFormed) : ∃ r, subdivided mid3 k m = some (.ok r) ∧ r.WellFormed ∧
    r.numFaces = 4 ^ k * m.numFaces ∧ (∃ new, r.verts = m.verts ++ new) ∧
    overFaces area r = overFaces area m ∧ overFaces signedVolume r = overFaces signedVolume m ∧
    (∀ u c, (∀ p ∈ m.verts, InHalf3 u c p) → ∀ p ∈ r.verts, InHalf3 u c p) ∧
    (∀ bb, BoundingBox3D.fromIterator m.verts = .ok bb → BoundingBox3D.fromIterator r.verts = .ok bb) ∧
    ∀ a' b' c', HasFace r a' b' c' → ∃ a b c, HasFace m a b c ∧ (∀ d, areaNormal a' b' c' d = (1 / 4) ^ k * areaNormal a b c d) ∧
      perimeter a' b' c' = (1 / 2) ^ k * perimeter a b c := by
  induction k generalizing m with
  | zero => exact ⟨m, rfl, hwf, by simp, ⟨[], by simp⟩, rfl, rfl, fun _ _ h => h, fun _ h => h, fun a b c h => ⟨a, b, c, h, by simp, by simp⟩⟩
  | succ k ih =>
    obtain ⟨s, es, ws, ns, ⟨n1, hn1, hmidp⟩, gs, fs⟩ := sub_step m hwf
    obtain ⟨r, er, wr, nr, ⟨n2, hn2⟩, ar, vr, ur, br, fr⟩ := ih s ws
    have half : ∀ u c, (∀ p ∈ m.verts, InHalf3 u c p) → ∀ p ∈ s.verts, InHalf3 u c p := by
      intro u c h p hp
      rw [hn1, List.mem_append] at hp
      rcases hp with hp | hp
      · exact h p hp
      · obtain ⟨x, hx, y, hy, rfl⟩ := hmidp p hp
        have a1 := h x hx
        have a2 := h y hy
        simp only [InHalf3, Fin.sum_univ_three, at3, Matrix.cons_val, mid3, Real.scalar_lit] at *
        push_cast
        linarith
    have bbs : ∀ bb, BoundingBox3D.fromIterator m.verts = .ok bb → BoundingBox3D.fromIterator s.verts = .ok bb := by
      intro bb h
      rw [fromIterator_real_3d] at h ⊢
      obtain ⟨b1, b2, b3⟩ := h
      refine ⟨b1, ?_, fun d => ?_⟩
      · intro p hp d
        rw [hn1, List.mem_append] at hp
        rcases hp with hp | hp
        · exact b2 p hp d
        · obtain ⟨x, hx, y, hy, rfl⟩ := hmidp p hp
          have e : at3 (mid3 x y) d = 1 / 2 * (at3 x d + at3 y d) := by
            revert d; rw [forall_fin3]; simp [at3, mid3]
          have := b2 x hx d
          have := b2 y hy d
          rw [e]
          constructor <;> linarith
      · obtain ⟨⟨p, hp, e1⟩, q, hq, e2⟩ := b3 d
        exact ⟨⟨p, by rw [hn1]; simp [hp], e1⟩, q, by rw [hn1]; simp [hq], e2⟩
    refine ⟨r, by rw [subdivided, es]; exact er, wr, by rw [nr, ns]; ring, ⟨n1 ++ n2, by rw [hn2, hn1, List.append_assoc]⟩,
      ar.trans (gs _ area_additive), vr.trans (gs _ volume_additive), fun u c h => ur u c (half u c h), fun bb h => br bb (bbs bb h), ?_⟩
    intro a' b' c' h
    obtain ⟨a, b, c, h1, h2, h3⟩ := fr a' b' c' h
    obtain ⟨x, y, z, g1, g2, g3⟩ := fs a b c h1
    exact ⟨x, y, z, g1, fun d => by rw [h2, g2]; ring, by rw [h3, g3]; ring⟩

/-- **C145** is violated for doubles: of a mesh with finite coordinates from `2 ^ 1023` on, the new vertices are infinitely far away. -/
theorem c145_violated_far : ∃ m r : TMesh (Point3D F64), m.WellFormed ∧ (∀ p ∈ m.verts, p.x = F64.ofRat (2 ^ 1023)) ∧
    TMesh.linear mid3 m = some (.ok r) ∧ ∃ p ∈ r.verts, p.x = F64.inf false := by
  refine ⟨⟨[⟨F64.ofRat (2 ^ 1023), F64.ofRat 0, F64.ofRat 0⟩, ⟨F64.ofRat (2 ^ 1023), F64.ofRat 1, F64.ofRat 0⟩,
    ⟨F64.ofRat (2 ^ 1023), F64.ofRat 0, F64.ofRat 1⟩], [⟨0, 1, 2⟩]⟩,
    ⟨[⟨F64.ofRat (2 ^ 1023), F64.ofRat 0, F64.ofRat 0⟩, ⟨F64.ofRat (2 ^ 1023), F64.ofRat 1, F64.ofRat 0⟩,
      ⟨F64.ofRat (2 ^ 1023), F64.ofRat 0, F64.ofRat 1⟩, ⟨F64.inf false, F64.ofRat (1 / 2), F64.ofRat 0⟩,
      ⟨F64.inf false, F64.ofRat (1 / 2), F64.ofRat (1 / 2)⟩, ⟨F64.inf false, F64.ofRat 0, F64.ofRat (1 / 2)⟩],
      [⟨0, 3, 5⟩, ⟨3, 1, 4⟩, ⟨3, 4, 5⟩, ⟨5, 4, 2⟩]⟩, ?_, ?_, ?_, ?_⟩
  · intro g hg
    simp only [List.mem_cons, List.not_mem_nil, or_false] at hg
    subst hg
    simp
  · intro p hp
    simp only [List.mem_cons, List.not_mem_nil, or_false] at hp
    rcases hp with rfl | rfl | rfl <;> dsimp only
  · decide +kernel
  · exact ⟨⟨F64.inf false, F64.ofRat (1 / 2), F64.ofRat 0⟩, by simp, rfl⟩

/-- a mesh of two triangles sharing an edge, of area 3 / 2 -/
example : (⟨[⟨0, 0, 0⟩, ⟨1, 0, 0⟩, ⟨0, 1, 0⟩, ⟨0, 0, 2⟩], [⟨0, 1, 2⟩, ⟨0, 3, 1⟩]⟩ : TMesh (Point3D ℝ)).WellFormed ∧
    overFaces area (⟨[⟨0, 0, 0⟩, ⟨1, 0, 0⟩, ⟨0, 1, 0⟩, ⟨0, 0, 2⟩], [⟨0, 1, 2⟩, ⟨0, 3, 1⟩]⟩ : TMesh (Point3D ℝ)) = 3 / 2 := by
  constructor
  · intro f hf
    simp only [List.mem_cons, List.not_mem_nil, or_false] at hf
    rcases hf with rfl | rfl <;> simp
  · simp [overFaces, atFace, area, areaNormal, Fin.sum_univ_three]
    norm_num

end R3D

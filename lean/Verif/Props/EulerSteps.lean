import Verif.Props.SubdivideEuler
/-!
C145, topology: `subdivide::linear` (src/subdivide.rs:36-81) any number of times.
-/
namespace R3D
open Scalar LawfulScalar Spec SubdivideSpec

theorem inner_determines {P : Type} (m : TMesh P) (hwf : m.WellFormed) (mid : Nat → Nat → Nat)
    (hinj : ∀ i j i' j', IsEdge m i j → IsEdge m i' j' → mid i j = mid i' j' → (i = i' ∧ j = j') ∨ (i = j' ∧ j = i'))
    (hsym : ∀ i j, mid i j = mid j i) (f : Face3) (hfm : f ∈ m.faces) (x : Nat × Nat) (hx : x ∈ innerPairs mid f) (w : Nat) :
    (∃ j, IsEdge m w j ∧ (mid w j = x.1 ∨ mid w j = x.2)) ↔ w ∈ cornerSet f := by
  obtain ⟨e1, e2, e3⟩ := face_edges m hwf f hfm
  simp only [innerPairs, Finset.mem_insert, Finset.mem_singleton] at hx
  simp only [cornerSet, Finset.mem_insert, Finset.mem_singleton]
  rcases hx with hx | hx | hx
  · rw [joined_corners m mid hinj hsym _ _ _ e1 e2 x hx w]
  · rw [joined_corners m mid hinj hsym _ _ _ e2 e3 x hx w]; omega
  · rw [joined_corners m mid hinj hsym _ _ _ e3 e1 x hx w]; omega

/-- subdivision makes no faces of the same corners -/
theorem noTwins_step {P : Type} (center : P → P → P) (hcomm : ∀ p q, center p q = center q p) (m r : TMesh P) (hwf : m.WellFormed)
    (ht : NoTwins m) (hr : TMesh.linear center m = some (.ok r)) : NoTwins r := by
  obtain ⟨r', mid, e, -, hf, -, hsym, hmid, hinj, -, -⟩ := c13_linear_subdivision center hcomm m hwf
  rw [hr] at e
  cases e
  have hlow : ∀ i j, IsEdge m i j → i < m.numVertices ∧ j < m.numVertices ∧ m.numVertices ≤ mid i j := by
    intro i j h
    obtain ⟨h1, p, q, h2, h3, -⟩ := hmid i j h
    exact ⟨(List.getElem?_eq_some_iff.1 h2).1, (List.getElem?_eq_some_iff.1 h3).1, h1⟩
  have hne : ∀ f ∈ m.faces, f.a ≠ f.b ∧ f.b ≠ f.c ∧ f.c ≠ f.a ∧ mid f.a f.b ≠ mid f.b f.c ∧ mid f.b f.c ≠ mid f.c f.a ∧ mid f.c f.a ≠ mid f.a f.b := by
    intro f hfm
    obtain ⟨e1, e2, e3⟩ := face_edges m hwf f hfm
    have a1 := e1.choose_spec.2.1
    have a2 := e2.choose_spec.2.1
    have a3 := e3.choose_spec.2.1
    refine ⟨a1, a2, a3, fun h => ?_, fun h => ?_, fun h => ?_⟩
    · have := hinj _ _ _ _ e1 e2 h; omega
    · have := hinj _ _ _ _ e2 e3 h; omega
    · have := hinj _ _ _ _ e3 e1 h; omega
  -- midpoints among the corners of a new face are joined inside of the old one
  have hin : ∀ f ∈ m.faces, ∀ h ∈ four mid f, ∀ u ∈ cornerSet h, ∀ v ∈ cornerSet h, m.numVertices ≤ u → m.numVertices ≤ v → u < v →
      (u, v) ∈ innerPairs mid f := by
    intro f hfm h hh u hu v hv lu lv luv
    obtain ⟨e1, e2, e3⟩ := face_edges m hwf f hfm
    have l1 := hlow _ _ e1
    have l2 := hlow _ _ e2
    have l3 := hlow _ _ e3
    simp only [innerPairs, Finset.mem_insert, Finset.mem_singleton, ordPair, Prod.mk.injEq]
    simp only [four, List.mem_cons, List.not_mem_nil, or_false] at hh
    rcases hh with rfl | rfl | rfl | rfl <;> simp only [cornerSet, Finset.mem_insert, Finset.mem_singleton] at hu hv <;> omega
  have hex : ∀ f ∈ m.faces, ∀ h ∈ four mid f, ∃ u ∈ cornerSet h, ∃ v ∈ cornerSet h, m.numVertices ≤ u ∧ m.numVertices ≤ v ∧ u < v := by
    intro f hfm h hh
    obtain ⟨e1, e2, e3⟩ := face_edges m hwf f hfm
    have l1 := hlow _ _ e1
    have l2 := hlow _ _ e2
    have l3 := hlow _ _ e3
    obtain ⟨-, -, -, n1, n2, n3⟩ := hne f hfm
    have pick : ∀ (S : Finset Nat) x y, x ∈ S → y ∈ S → m.numVertices ≤ x → m.numVertices ≤ y → x ≠ y →
        ∃ u ∈ S, ∃ v ∈ S, m.numVertices ≤ u ∧ m.numVertices ≤ v ∧ u < v := by
      intro S x y hx hy lx ly hxy
      rcases Nat.lt_or_gt_of_ne hxy with l | l
      · exact ⟨x, hx, y, hy, lx, ly, l⟩
      · exact ⟨y, hy, x, hx, ly, lx, l⟩
    simp only [four, List.mem_cons, List.not_mem_nil, or_false] at hh
    rcases hh with rfl | rfl | rfl | rfl
    · exact pick _ (mid f.a f.b) (mid f.c f.a) (by simp [cornerSet]) (by simp [cornerSet]) l1.2.2 l3.2.2 n3.symm
    · exact pick _ (mid f.a f.b) (mid f.b f.c) (by simp [cornerSet]) (by simp [cornerSet]) l1.2.2 l2.2.2 n1
    · exact pick _ (mid f.a f.b) (mid f.b f.c) (by simp [cornerSet]) (by simp [cornerSet]) l1.2.2 l2.2.2 n1
    · exact pick _ (mid f.b f.c) (mid f.c f.a) (by simp [cornerSet]) (by simp [cornerSet]) l2.2.2 l3.2.2 n2
  unfold NoTwins
  rw [hf, List.pairwise_flatMap]
  constructor
  · intro f hfm
    obtain ⟨e1, e2, e3⟩ := face_edges m hwf f hfm
    have l1 := hlow _ _ e1
    have l2 := hlow _ _ e2
    have l3 := hlow _ _ e3
    obtain ⟨a1, a2, a3, -⟩ := hne f hfm
    have key : ∀ (g h : Face3) (w : Nat), ¬(w ∈ cornerSet g ↔ w ∈ cornerSet h) → cornerSet g ≠ cornerSet h := fun g h w hw e => hw (by rw [e])
    simp only [four, List.pairwise_cons, List.mem_cons, List.not_mem_nil, or_false, forall_eq_or_imp, forall_eq, List.Pairwise.nil, and_true,
      IsEmpty.forall_iff, implies_true]
    refine ⟨⟨key _ _ f.a ?_, key _ _ f.a ?_, key _ _ f.a ?_⟩, ⟨key _ _ f.b ?_, key _ _ f.b ?_⟩, key _ _ f.c ?_⟩ <;>
      simp only [cornerSet, Finset.mem_insert, Finset.mem_singleton, true_or, or_true, true_iff, iff_true] <;> omega
  · refine List.Pairwise.imp_of_mem ?_ ht
    intro f g hfm hgm hfg h hh k hk e
    obtain ⟨u, hu, v, hv, lu, lv, luv⟩ := hex f hfm h hh
    have i1 := hin f hfm h hh u hu v hv lu lv luv
    have i2 := hin g hgm k hk u (e ▸ hu) v (e ▸ hv) lu lv luv
    refine hfg ?_
    ext w
    rw [← inner_determines m hwf mid hinj hsym f hfm _ i1 w, inner_determines m hwf mid hinj hsym g hgm _ i2 w]

/-- **C145** a mesh without two faces of the same corners has the same Euler characteristic after any number of subdivisions, and none of them
makes two faces of the same corners. -/
theorem c145_euler_steps {P : Type} (center : P → P → P) (hcomm : ∀ p q, center p q = center q p) (k : Nat) (m : TMesh P) (hwf : m.WellFormed)
    (ht : NoTwins m) : ∃ r, subdivided center k m = some (.ok r) ∧ r.WellFormed ∧ NoTwins r ∧ euler r = euler m := by
  induction k generalizing m with
  | zero => exact ⟨m, rfl, hwf, ht, rfl⟩
  | succ k ih =>
    obtain ⟨s, -, e, -, -, -, -, -, -, -, ws⟩ := c13_linear_subdivision center hcomm m hwf
    obtain ⟨s', e', -, he⟩ := c145_euler center hcomm m hwf ht
    rw [e] at e'
    cases e'
    obtain ⟨r, er, hw, hn, h⟩ := ih s ws (noTwins_step center hcomm m s hwf ht e)
    exact ⟨r, by rw [subdivided, e]; exact er, hw, hn, h.trans he⟩

/-- a tetrahedron, three times -/
example : ∃ r, subdivided (fun p q => p + q) 3 (⟨[1, 2, 3, 4], [⟨0, 2, 1⟩, ⟨0, 1, 3⟩, ⟨0, 3, 2⟩, ⟨1, 2, 3⟩]⟩ : TMesh Nat) = some (.ok r) ∧
    r.WellFormed ∧ NoTwins r ∧ euler r = 2 := by
  refine c145_euler_steps _ Nat.add_comm 3 _ ?_ ?_
  · intro f hf
    simp only [List.mem_cons, List.not_mem_nil, or_false] at hf
    rcases hf with rfl | rfl | rfl | rfl <;> simp
  · simp only [NoTwins, cornerSet]
    decide

end R3D

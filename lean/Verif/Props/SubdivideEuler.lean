import Verif.Props.SubdivideCount
/-!
C145, topology: `subdivide::linear` (src/subdivide.rs:36-81) keeps the Euler characteristic.
-/
namespace R3D
open Scalar LawfulScalar Spec SubdivideSpec

/-- vertices minus edges plus faces -/
def Spec.euler {P : Type} (m : TMesh P) : ℤ := m.numVertices - (edgeSet m).card + m.numFaces

/-- the corners of a face, in no order -/
def Spec.cornerSet (f : Face3) : Finset Nat := {f.a, f.b, f.c}

/-- no two faces have the same corners -/
def Spec.NoTwins {P : Type} (m : TMesh P) : Prop := m.faces.Pairwise fun f g => cornerSet f ≠ cornerSet g

def ordPair (i j : Nat) : Nat × Nat := (min i j, max i j)

def innerPairs (mid : Nat → Nat → Nat) (f : Face3) : Finset (Nat × Nat) :=
  {ordPair (mid f.a f.b) (mid f.b f.c), ordPair (mid f.b f.c) (mid f.c f.a), ordPair (mid f.c f.a) (mid f.a f.b)}

theorem ordPair_eq {i j k l : Nat} (h : ordPair i j = ordPair k l) : (i = k ∧ j = l) ∨ (i = l ∧ j = k) := by
  simp only [ordPair, Prod.mk.injEq] at h
  omega

theorem isEdge_symm {P : Type} {m : TMesh P} {i j : Nat} (h : IsEdge m i j) : IsEdge m j i := by
  obtain ⟨f, hf, hne, hi, hj⟩ := h
  exact ⟨f, hf, hne.symm, hj, hi⟩

/-- the edges of which the midpoints are joined determine the face -/
theorem joined_corners {P : Type} (m : TMesh P) (mid : Nat → Nat → Nat)
    (hinj : ∀ i j i' j', IsEdge m i j → IsEdge m i' j' → mid i j = mid i' j' → (i = i' ∧ j = j') ∨ (i = j' ∧ j = i'))
    (hsym : ∀ i j, mid i j = mid j i) (p q s : Nat) (hpq : IsEdge m p q) (hqs : IsEdge m q s) (x : Nat × Nat) (hx : x = ordPair (mid p q) (mid q s)) (w : Nat) :
    (∃ j, IsEdge m w j ∧ (mid w j = x.1 ∨ mid w j = x.2)) ↔ w = p ∨ w = q ∨ w = s := by
  have hx' : ∀ v, (v = x.1 ∨ v = x.2) ↔ (v = mid p q ∨ v = mid q s) := by
    intro v; rw [hx]; simp only [ordPair]; omega
  simp only [hx']
  constructor
  · rintro ⟨j, hj, h | h⟩
    · have := hinj _ _ _ _ hj hpq h; omega
    · have := hinj _ _ _ _ hj hqs h; omega
  · rintro (rfl | rfl | rfl)
    · exact ⟨q, hpq, .inl rfl⟩
    · exact ⟨s, hqs, .inr rfl⟩
    · exact ⟨q, isEdge_symm hqs, .inr (hsym _ _)⟩

theorem face_edges {P : Type} (m : TMesh P) (hwf : m.WellFormed) (f : Face3) (hf : f ∈ m.faces) :
    IsEdge m f.a f.b ∧ IsEdge m f.b f.c ∧ IsEdge m f.c f.a := by
  obtain ⟨-, -, -, h⟩ := hwf f hf
  refine ⟨⟨f, hf, ?_⟩, ⟨f, hf, ?_⟩, ⟨f, hf, ?_⟩⟩ <;> simp <;> omega

/-- **C145** subdividing a mesh without two faces of the same corners replaces every edge by two and adds three inside of every face, so that
the Euler characteristic (vertices - edges + faces) stays the same. -/
theorem c145_euler {P : Type} (center : P → P → P) (hcomm : ∀ p q, center p q = center q p) (m : TMesh P) (hwf : m.WellFormed)
    (ht : NoTwins m) : ∃ r, TMesh.linear center m = some (.ok r) ∧ (edgeSet r).card = 2 * (edgeSet m).card + 3 * m.numFaces ∧
      euler r = euler m := by
  obtain ⟨r, e, hv, hn⟩ := c145_vertices center hcomm m hwf
  obtain ⟨r', mid, e', -, hf, -, hsym, hmid, hinj, -, -⟩ := c13_linear_subdivision center hcomm m hwf
  rw [e] at e'
  cases e'
  have hlow : ∀ i j, IsEdge m i j → i < m.numVertices ∧ j < m.numVertices ∧ m.numVertices ≤ mid i j := by
    intro i j h
    obtain ⟨h1, p, q, h2, h3, -⟩ := hmid i j h
    exact ⟨(List.getElem?_eq_some_iff.1 h2).1, (List.getElem?_eq_some_iff.1 h3).1, h1⟩
  have hnodup : m.faces.Nodup := ht.imp fun h e => h (by rw [e])
  let outer : Finset (Nat × Nat) := (edgeSet m).biUnion fun x => {(x.1, mid x.1 x.2), (x.2, mid x.1 x.2)}
  let inner : Finset (Nat × Nat) := m.faces.toFinset.biUnion (innerPairs mid)
  have hout : ∀ x, x ∈ outer ↔ ∃ i j, IsEdge m i j ∧ x = (i, mid i j) := by
    intro x
    simp only [outer, Finset.mem_biUnion, Finset.mem_insert, Finset.mem_singleton, Prod.exists]
    constructor
    · rintro ⟨i, j, hij, rfl | rfl⟩
      · exact ⟨i, j, ((mem_edgeSet m hwf i j).1 hij).1, rfl⟩
      · exact ⟨j, i, isEdge_symm ((mem_edgeSet m hwf i j).1 hij).1, by rw [hsym]⟩
    · rintro ⟨i, j, hij, rfl⟩
      have hne : i ≠ j := hij.choose_spec.2.1
      rcases Nat.lt_or_gt_of_ne hne with h | h
      · exact ⟨i, j, (mem_edgeSet m hwf i j).2 ⟨hij, h⟩, .inl rfl⟩
      · exact ⟨j, i, (mem_edgeSet m hwf j i).2 ⟨isEdge_symm hij, h⟩, .inr (by rw [hsym])⟩
  have hedge : edgeSet r = outer ∪ inner := by
    ext x
    rw [Finset.mem_union, hout]
    simp only [inner, Finset.mem_biUnion, List.mem_toFinset, innerPairs, Finset.mem_insert, Finset.mem_singleton]
    simp only [edgeSet, directedEdges, hf, List.mem_toFinset, List.mem_map, List.mem_flatMap]
    have ho : ∀ i j, IsEdge m i j → ordPair i (mid i j) = (i, mid i j) ∧ ordPair (mid i j) i = (i, mid i j) := by
      intro i j h
      have := hlow i j h
      simp only [ordPair, Prod.mk.injEq]
      omega
    constructor
    · rintro ⟨d, ⟨g, ⟨f, hfm, hg⟩, hd⟩, rfl⟩
      obtain ⟨e1, e2, e3⟩ := face_edges m hwf f hfm
      change (∃ i j, IsEdge m i j ∧ ordPair d.1 d.2 = (i, mid i j)) ∨ ∃ a, a ∈ m.faces ∧ (ordPair d.1 d.2 = _ ∨ ordPair d.1 d.2 = _ ∨ ordPair d.1 d.2 = _)
      have flip : ∀ i j, ordPair i j = ordPair j i := fun i j => by simp only [ordPair, Nat.min_comm, Nat.max_comm]
      simp only [four, List.mem_cons, List.not_mem_nil, or_false] at hg
      rcases hg with rfl | rfl | rfl | rfl <;> simp only [List.mem_cons, List.not_mem_nil, or_false] at hd <;> rcases hd with rfl | rfl | rfl
      · exact .inl ⟨f.a, f.b, e1, (ho _ _ e1).1⟩
      · exact .inr ⟨f, hfm, .inr (.inr (flip _ _))⟩
      · exact .inl ⟨f.a, f.c, isEdge_symm e3, by rw [hsym f.c]; exact (ho _ _ (isEdge_symm e3)).2⟩
      · exact .inl ⟨f.b, f.a, isEdge_symm e1, by rw [hsym f.a]; exact (ho _ _ (isEdge_symm e1)).2⟩
      · exact .inl ⟨f.b, f.c, e2, (ho _ _ e2).1⟩
      · exact .inr ⟨f, hfm, .inl (flip _ _)⟩
      · exact .inr ⟨f, hfm, .inl rfl⟩
      · exact .inr ⟨f, hfm, .inr (.inl rfl)⟩
      · exact .inr ⟨f, hfm, .inr (.inr rfl)⟩
      · exact .inr ⟨f, hfm, .inr (.inl (flip _ _))⟩
      · exact .inl ⟨f.c, f.b, isEdge_symm e2, by rw [hsym f.b]; exact (ho _ _ (isEdge_symm e2)).2⟩
      · exact .inl ⟨f.c, f.a, e3, (ho _ _ e3).1⟩
    · rintro (⟨i, j, ⟨f, hfm, hne, hi, hj⟩, rfl⟩ | ⟨f, hfm, hx⟩)
      · have hij : IsEdge m i j := ⟨f, hfm, hne, hi, hj⟩
        have l := ho i j hij
        rcases hi with rfl | rfl | rfl <;> rcases hj with rfl | rfl | rfl
        · exact absurd rfl hne
        · exact ⟨(f.a, mid f.a f.b), ⟨_, ⟨f, hfm, .head _⟩, by simp⟩, l.1⟩
        · exact ⟨(mid f.c f.a, f.a), ⟨_, ⟨f, hfm, .head _⟩, by simp⟩, by rw [hsym f.c]; exact l.2⟩
        · exact ⟨(mid f.a f.b, f.b), ⟨_, ⟨f, hfm, .tail _ (.head _)⟩, by simp⟩, by rw [hsym f.a]; exact l.2⟩
        · exact absurd rfl hne
        · exact ⟨(f.b, mid f.b f.c), ⟨_, ⟨f, hfm, .tail _ (.head _)⟩, by simp⟩, l.1⟩
        · exact ⟨(f.c, mid f.c f.a), ⟨_, ⟨f, hfm, .tail _ (.tail _ (.tail _ (.head _)))⟩, by simp⟩, l.1⟩
        · exact ⟨(mid f.b f.c, f.c), ⟨_, ⟨f, hfm, .tail _ (.tail _ (.tail _ (.head _)))⟩, by simp⟩, by rw [hsym f.b]; exact l.2⟩
        · exact absurd rfl hne
      · refine ⟨?_, ⟨_, ⟨f, hfm, .tail _ (.tail _ (.head _))⟩, ?_⟩, ?_⟩
        · exact if x = ordPair (mid f.a f.b) (mid f.b f.c) then (mid f.a f.b, mid f.b f.c) else
            if x = ordPair (mid f.b f.c) (mid f.c f.a) then (mid f.b f.c, mid f.c f.a) else (mid f.c f.a, mid f.a f.b)
        · split_ifs <;> simp
        · split_ifs with h1 h2
          · exact h1.symm
          · exact h2.symm
          · exact ((hx.resolve_left h1).resolve_left h2).symm
  have hdis : Disjoint outer inner := by
    rw [Finset.disjoint_left]
    intro x hx hy
    obtain ⟨i, j, hij, rfl⟩ := (hout x).1 hx
    simp only [inner, Finset.mem_biUnion, List.mem_toFinset, innerPairs, Finset.mem_insert, Finset.mem_singleton] at hy
    obtain ⟨f, hfm, hy⟩ := hy
    obtain ⟨e1, e2, e3⟩ := face_edges m hwf f hfm
    have l0 := hlow _ _ hij
    have l1 := hlow _ _ e1
    have l2 := hlow _ _ e2
    have l3 := hlow _ _ e3
    simp only [ordPair, Prod.mk.injEq] at hy
    omega
  have hco : outer.card = 2 * (edgeSet m).card := by
    rw [Finset.card_biUnion, Finset.sum_const_nat (m := 2), mul_comm]
    · rintro ⟨i, j⟩ h
      have := ((mem_edgeSet m hwf i j).1 h).2
      exact Finset.card_pair (by simp only [ne_eq, Prod.mk.injEq]; omega)
    · rintro ⟨i, j⟩ h ⟨i', j'⟩ h' hne
      obtain ⟨h1, l1⟩ := (mem_edgeSet m hwf i j).1 h
      obtain ⟨h2, l2⟩ := (mem_edgeSet m hwf i' j').1 h'
      rw [Function.onFun, Finset.disjoint_left]
      intro x hx hy
      simp only [Finset.mem_insert, Finset.mem_singleton] at hx hy
      have hm : mid i j = mid i' j' := by rcases hx with rfl | rfl <;> rcases hy with hy | hy <;> exact (Prod.mk.inj hy).2
      have := hinj _ _ _ _ h1 h2 hm
      simp only [ne_eq, Prod.mk.injEq] at hne
      omega
  have hci : inner.card = 3 * m.numFaces := by
    have hdet : ∀ f ∈ m.faces, ∀ x ∈ innerPairs mid f, ∀ w, (∃ j, IsEdge m w j ∧ (mid w j = x.1 ∨ mid w j = x.2)) ↔ w ∈ cornerSet f := by
      intro f hfm x hx w
      obtain ⟨e1, e2, e3⟩ := face_edges m hwf f hfm
      simp only [innerPairs, Finset.mem_insert, Finset.mem_singleton] at hx
      simp only [cornerSet, Finset.mem_insert, Finset.mem_singleton]
      rcases hx with hx | hx | hx
      · rw [joined_corners m mid hinj hsym _ _ _ e1 e2 x hx w]
      · rw [joined_corners m mid hinj hsym _ _ _ e2 e3 x hx w]; omega
      · rw [joined_corners m mid hinj hsym _ _ _ e3 e1 x hx w]; omega
    rw [Finset.card_biUnion, Finset.sum_const_nat (m := 3), List.toFinset_card_of_nodup hnodup, mul_comm]
    · rfl
    · intro f hfm
      rw [List.mem_toFinset] at hfm
      obtain ⟨e1, e2, e3⟩ := face_edges m hwf f hfm
      have n1 : mid f.a f.b ≠ mid f.b f.c := fun h => by
        have := hinj _ _ _ _ e1 e2 h
        have a := e1.choose_spec.2.1
        have c := e3.choose_spec.2.1
        omega
      have n2 : mid f.b f.c ≠ mid f.c f.a := fun h => by
        have := hinj _ _ _ _ e2 e3 h
        have a := e2.choose_spec.2.1
        have c := e1.choose_spec.2.1
        omega
      have n3 : mid f.c f.a ≠ mid f.a f.b := fun h => by
        have := hinj _ _ _ _ e3 e1 h
        have a := e3.choose_spec.2.1
        have c := e2.choose_spec.2.1
        omega
      refine Finset.card_eq_three.2 ⟨_, _, _, ?_, ?_, ?_, rfl⟩
      · intro h; rcases ordPair_eq h with h | h <;> omega
      · intro h; rcases ordPair_eq h with h | h <;> omega
      · intro h; rcases ordPair_eq h with h | h <;> omega
    · intro f hfm g hgm hne
      rw [List.coe_toFinset] at hfm hgm
      rw [Function.onFun, Finset.disjoint_left]
      intro x hx hy
      have hs : cornerSet f = cornerSet g := by
        ext w
        rw [← hdet f hfm x hx w, hdet g hgm x hy w]
      have : Std.Symm (fun f g : Face3 => cornerSet f ≠ cornerSet g) := ⟨fun _ _ h => h.symm⟩
      exact List.Pairwise.forall ht hfm hgm hne hs
  have hE : (edgeSet r).card = 2 * (edgeSet m).card + 3 * m.numFaces := by
    rw [hedge, Finset.card_union_of_disjoint hdis, hco, hci]
  refine ⟨r, e, hE, ?_⟩
  unfold euler
  rw [hE, hv, hn]
  push_cast
  ring

/-- **C145** the condition is needed: of two faces with the same corners (front and back, a closed mesh of Euler characteristic 2) the
inner faces share all three edges; the result has Euler characteristic 5. -/
theorem c145_violated_euler : Closed (⟨[1, 2, 3], [⟨0, 1, 2⟩, ⟨0, 2, 1⟩]⟩ : TMesh Nat) ∧
    euler (⟨[1, 2, 3], [⟨0, 1, 2⟩, ⟨0, 2, 1⟩]⟩ : TMesh Nat) = 2 ∧
    ∃ r, TMesh.linear (fun p q => p + q) (⟨[1, 2, 3], [⟨0, 1, 2⟩, ⟨0, 2, 1⟩]⟩ : TMesh Nat) = some (.ok r) ∧ euler r = 5 := by
  refine ⟨by simp only [Closed, directedEdges]; decide, by decide,
    ⟨[1, 2, 3, 3, 5, 4], [⟨0, 3, 5⟩, ⟨3, 1, 4⟩, ⟨3, 4, 5⟩, ⟨5, 4, 2⟩, ⟨0, 5, 3⟩, ⟨5, 2, 4⟩, ⟨5, 4, 3⟩, ⟨3, 4, 1⟩]⟩, by rfl, by decide⟩

/-- a tetrahedron, of Euler characteristic 2 -/
example : NoTwins (⟨[1, 2, 3, 4], [⟨0, 2, 1⟩, ⟨0, 1, 3⟩, ⟨0, 3, 2⟩, ⟨1, 2, 3⟩]⟩ : TMesh Nat) ∧
    euler (⟨[1, 2, 3, 4], [⟨0, 2, 1⟩, ⟨0, 1, 3⟩, ⟨0, 3, 2⟩, ⟨1, 2, 3⟩]⟩ : TMesh Nat) = 2 := by
  constructor
  · simp only [NoTwins, cornerSet]
    decide
  · decide

end R3D

import Verif.Lemmas.Subdivide
/-
C13: `subdivide::linear`.
-/
namespace R3D.SubdivideSpec

/-- `{i, j}` is an edge of the mesh: two different corners of one face. -/
def IsEdge {P : Type} (m : TMesh P) (i j : Nat) : Prop :=
  ∃ f ∈ m.faces, i ≠ j ∧ (i = f.a ∨ i = f.b ∨ i = f.c) ∧ (j = f.a ∨ j = f.b ∨ j = f.c)

/-- The documented replacement of a face by four. -/
def four (mid : Nat → Nat → Nat) (f : Face3) : List Face3 :=
  [⟨f.a, mid f.a f.b, mid f.c f.a⟩, ⟨mid f.a f.b, f.b, mid f.b f.c⟩,
   ⟨mid f.a f.b, mid f.b f.c, mid f.c f.a⟩, ⟨mid f.c f.a, mid f.b f.c, f.c⟩]

end R3D.SubdivideSpec

namespace R3D
open SubdivideSpec TMesh

private theorem linit {P : Type} (center : P → P → P) (m : TMesh P) :
    LInv center m (⟨m.verts, []⟩, []) :=
  ⟨⟨[], by simp⟩, by simp, by simp, by intro id h1 h2; simp only at h2; omega⟩

private theorem linear_eq {P : Type} (center : P → P → P) (m : TMesh P) :
    linear center m = linearLoop center m (List.range m.faces.length) (⟨m.verts, []⟩, []) := by
  unfold linear
  have : (List.range m.numVertices).mapM m.vertex = some m.verts := range_mapM_getElem m.verts
  rw [this]
  simp [foldl_addVertex, TMesh.empty, TMesh.numFaces]

/-- **C13.** Subdivision of a well formed mesh succeeds. The new mesh keeps the old vertices at
their ids; there is a symmetric assignment `mid` of one new vertex to every edge (different edges
get different vertices, every new vertex belongs to an edge, it sits at the centre of the ends);
every face is replaced, in order, by the four documented faces; the result is well formed. -/
theorem c13_linear_subdivision {P : Type} (center : P → P → P)
    (hcomm : ∀ p q, center p q = center q p) (m : TMesh P) (hwf : m.WellFormed) :
    ∃ (r : TMesh P) (mid : Nat → Nat → Nat), linear center m = some (.ok r) ∧
      (∃ new, r.verts = m.verts ++ new) ∧
      r.faces = m.faces.flatMap (four mid) ∧ r.numFaces = 4 * m.numFaces ∧
      (∀ i j, mid i j = mid j i) ∧
      (∀ i j, IsEdge m i j → m.numVertices ≤ mid i j ∧ ∃ p q, m.verts[i]? = some p ∧
        m.verts[j]? = some q ∧ r.verts[mid i j]? = some (center p q)) ∧
      (∀ i j i' j', IsEdge m i j → IsEdge m i' j' → mid i j = mid i' j' →
        (i = i' ∧ j = j') ∨ (i = j' ∧ j = i')) ∧
      (∀ v, m.numVertices ≤ v → v < r.numVertices → ∃ i j, IsEdge m i j ∧ mid i j = v) ∧
      r.WellFormed := by
  obtain ⟨st, hloop, hinv, _, hfaces, hlk⟩ := linearLoop_spec center hcomm m hwf
    (List.range m.faces.length) (fun i hi => List.mem_range.1 hi) _ (linit center m)
  rw [filterMap_range_getElem] at hfaces
  simp only [List.nil_append] at hfaces
  have hlook : ∀ i j, IsEdge m i j → ∃ x, st.2.lookup (min i j, max i j) = some x := by
    rintro i j ⟨f, hf, hij, hi, hj⟩
    obtain ⟨n, hn⟩ := List.getElem?_of_mem hf
    have hlt : n < m.faces.length := (List.getElem?_eq_some_iff.1 hn).1
    obtain ⟨h1, h2, h3⟩ := hlk n (List.mem_range.2 hlt) f hn
    rcases hi with rfl | rfl | rfl <;> rcases hj with rfl | rfl | rfl
    · exact absurd rfl hij
    · exact h1
    · rw [Nat.min_comm, Nat.max_comm]; exact h3
    · rw [Nat.min_comm, Nat.max_comm]; exact h1
    · exact absurd rfl hij
    · exact h2
    · exact h3
    · rw [Nat.min_comm, Nat.max_comm]; exact h2
    · exact absurd rfl hij
  have hmidval : ∀ i j, IsEdge m i j → st.2.lookup (min i j, max i j) = some (midOf st.2 i j) := by
    intro i j h
    obtain ⟨x, hx⟩ := hlook i j h
    unfold midOf; rw [hx]; rfl
  have hmidrange : ∀ i j, IsEdge m i j → m.numVertices ≤ midOf st.2 i j ∧ midOf st.2 i j < st.1.verts.length := by
    intro i j h
    obtain ⟨h1, h2, _⟩ := hinv.val _ _ (hmidval i j h)
    exact ⟨h1, h2⟩
  have hinj : ∀ i j i' j', IsEdge m i j → IsEdge m i' j' → midOf st.2 i j = midOf st.2 i' j' →
        (i = i' ∧ j = j') ∨ (i = j' ∧ j = i') := by
    intro i j i' j' h h' heq
    have k1 := hmidval i j h
    have k2 := hmidval i' j' h'
    rw [← heq] at k2
    have := hinv.inj _ _ _ k1 k2
    simp only [Prod.mk.injEq] at this
    omega
  refine ⟨st.1, midOf st.2, ?_, hinv.pre, hfaces, ?_, midOf_comm st.2, ?_, hinj, ?_, ?_⟩
  · rw [linear_eq, hloop]
  · unfold TMesh.numFaces
    rw [hfaces]
    have : ∀ fs : List Face3, (fs.flatMap (fourFaces (midOf st.2))).length = 4 * fs.length := by
      intro fs
      induction fs with
      | nil => rfl
      | cons f fs ih => rw [List.flatMap_cons, List.length_append, ih]; simp [fourFaces]; omega
    exact this m.faces
  · intro i j h
    obtain ⟨h1, h2, p, q, hp, hq, hpq⟩ := hinv.val _ _ (hmidval i j h)
    refine ⟨h1, ?_⟩
    rcases Nat.le_total i j with hij | hij
    · refine ⟨p, q, ?_, ?_, hpq⟩
      · simpa [Nat.min_eq_left hij] using hp
      · simpa [Nat.max_eq_right hij] using hq
    · refine ⟨q, p, ?_, ?_, by rw [hpq, hcomm]⟩
      · simpa [Nat.max_eq_left hij] using hq
      · simpa [Nat.min_eq_right hij] using hp
  · intro v h1 h2
    obtain ⟨i, j, ⟨f, hf, hu⟩, hl⟩ := hinv.surj v h1 h2
    refine ⟨i, j, ⟨f, hf, ?_⟩, ?_⟩
    · have := hwf f hf
      omega
    · unfold midOf; rw [hl]; rfl
  · intro g hg
    rw [hfaces, List.mem_flatMap] at hg
    obtain ⟨f, hf, hg⟩ := hg
    have hw := hwf f hf
    have hpre : m.verts.length ≤ st.1.verts.length := by
      obtain ⟨mids, hm⟩ := hinv.pre; rw [hm]; simp
    have eab : IsEdge m f.a f.b := ⟨f, hf, hw.2.2.2.1, by simp, by simp⟩
    have ebc : IsEdge m f.b f.c := ⟨f, hf, hw.2.2.2.2.2, by simp, by simp⟩
    have eca : IsEdge m f.c f.a := ⟨f, hf, fun h => hw.2.2.2.2.1 h.symm, by simp, by simp⟩
    have r1 := hmidrange _ _ eab
    have r2 := hmidrange _ _ ebc
    have r3 := hmidrange _ _ eca
    have d1 : midOf st.2 f.a f.b ≠ midOf st.2 f.b f.c := fun h => by
      have := hinj _ _ _ _ eab ebc h; omega
    have d2 : midOf st.2 f.a f.b ≠ midOf st.2 f.c f.a := fun h => by
      have := hinj _ _ _ _ eab eca h; omega
    have d3 : midOf st.2 f.b f.c ≠ midOf st.2 f.c f.a := fun h => by
      have := hinj _ _ _ _ ebc eca h; omega
    unfold TMesh.numVertices at r1 r2 r3
    simp only [fourFaces, List.mem_cons, List.not_mem_nil, or_false] at hg
    rcases hg with rfl | rfl | rfl | rfl <;> simp only <;> omega

/-- Two triangles sharing an edge, vertices on a line of numbers. -/
def subdivideExample : TMesh Nat := ⟨[0, 2, 4, 8], [⟨0, 1, 2⟩, ⟨2, 1, 3⟩]⟩

example : subdivideExample.WellFormed ∧ (∀ p q : Nat, (p + q) / 2 = (q + p) / 2) ∧
    linear (fun p q => (p + q) / 2) subdivideExample =
      some (.ok ⟨[0, 2, 4, 8, 1, 3, 2, 5, 6],
        [⟨0, 4, 6⟩, ⟨4, 1, 5⟩, ⟨4, 5, 6⟩, ⟨6, 5, 2⟩, ⟨2, 5, 8⟩, ⟨5, 1, 7⟩, ⟨5, 7, 8⟩, ⟨8, 7, 3⟩]⟩) := by
  refine ⟨?_, fun p q => by rw [Nat.add_comm], rfl⟩
  intro f hf
  simp only [subdivideExample, List.mem_cons, List.not_mem_nil, or_false] at hf
  rcases hf with rfl | rfl <;> decide

/-- **C13.** A face naming one vertex twice makes the subdivision fail with `FaceIDsNotUnique`
(never a wrong mesh or a panic). -/
theorem c13_degenerate_error {P : Type} (center : P → P → P)
    (hcomm : ∀ p q, center p q = center q p) (m : TMesh P)
    (hrange : ∀ f ∈ m.faces, f.a < m.numVertices ∧ f.b < m.numVertices ∧ f.c < m.numVertices)
    (f : Face3) (hf : f ∈ m.faces) (hdeg : f.a = f.b ∨ f.a = f.c ∨ f.b = f.c) :
    linear center m = some (.error .FaceIDsNotUnique) := by
  rw [linear_eq]
  obtain ⟨n, hn⟩ := List.getElem?_of_mem hf
  have hlt : n < m.faces.length := (List.getElem?_eq_some_iff.1 hn).1
  exact linearLoop_degenerate center hcomm m hrange _ (fun i hi => List.mem_range.1 hi)
    ⟨n, List.mem_range.2 hlt, f, hn, hdeg⟩ _ (linit center m)

example : linear (fun p q => (p + q) / 2) (⟨[0, 2, 4], [⟨0, 1, 0⟩]⟩ : TMesh Nat) =
    some (.error .FaceIDsNotUnique) := rfl

end R3D

import Verif.Lemmas.Unify
/-
C14: `unify_faces`. `opp s t` is the test "the normals of the triangles `s` and `t` have a negative
dot product"; the theorems hold for every such test.
-/
namespace R3D.UnifySpec
variable {P : Type}

/-- Corner ids of face `f`. -/
def corners (m : TMesh P) (f : Nat) : List Nat :=
  match m.faces[f]? with
  | none => []
  | some t => [t.a, t.b, t.c]

/-- Faces `f` and `g` share a vertex. -/
def Neighbours (m : TMesh P) (f g : Nat) : Prop := ∃ v, v ∈ corners m f ∧ v ∈ corners m g

/-- Connected through neighbouring faces. -/
inductive Connected (m : TMesh P) : Nat → Nat → Prop
  | refl (f : Nat) : Connected m f f
  | step {f g h : Nat} : Connected m f g → Neighbours m g h → Connected m f h

/-- Corner positions of face `f`. -/
def triangle (m : TMesh P) (f : Nat) : Option (P × P × P) :=
  match m.faces[f]? with
  | none => none
  | some t => match m.verts[t.a]?, m.verts[t.b]?, m.verts[t.c]? with
    | some p, some q, some r => some (p, q, r)
    | _, _, _ => none

/-- The normals of faces `f` and `g` point to opposite sides. -/
def Opposed (opp : P × P × P → P × P × P → Bool) (m : TMesh P) (f g : Nat) : Bool :=
  match triangle m f, triangle m g with
  | some s, some t => opp s t
  | _, _ => false

/-- Exchange two corners. -/
def flipped (f : Face3) : Face3 := ⟨f.a, f.c, f.b⟩

end R3D.UnifySpec

namespace R3D
open UnifySpec TMesh
variable {P : Type}

private theorem adj_iff (m : TMesh P) (f g : Nat) : Adj m f g ↔ Neighbours m f g := by
  have h : ∀ f v, HasV m f v ↔ v ∈ corners m f := by
    intro f v
    unfold HasV corners
    cases m.faces[f]? <;> simp
  unfold Adj Neighbours
  simp only [h]

private theorem reach_iff (m : TMesh P) (f g : Nat) : Reach m f g ↔ Connected m f g := by
  constructor
  · intro h
    induction h with
    | refl => exact .refl _
    | tail _ h ih => exact .step ih ((adj_iff m _ _).1 h)
  · intro h
    induction h with
    | refl => exact Relation.ReflTransGen.refl
    | step _ h ih => exact Relation.ReflTransGen.tail ih ((adj_iff m _ _).2 h)

private theorem diff_eq (opp : P × P × P → P × P × P → Bool) (m : TMesh P) (f g : Nat) :
    diff opp m f g = Opposed opp m f g := by
  have h : ∀ f, m.faceVertices f = triangle m f := by
    intro f
    unfold TMesh.faceVertices TMesh.faceVertexIds TMesh.vertex triangle
    cases m.faces[f]? with
    | none => rfl
    | some t =>
      simp only [Option.bind_eq_bind, Option.bind_some]
      cases m.verts[t.a]? <;> cases m.verts[t.b]? <;> cases m.verts[t.c]? <;> rfl
  unfold diff Opposed
  rw [h, h]
  cases triangle m f <;> cases triangle m g <;> rfl

/-- **C14.** On a well formed mesh `unify_faces` terminates without panic or error, keeps the
vertices and the number of faces, and every output face is the input face, possibly with two
corners exchanged. -/
theorem c14_unify_faces (opp : P × P × P → P × P × P → Bool) (m : TMesh P) (hwf : m.WellFormed) :
    ∃ r, unifyFaces opp m = some (.ok r) ∧ r.verts = m.verts ∧ r.numFaces = m.numFaces ∧
      r.WellFormed ∧
      ∀ (i : Nat) f, m.faces[i]? = some f → r.faces[i]? = some f ∨ r.faces[i]? = some (flipped f) := by
  obtain ⟨r, mf, ord, h1, h2, h3, h4, h5, _, _⟩ := unifyFaces_spec opp m hwf
  have hface : ∀ (i : Nat) f, m.faces[i]? = some f → r.faces[i]? = some f ∨ r.faces[i]? = some (flipped f) := by
    intro i f hf
    have hlt : i < m.numFaces := (List.getElem?_eq_some_iff.1 hf).1
    have hb : mf[i]? = some (mf[i]'(by rw [h3]; exact hlt)) := List.getElem?_eq_getElem _
    rw [h5 i f _ hf hb]
    cases mf[i]'(by rw [h3]; exact hlt)
    · exact Or.inl rfl
    · exact Or.inr rfl
  refine ⟨r, h1, h2, h4, ?_, hface⟩
  intro g hg
  obtain ⟨i, hi⟩ := List.getElem?_of_mem hg
  have hlt : i < m.faces.length := by
    have := (List.getElem?_eq_some_iff.1 hi).1
    unfold TMesh.numFaces at h4; omega
  have hf := hwf _ (List.getElem_mem hlt)
  rw [h2]
  rcases hface i _ (List.getElem?_eq_getElem hlt) with h | h
  · rw [hi] at h; have := Option.some.inj h; subst this; exact hf
  · rw [hi] at h; have := Option.some.inj h; subst this
    simp only [flipped]; omega

/-- **C14.** `unify_faces` does unify: if the faces can be oriented at all such that no two
neighbouring faces are opposed (`side` is such a choice: it differs exactly for opposed
neighbours), then the flips made are that choice, relative to the face with the smallest id of
each connected part, which keeps its orientation. -/
theorem c14_unifies (opp : P × P × P → P × P × P → Bool) (m : TMesh P) (hwf : m.WellFormed)
    (side : Nat → Bool)
    (hside : ∀ f g, f ≠ g → Neighbours m f g → Opposed opp m f g = xor (side f) (side g)) :
    ∃ r, unifyFaces opp m = some (.ok r) ∧
      ∀ (i lowest : Nat) f, m.faces[i]? = some f → Connected m i lowest →
        (∀ k, Connected m i k → lowest ≤ k) →
        r.faces[i]? = some (if side i = side lowest then f else flipped f) := by
  obtain ⟨r, mf, ord, h1, h2, h3, h4, h5, hb, hall⟩ := unifyFaces_spec opp m hwf
  refine ⟨r, h1, ?_⟩
  intro i lowest f hf hconn hlow
  have hlt : i < m.numFaces := (List.getElem?_eq_some_iff.1 hf).1
  obtain ⟨q, hq1, hq2, hq3⟩ := hb.colour side (fun f g hne hadj => by
    rw [diff_eq]; exact hside f g hne ((adj_iff m f g).1 hadj)) i (hall i hlt)
  have hql : q = lowest := by
    apply Nat.le_antisymm
    · exact hq2 lowest (hq1.symm.trans ((reach_iff m _ _).2 hconn))
    · exact hlow q ((reach_iff m _ _).1 hq1)
  subst hql
  rw [h5 i f _ hf hq3]
  unfold orient flipped
  cases side i <;> cases side q <;> simp

/-- Two faces of a strip, the second one turned around; `opp` compares the position lists. -/
def unifyExample : TMesh Nat := ⟨[0, 1, 2, 3], [⟨0, 1, 2⟩, ⟨1, 2, 3⟩]⟩

example : unifyExample.WellFormed ∧ unifyFaces (fun s t => s.1 != t.1) unifyExample =
    some (.ok ⟨[0, 1, 2, 3], [⟨0, 1, 2⟩, ⟨1, 3, 2⟩]⟩) := by
  refine ⟨?_, by rfl⟩
  intro f hf
  simp only [unifyExample, List.mem_cons, List.not_mem_nil, or_false] at hf
  rcases hf with rfl | rfl <;> decide

/-- The hypothesis of `c14_unifies` for that mesh. -/
example : ∀ f g, f ≠ g → Neighbours unifyExample f g →
    Opposed (fun s t => s.1 != t.1) unifyExample f g = xor (f == 1) (g == 1) := by
  rintro f g hne ⟨v, hf, hg⟩
  have hlt : ∀ f, v ∈ corners unifyExample f → f < 2 := by
    intro f hf
    rcases Nat.lt_or_ge f 2 with h | h
    · exact h
    · exfalso
      have : unifyExample.faces[f]? = none := List.getElem?_eq_none h
      simp [corners, this] at hf
  have h1 := hlt f hf
  have h2 := hlt g hg
  have key : ∀ f < 2, ∀ g < 2, f ≠ g →
      Opposed (fun s t => s.1 != t.1) unifyExample f g = xor (f == 1) (g == 1) := by decide
  exact key f h1 g h2 hne

end R3D

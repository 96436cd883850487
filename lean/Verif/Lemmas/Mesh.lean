import Verif.Model.Mesh
import Verif.Lemmas.IndexVec
/-
Simulation of `Mesh3D` over any faithful index container by the observable mesh `TMesh`.
-/
namespace R3D
open IndexContainer LawfulIndexContainer

/-- flat index list of a face list -/
def flatFaces (fs : List Face3) : List Nat := fs.flatMap fun f => [f.a, f.b, f.c]

@[simp] theorem flatFaces_nil : flatFaces [] = [] := rfl
@[simp] theorem flatFaces_cons (f fs) : flatFaces (f :: fs) = f.a :: f.b :: f.c :: flatFaces fs := rfl
theorem flatFaces_append (xs ys) : flatFaces (xs ++ ys) = flatFaces xs ++ flatFaces ys := by
  simp [flatFaces]
@[simp] theorem flatFaces_length (fs) : (flatFaces fs).length = 3 * fs.length := by
  induction fs with
  | nil => rfl
  | cons f fs ih => simp [ih]; omega

theorem flatFaces_get (fs : List Face3) (i : Nat) (h : i < fs.length) :
    (flatFaces fs)[3 * i + 0]? = some fs[i].a ∧ (flatFaces fs)[3 * i + 1]? = some fs[i].b ∧
    (flatFaces fs)[3 * i + 2]? = some fs[i].c := by
  induction fs generalizing i with
  | nil => simp at h
  | cons f fs ih =>
    cases i with
    | zero => simp
    | succ i =>
      have := ih i (by simpa using h)
      have e1 : 3 * (i + 1) + 0 = (3 * i + 0) + 1 + 1 + 1 := by omega
      have e2 : 3 * (i + 1) + 1 = (3 * i + 1) + 1 + 1 + 1 := by omega
      have e3 : 3 * (i + 1) + 2 = (3 * i + 2) + 1 + 1 + 1 := by omega
      rw [e1, e2, e3]
      simpa using this

namespace Mesh3D
variable {P IC : Type} [IndexContainer IC] [LawfulIndexContainer IC]

/-- `m` shows the observable state `t`. -/
def Shows (m : Mesh3D P IC) (t : TMesh P) : Prop :=
  m.pc = t.verts ∧ toList m.topology = flatFaces t.faces


theorem shows_empty : Shows (empty : Mesh3D P IC) TMesh.empty := by
  simp [Shows, empty, TMesh.empty, toList_default]

theorem shows_numFaces {m : Mesh3D P IC} {t : TMesh P} (h : Shows m t) :
    m.numFaces = t.numFaces := by
  simp only [numFaces, len_eq, h.2, flatFaces_length, TMesh.numFaces]; omega

theorem shows_numVertices {m : Mesh3D P IC} {t : TMesh P} (h : Shows m t) :
    m.numVertices = t.numVertices := by
  simp [numVertices, TMesh.numVertices, h.1]

theorem shows_faceVertexIds {m : Mesh3D P IC} {t : TMesh P} (h : Shows m t) (f : Nat) :
    m.faceVertexIds f = some (t.faceVertexIds f) := by
  simp only [faceVertexIds, TMesh.faceVertexIds, len_eq, h.2, flatFaces_length]
  split
  · rw [List.getElem?_eq_none (by omega)]
  · have hf : f < t.faces.length := by omega
    have := flatFaces_get t.faces f hf
    simp only [get_eq, h.2, this, List.getElem?_eq_getElem hf]
    rfl

theorem shows_vertex {m : Mesh3D P IC} {t : TMesh P} (h : Shows m t) (v : Nat) :
    m.vertex v = t.vertex v := by
  simp [vertex, TMesh.vertex, h.1]

theorem shows_faceVertices {m : Mesh3D P IC} {t : TMesh P} (h : Shows m t) (f : Nat) :
    m.faceVertices f = some (t.faceVertices f) := by
  simp only [faceVertices, TMesh.faceVertices, shows_faceVertexIds h, shows_vertex h]
  cases t.faceVertexIds f with
  | none => rfl
  | some face =>
    cases h1 : t.vertex face.a <;> cases h2 : t.vertex face.b <;> cases h3 : t.vertex face.c <;>
      simp [h1, h2, h3]

theorem shows_addVertex {m : Mesh3D P IC} {t : TMesh P} (h : Shows m t) (v : P) :
    Shows (m.addVertex v).1 (t.addVertex v).1 ∧ (m.addVertex v).2 = (t.addVertex v).2 := by
  simp [Shows, addVertex, TMesh.addVertex, h.1, h.2]

theorem toList_push3 (c : IC) (x y z : Nat) (hx : fits IC x) (hy : fits IC y) (hz : fits IC z) :
    toList (push (push (push c x) y) z) = toList c ++ [x, y, z] := by
  simp [push_eq, hx, hy, hz]

theorem shows_addFace {m : Mesh3D P IC} {t : TMesh P} (h : Shows m t) (v1 v2 v3 : P)
    (hf : ∀ i < t.verts.length + 3, fits IC i) :
    Shows (m.addFace v1 v2 v3).1 (t.addFace v1 v2 v3).1 ∧
      (m.addFace v1 v2 v3).2 = (t.addFace v1 v2 v3).2 := by
  have f1 := hf t.verts.length (by omega)
  have f2 := hf (t.verts.length + 1) (by omega)
  have f3 := hf (t.verts.length + 1 + 1) (by omega)
  have e := toList_push3 m.topology _ _ _ f1 f2 f3
  simp only [Shows, addFace, addVertex, TMesh.addFace, h.1, List.length_append,
    List.length_cons, List.length_nil, Nat.zero_add, Nat.add_sub_cancel, len_eq]
  rw [e, h.2]
  refine ⟨⟨by simp, ?_⟩, ?_⟩
  · simp [flatFaces_append]
  · simp

theorem shows_tryAddConnection {m : Mesh3D P IC} {t : TMesh P} (h : Shows m t) (a b c : Nat)
    (hf : ∀ i < t.verts.length, fits IC i) :
    Shows (m.tryAddConnection a b c).1 (t.tryAddConnection a b c).1 ∧
      (m.tryAddConnection a b c).2 = (t.tryAddConnection a b c).2 := by
  simp only [tryAddConnection, TMesh.tryAddConnection, h.1]
  split
  · exact ⟨h, rfl⟩
  · split
    · exact ⟨h, rfl⟩
    · have e := toList_push3 m.topology a b c (hf _ (by omega)) (hf _ (by omega)) (hf _ (by omega))
      simp only [Shows, len_eq, e, h.2]
      refine ⟨⟨trivial, ?_⟩, ?_⟩
      · simp [flatFaces_append]
      · simp

theorem shows_changeVertex {m : Mesh3D P IC} {t : TMesh P} (h : Shows m t) (v : Nat) (p : P) :
    Shows (m.changeVertex v p).1 (t.changeVertex v p).1 ∧
      (m.changeVertex v p).2 = (t.changeVertex v p).2 := by
  simp only [changeVertex, TMesh.changeVertex, h.1]
  split
  · exact ⟨⟨rfl, h.2⟩, rfl⟩
  · exact ⟨h, rfl⟩

theorem shows_reserveFaces {m : Mesh3D P IC} {t : TMesh P} (h : Shows m t) (n : Nat) :
    Shows (m.reserveFaces n) t := by
  simp [Shows, reserveFaces, toList_reserve, h.1, h.2]

end Mesh3D

namespace TMesh
variable {P : Type}

theorem wf_empty : WellFormed (empty : TMesh P) := by simp [WellFormed, empty]

theorem wf_addVertex {t : TMesh P} (h : t.WellFormed) (v : P) : (t.addVertex v).1.WellFormed := by
  intro f hf
  have := h f hf
  simp only [addVertex, List.length_append, List.length_cons, List.length_nil]
  omega

theorem wf_addFace {t : TMesh P} (h : t.WellFormed) (v1 v2 v3 : P) :
    (t.addFace v1 v2 v3).1.WellFormed := by
  intro f hf
  simp only [addFace, List.mem_append, List.mem_singleton] at hf
  simp only [addFace, List.length_append, List.length_cons, List.length_nil]
  rcases hf with hf | rfl
  · have := h f hf; omega
  · simp only; omega

theorem wf_tryAddConnection {t : TMesh P} (h : t.WellFormed) (a b c : Nat) :
    (t.tryAddConnection a b c).1.WellFormed := by
  unfold tryAddConnection
  split
  · exact h
  · split
    · exact h
    · intro f hf
      simp only [List.mem_append, List.mem_singleton] at hf
      rcases hf with hf | rfl
      · exact h f hf
      · simp only; omega

theorem wf_changeVertex {t : TMesh P} (h : t.WellFormed) (v : Nat) (p : P) :
    (t.changeVertex v p).1.WellFormed := by
  unfold changeVertex
  split
  · intro f hf; have := h f hf; simpa using this
  · exact h

end TMesh
end R3D

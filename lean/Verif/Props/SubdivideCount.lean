import Verif.Props.ClosedKept
/-!
C145, numbers: `subdivide::linear` (src/subdivide.rs:36-81) adds as many vertices as the mesh has edges.
-/
namespace R3D
open Scalar LawfulScalar Spec SubdivideSpec

/-- the edges, without their directions and each of them once -/
def Spec.edgeSet {P : Type} (m : TMesh P) : Finset (Nat × Nat) := ((directedEdges m).map fun e => (min e.1 e.2, max e.1 e.2)).toFinset

theorem mem_edgeSet {P : Type} (m : TMesh P) (hwf : m.WellFormed) (i j : Nat) : (i, j) ∈ edgeSet m ↔ IsEdge m i j ∧ i < j := by
  simp only [edgeSet, directedEdges, List.mem_toFinset, List.mem_map, List.mem_flatMap, List.mem_cons, List.not_mem_nil, or_false, Prod.mk.injEq]
  constructor
  · rintro ⟨e, ⟨f, hf, he⟩, h1, h2⟩
    obtain ⟨-, -, -, h⟩ := hwf f hf
    refine ⟨⟨f, hf, ?_⟩, ?_⟩ <;> rcases he with rfl | rfl | rfl <;> simp only at h1 h2 <;> omega
  · rintro ⟨⟨f, hf, hne, hi, hj⟩, hlt⟩
    rcases hi with hi | hi | hi <;> rcases hj with hj | hj | hj <;> first
      | omega
      | exact ⟨(f.a, f.b), ⟨f, hf, by simp⟩, by simp only; omega, by simp only; omega⟩
      | exact ⟨(f.b, f.c), ⟨f, hf, by simp⟩, by simp only; omega, by simp only; omega⟩
      | exact ⟨(f.c, f.a), ⟨f, hf, by simp⟩, by simp only; omega, by simp only; omega⟩

/-- **C145** subdividing adds exactly one vertex for every edge, also for edges of many faces or of only one. -/
theorem c145_vertices {P : Type} (center : P → P → P) (hcomm : ∀ p q, center p q = center q p) (m : TMesh P) (hwf : m.WellFormed) :
    ∃ r, TMesh.linear center m = some (.ok r) ∧ r.numVertices = m.numVertices + (edgeSet m).card ∧ r.numFaces = 4 * m.numFaces := by
  obtain ⟨r, mid, e, ⟨new, hnew⟩, -, hn, hsym, hmid, hinj, hsurj, -⟩ := c13_linear_subdivision center hcomm m hwf
  refine ⟨r, e, ?_, hn⟩
  have hle : m.numVertices ≤ r.numVertices := by simp [TMesh.numVertices, hnew]
  have him : (edgeSet m).image (fun x => mid x.1 x.2) = Finset.Ico m.numVertices r.numVertices := by
    ext v
    simp only [Finset.mem_image, Finset.mem_Ico, Prod.exists]
    constructor
    · rintro ⟨i, j, hij, rfl⟩
      obtain ⟨h1, p, q, -, -, h2⟩ := hmid i j ((mem_edgeSet m hwf i j).1 hij).1
      exact ⟨h1, (List.getElem?_eq_some_iff.1 h2).1⟩
    · rintro ⟨h1, h2⟩
      obtain ⟨i, j, hij, hv⟩ := hsurj v h1 h2
      have hne : i ≠ j := hij.choose_spec.2.1
      rcases Nat.lt_or_gt_of_ne hne with h | h
      · exact ⟨i, j, (mem_edgeSet m hwf i j).2 ⟨hij, h⟩, hv⟩
      · obtain ⟨f, hf, hne, hi, hj⟩ := hij
        exact ⟨j, i, (mem_edgeSet m hwf j i).2 ⟨⟨f, hf, hne.symm, hj, hi⟩, h⟩, by rw [hsym, hv]⟩
  have hcard : ((edgeSet m).image (fun x => mid x.1 x.2)).card = (edgeSet m).card := by
    refine Finset.card_image_of_injOn ?_
    rintro ⟨i, j⟩ h1 ⟨i', j'⟩ h2 h
    obtain ⟨h1, l1⟩ := (mem_edgeSet m hwf i j).1 h1
    obtain ⟨h2, l2⟩ := (mem_edgeSet m hwf i' j').1 h2
    rcases hinj i j i' j' h1 h2 h with ⟨rfl, rfl⟩ | ⟨rfl, rfl⟩
    · rfl
    · omega
  rw [him, Nat.card_Ico] at hcard
  omega

/-- a tetrahedron has six edges: four vertices become ten -/
example : ∃ r, TMesh.linear (fun p q => p + q) (⟨[1, 2, 3, 4], [⟨0, 2, 1⟩, ⟨0, 1, 3⟩, ⟨0, 3, 2⟩, ⟨1, 2, 3⟩]⟩ : TMesh Nat) = some (.ok r) ∧
    r.numVertices = 10 ∧ r.numFaces = 16 := by
  refine c145_vertices _ Nat.add_comm _ ?_
  intro f hf
  simp only [List.mem_cons, List.not_mem_nil, or_false] at hf
  rcases hf with rfl | rfl | rfl | rfl <;> simp

end R3D

import Verif.Lemmas.MeshAlgo
/-
C10, C11, C12: `pack_dupes_indexed` and `heal_mesh`.
-/
namespace R3D.MeshAlgoSpec

/-- The distinct elements in the order of their first occurrence. -/
def firsts {T : Type} [DecidableEq T] : List T → List T
  | [] => []
  | x :: xs => x :: (firsts xs).filter (fun y => decide (y ≠ x))

/-- Positions of the three corners of every face, in face order. -/
def cornerPositions {P : Type} (m : TMesh P) : List (Option P × Option P × Option P) :=
  m.faces.map fun f => (m.verts[f.a]?, m.verts[f.b]?, m.verts[f.c]?)

def pairwiseDistinct {P : Type} [DecidableEq P] (t : Option P × Option P × Option P) : Bool :=
  decide (t.1 ≠ t.2.1 ∧ t.1 ≠ t.2.2 ∧ t.2.1 ≠ t.2.2)

end R3D.MeshAlgoSpec

namespace R3D
open MeshAlgoSpec

private theorem packed_firsts {T : Type} [DecidableEq T] (xs : List T)
    (st : List (T × Nat) × List T × List Nat) (done : List T) (h : PackInv st done) :
    (xs.foldl packStep st).2.1 = st.2.1 ++ (firsts xs).filter (fun y => decide (y ∉ st.2.1)) := by
  induction xs generalizing st done with
  | nil => simp [firsts]
  | cons x xs ih =>
    rw [List.foldl_cons, ih _ _ (packStep_inv st done x h)]
    obtain ⟨map, packed, ids⟩ := st
    obtain ⟨h1, _, _, _, _⟩ := h
    simp only at h1
    have hmem : x ∈ packed ↔ ∃ id, map.lookup x = some id := by
      constructor
      · intro hx
        obtain ⟨i, hi⟩ := List.getElem?_of_mem hx
        exact ⟨i, (h1 x i).2 hi⟩
      · rintro ⟨id, hid⟩; exact List.mem_of_getElem? ((h1 x id).1 hid)
    have hstep : (packStep (map, packed, ids) x).2.1 = if x ∈ packed then packed else packed ++ [x] := by
      unfold packStep
      simp only
      cases hl : map.lookup x with
      | some id => rw [if_pos (hmem.2 ⟨id, hl⟩)]
      | none =>
        rw [if_neg]
        rintro hx
        obtain ⟨id, hid⟩ := hmem.1 hx
        rw [hl] at hid; cases hid
    rw [hstep]
    simp only [firsts]
    by_cases hx : x ∈ packed
    · rw [if_pos hx, List.filter_cons_of_neg (by simpa using hx), List.filter_filter]
      congr 1
      apply List.filter_congr
      intro y _
      by_cases hy : y = x
      · subst hy; simp [hx]
      · simp [hy]
    · rw [if_neg hx, List.filter_cons_of_pos (by simpa using hx), List.filter_filter, List.append_assoc]
      congr 1
      simp only [List.singleton_append, List.cons.injEq, true_and]
      apply List.filter_congr
      intro y _
      simp only [List.mem_append, List.mem_singleton, not_or]
      by_cases hy : y = x <;> simp [hy]

/-- **C10.** Packing is lossless: the packed values are the distinct inputs in order of first
occurrence, and looking the indices up gives the input back. -/
theorem c10_pack_dupes {T : Type} [DecidableEq T] (xs : List T) :
    (packDupesIndexed xs).1 = firsts xs ∧ (packDupesIndexed xs).1.Nodup ∧
    (∀ x, x ∈ (packDupesIndexed xs).1 ↔ x ∈ xs) ∧
    (packDupesIndexed xs).2.map (fun i => (packDupesIndexed xs).1[i]?) = xs.map some := by
  obtain ⟨_, h2, h3, h4, _⟩ := pack_inv xs
  refine ⟨?_, h3, h2, h4⟩
  have := packed_firsts xs ([], [], []) [] ⟨by simp, by simp, by simp, by simp, by simp⟩
  simp only [List.nil_append, List.not_mem_nil, not_false_eq_true, decide_true] at this
  rw [List.filter_eq_self.2 (fun _ _ => rfl)] at this
  exact this

example : packDupesIndexed [5, 3, 5, 4, 3] = ([5, 3, 4], [0, 1, 0, 2, 1]) := by decide

/-- **C11.** `heal_mesh` on a well formed mesh succeeds; the output faces are exactly the input
faces with three different corner positions, in the same order and with the same corner positions;
no two output vertices have the same position; the output is well formed and its vertices are
exactly the positions used by the input faces. -/
theorem c11_heal_mesh {P : Type} [DecidableEq P] (m : TMesh P) (hwf : m.WellFormed) :
    ∃ r, m.healMesh = some (.ok r) ∧ r.WellFormed ∧ r.verts.Nodup ∧
      cornerPositions r = (cornerPositions m).filter pairwiseDistinct ∧
      (∀ p, p ∈ r.verts ↔ ∃ f ∈ m.faces, m.verts[f.a]? = some p ∨ m.verts[f.b]? = some p ∨
        m.verts[f.c]? = some p) := by
  have hall : ∀ i ∈ List.range m.numFaces, ∃ t, m.faceVertices i = some t := fun i hi => by
    obtain ⟨t, ht, _⟩ := m.faceVertices_some hwf i (List.mem_range.1 hi)
    exact ⟨t, ht⟩
  obtain ⟨T, hT, hTm⟩ := mapM_some_of m.faceVertices (List.range m.numFaces) hall
  have hTlen : T.length = m.faces.length := by
    have := congrArg List.length hTm; simpa [TMesh.numFaces] using this
  -- corner positions of the input
  have hcorn : cornerPositions m = T.map (fun t => (some t.1, some t.2.1, some t.2.2)) := by
    unfold cornerPositions
    apply List.ext_getElem (by simp [hTlen])
    intro i h1 h2
    simp only [List.length_map] at h1 h2
    obtain ⟨t, ht, ha, hb, hc⟩ := m.faceVertices_some hwf i h1
    have hTi : T[i]? = some t := by
      have := congrArg (fun l => l[i]?) hTm
      simp only [List.getElem?_map] at this
      rw [List.getElem?_range (by simpa [TMesh.numFaces] using h1)] at this
      simp only [Option.map_some, ht] at this
      cases hi : T[i]? with
      | none => simp [hi] at this
      | some u => simp [hi] at this; rw [this]
    have hTi' : T[i] = t := by
      rw [List.getElem?_eq_getElem h2] at hTi; exact Option.some.inj hTi
    simp only [List.getElem_map, hTi', ha, hb, hc]
  obtain ⟨_, hnd, hmem, hids⟩ := c10_pack_dupes (T.flatMap fun t => [t.1, t.2.1, t.2.2])
  have hlen : (packDupesIndexed (T.flatMap fun t => [t.1, t.2.1, t.2.2])).2.length = 3 * T.length := by
    have := congrArg List.length hids
    simp only [List.length_map] at this
    rw [this]
    have hl : ∀ T : List (P × P × P),
        (T.flatMap fun t => [t.1, t.2.1, t.2.2]).length = 3 * T.length := by
      intro T
      induction T with
      | nil => rfl
      | cons t T ih =>
        rw [List.flatMap_cons, List.length_append, ih]
        simp; omega
    exact hl T
  obtain ⟨out, h1, h2, h3⟩ := TMesh.healLoop_spec T _ _ hnd hids (List.range T.length)
    (fun f hf => List.mem_range.1 hf) []
  refine ⟨⟨(packDupesIndexed (T.flatMap fun t => [t.1, t.2.1, t.2.2])).1, out⟩, ?_, ?_, hnd, ?_, ?_⟩
  · unfold TMesh.healMesh
    rw [hT]
    simp only [Option.bind_eq_bind, Option.bind_some, foldl_addVertex, hlen]
    have : 3 * T.length / 3 = T.length := by omega
    rw [this]
    simpa [TMesh.empty] using h1
  · exact h3
  · show out.map (TMesh.posOf _) = _
    rw [h2, hcorn, TMesh.filterMap_range_getElem, List.filter_map]
    congr 1
    apply List.filter_congr
    intro t _
    simp [pairwiseDistinct]
  · intro p
    have key : p ∈ (packDupesIndexed (T.flatMap fun t => [t.1, t.2.1, t.2.2])).1 ↔
        ∃ q ∈ cornerPositions m, q.1 = some p ∨ q.2.1 = some p ∨ q.2.2 = some p := by
      rw [hmem, hcorn]
      simp only [List.mem_flatMap, List.mem_map, List.mem_cons, List.not_mem_nil, or_false]
      constructor
      · rintro ⟨t, ht, h⟩
        refine ⟨_, ⟨t, ht, rfl⟩, ?_⟩
        rcases h with rfl | rfl | rfl <;> simp
      · rintro ⟨q, ⟨t, ht, rfl⟩, h⟩
        refine ⟨t, ht, ?_⟩
        simpa [eq_comm] using h
    rw [key]
    unfold cornerPositions
    simp only [List.mem_map]
    constructor
    · rintro ⟨q, ⟨f, hf, rfl⟩, h⟩; exact ⟨f, hf, h⟩
    · rintro ⟨f, hf, h⟩; exact ⟨_, ⟨f, hf, rfl⟩, h⟩

/-- Two faces on coinciding vertices and one degenerate face. -/
def healExample : TMesh Nat := ⟨[7, 8, 9, 7, 8, 7], [⟨0, 1, 2⟩, ⟨3, 4, 2⟩, ⟨0, 3, 1⟩]⟩

example : healExample.WellFormed := by
  intro f hf
  simp only [healExample, List.mem_cons, List.not_mem_nil, or_false] at hf
  rcases hf with rfl | rfl | rfl <;> decide

/-- **C12 violated.** `heal_mesh` keeps duplicate faces: of two faces with the same corner
positions both survive. -/
theorem c12_violated : ∃ (m : TMesh Nat) (r : TMesh Nat), m.WellFormed ∧
    m.healMesh = some (.ok r) ∧ ¬ (cornerPositions r).Nodup ∧ ¬ r.faces.Nodup := by
  refine ⟨healExample, ⟨[7, 8, 9], [⟨0, 1, 2⟩, ⟨0, 1, 2⟩]⟩, ?_, by rfl, by decide, by decide⟩
  intro f hf
  simp only [healExample, List.mem_cons, List.not_mem_nil, or_false] at hf
  rcases hf with rfl | rfl | rfl <;> decide

/-- **C12** (partial): the output has no duplicate faces if (and only if) the non degenerate
input faces have pairwise different corner positions. -/
theorem c12_no_new_duplicates_partial {P : Type} [DecidableEq P] (m : TMesh P) (hwf : m.WellFormed) :
    ∃ r, m.healMesh = some (.ok r) ∧
      (r.faces.Nodup ↔ ((cornerPositions m).filter pairwiseDistinct).Nodup) := by
  obtain ⟨r, h1, hwfr, hnd, h2, _⟩ := c11_heal_mesh m hwf
  refine ⟨r, h1, ?_⟩
  rw [← h2]
  unfold cornerPositions List.Nodup
  rw [List.pairwise_map]
  have hiff : ∀ f ∈ r.faces, ∀ g ∈ r.faces, (f ≠ g ↔
      (r.verts[f.a]?, r.verts[f.b]?, r.verts[f.c]?) ≠ (r.verts[g.a]?, r.verts[g.b]?, r.verts[g.c]?)) := by
    intro f hf g hg
    have hwf1 := hwfr f hf
    have hwf2 := hwfr g hg
    constructor
    · intro hne heq
      apply hne
      simp only [Prod.mk.injEq] at heq
      have ha := (List.getElem?_inj hwf1.1 hnd).1 heq.1
      have hb := (List.getElem?_inj hwf1.2.1 hnd).1 heq.2.1
      have hc := (List.getElem?_inj hwf1.2.2.1 hnd).1 heq.2.2
      cases f; cases g; simp_all
    · rintro hne rfl; exact hne rfl
  constructor
  · intro h
    exact List.Pairwise.imp_of_mem (fun hf hg hne => (hiff _ hf _ hg).1 hne) h
  · intro h
    exact List.Pairwise.imp_of_mem (fun hf hg hne => (hiff _ hf _ hg).2 hne) h

end R3D

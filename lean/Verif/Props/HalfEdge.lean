import Verif.Lemmas.HalfEdge
/-
C06, C07, C08, C09: `HalfEdge` / `SearchableMesh` built from an arbitrary mesh.
-/
namespace R3D.HalfEdgeSpec
variable {P : Type}

/-- Corner number `e % 3` of face `e / 3`: where half edge `e` starts. -/
def tailOf (m : TMesh P) (e : Nat) : Option Nat :=
  (m.faces[e / 3]?).map fun f => match e % 3 with | 0 => f.a | 1 => f.b | _ => f.c

/-- The following corner of the same face: where half edge `e` ends. -/
def headOf (m : TMesh P) (e : Nat) : Option Nat :=
  (m.faces[e / 3]?).map fun f => match e % 3 with | 0 => f.b | 1 => f.c | _ => f.a

/-- `o` runs along `e` in the opposite direction. -/
def Opposite (m : TMesh P) (e o : Nat) : Prop :=
  ∃ v w, tailOf m e = some v ∧ headOf m e = some w ∧ tailOf m o = some w ∧ headOf m o = some v

/-- Vertex `v` is a corner of face `f`. -/
def HasCorner (m : TMesh P) (f v : Nat) : Prop :=
  ∃ face, m.faces[f]? = some face ∧ (face.a = v ∨ face.b = v ∨ face.c = v)

/-- Every edge has at most one opposite edge (manifold, consistently oriented). -/
def Manifold (m : TMesh P) : Prop := ∀ e o o', Opposite m e o → Opposite m e o' → o = o'

end R3D.HalfEdgeSpec

namespace R3D
open HalfEdge HalfEdgeSpec

variable {P : Type}

private theorem tails_get (m : TMesh P) (e : Nat) : (flatFaces m.faces)[e]? = tailOf m e := by
  unfold tailOf
  by_cases h : e / 3 < m.faces.length
  · have := flatFaces_get m.faces (e / 3) h
    rw [List.getElem?_eq_getElem h]
    have hm : e % 3 = 0 ∨ e % 3 = 1 ∨ e % 3 = 2 := by omega
    have he : e = 3 * (e / 3) + e % 3 := by omega
    rcases hm with hm | hm | hm <;> rw [hm] at he <;> simp only [hm, Option.map_some]
    · have h2 := this.1
      rwa [← he] at h2
    · have h2 := this.2.1
      rwa [← he] at h2
    · have h2 := this.2.2
      rwa [← he] at h2
  · rw [List.getElem?_eq_none (by simp; omega), List.getElem?_eq_none (by omega)]
    rfl

private theorem tailOf_isSome (m : TMesh P) (e : Nat) :
    (∃ v, tailOf m e = some v) ↔ e < 3 * m.numFaces := by
  rw [← tails_get, ← Option.isSome_iff_exists, isSome_getElem?]
  simp [TMesh.numFaces]

private theorem tailOf_next (m : TMesh P) (e : Nat) :
    tailOf m (if e % 3 = 2 then e - 2 else e + 1) = headOf m e := by
  unfold tailOf headOf
  have hm : e % 3 = 0 ∨ e % 3 = 1 ∨ e % 3 = 2 := by omega
  rcases hm with hm | hm | hm
  · have h1 : (e + 1) / 3 = e / 3 := by omega
    have h2 : (e + 1) % 3 = 1 := by omega
    simp [hm, h1, h2]
  · have h1 : (e + 1) / 3 = e / 3 := by omega
    have h2 : (e + 1) % 3 = 2 := by omega
    simp [hm, h1, h2]
  · have h1 : (e - 2) / 3 = e / 3 := by omega
    have h2 : (e - 2) % 3 = 0 := by omega
    simp [hm, h1, h2]

private theorem headOf_prev (m : TMesh P) (e : Nat) :
    headOf m (if e % 3 = 0 then e + 2 else e - 1) = tailOf m e := by
  unfold tailOf headOf
  have hm : e % 3 = 0 ∨ e % 3 = 1 ∨ e % 3 = 2 := by omega
  rcases hm with hm | hm | hm
  · have h1 : (e + 2) / 3 = e / 3 := by omega
    have h2 : (e + 2) % 3 = 2 := by omega
    simp [hm, h1, h2]
  · have h1 : (e - 1) / 3 = e / 3 := by omega
    have h2 : (e - 1) % 3 = 0 := by omega
    simp [hm, h1, h2]
  · have h1 : (e - 1) / 3 = e / 3 := by omega
    have h2 : (e - 1) % 3 = 1 := by omega
    simp [hm, h1, h2]

private theorem s_next (m : TMesh P) (e : Nat) : (SearchableMesh.new m).edgeNext e =
    if e < 3 * m.numFaces then some (if e % 3 = 2 then e - 2 else e + 1) else none := by
  have := next_eq (HalfEdge.new m) e
  rw [new_tails_length] at this; exact this
private theorem s_prev (m : TMesh P) (e : Nat) : (SearchableMesh.new m).edgePrev e =
    if e < 3 * m.numFaces then some (if e % 3 = 0 then e + 2 else e - 1) else none := by
  have := prev_eq (HalfEdge.new m) e
  rw [new_tails_length] at this; exact this
private theorem s_face (m : TMesh P) (e : Nat) : (SearchableMesh.new m).edgeFace e =
    if e < 3 * m.numFaces then some (e / 3) else none := by
  have := face_eq (HalfEdge.new m) e
  rw [new_tails_length] at this; exact this
private theorem s_tail (m : TMesh P) (e : Nat) :
    (SearchableMesh.new m).edgeTail e = tailOf m e := by
  have := tail_eq (HalfEdge.new m) e
  rw [new_tails, tails_get] at this; exact this
private theorem headOf_isSome (m : TMesh P) (e : Nat) :
    (∃ v, headOf m e = some v) ↔ e < 3 * m.numFaces := by
  rw [← tailOf_isSome]
  unfold headOf tailOf
  cases m.faces[e / 3]? <;> simp
private theorem s_head (m : TMesh P) (e : Nat) :
    (SearchableMesh.new m).edgeHead e = headOf m e := by
  unfold SearchableMesh.edgeHead
  have h1 := s_next m e
  unfold SearchableMesh.edgeNext at h1
  have h2 := s_tail m (if e % 3 = 2 then e - 2 else e + 1)
  unfold SearchableMesh.edgeTail at h2
  rw [h1]
  by_cases he : e < 3 * m.numFaces
  · simp only [he, if_true, Option.bind_some, h2, tailOf_next]
  · simp only [he, if_false, Option.bind_none]
    have := mt (headOf_isSome m e).1 he
    rw [← Option.isSome_iff_exists] at this
    cases h : headOf m e with
    | none => rfl
    | some v => simp [h] at this

/-- **C06.** Navigation inside a face: for every edge id below `3 * num_faces`, `next` and `prev`
are inverse, three `next` steps return to the start, both stay in the face reported by
`edge_face`, and tail / head are the matching corners of the face; all other ids give `None`. -/
theorem c06_half_edge_navigation (m : TMesh P) (e : Nat) :
    let s := SearchableMesh.new m
    (e < 3 * m.numFaces →
      ∃ n p nn, s.edgeNext e = some n ∧ s.edgePrev e = some p ∧
        s.edgePrev n = some e ∧ s.edgeNext p = some e ∧
        s.edgeNext n = some nn ∧ s.edgeNext nn = some e ∧ e ≠ n ∧ n ≠ nn ∧ nn ≠ e ∧
        s.edgeFace n = s.edgeFace e ∧ s.edgeFace p = s.edgeFace e ∧
        (∃ f, s.edgeFace e = some f ∧ f < m.numFaces ∧ e / 3 = f) ∧
        (∃ v w, s.edgeTail e = some v ∧ s.edgeHead e = some w ∧ s.edgeTail n = some w ∧
          tailOf m e = some v ∧ headOf m e = some w)) ∧
    (3 * m.numFaces ≤ e → s.edgeNext e = none ∧ s.edgePrev e = none ∧ s.edgeFace e = none ∧
      s.edgeTail e = none ∧ s.edgeHead e = none ∧ s.edgeTwin e = none) := by
  intro s
  constructor
  · intro he
    obtain ⟨v, hv⟩ := (tailOf_isSome m e).2 he
    obtain ⟨w, hw⟩ := (headOf_isSome m e).2 he
    have hn := tailOf_next m e
    simp only [s, s_next, s_prev, s_face, s_tail, s_head]
    have hm : e % 3 = 0 ∨ e % 3 = 1 ∨ e % 3 = 2 := by omega
    rcases hm with hm | hm | hm
    · refine ⟨e + 1, e + 2, e + 2, ?_⟩
      have a1 : (e + 1) % 3 = 1 := by omega
      have a2 : (e + 2) % 3 = 2 := by omega
      have a3 : (e + 1) / 3 = e / 3 := by omega
      have a4 : (e + 2) / 3 = e / 3 := by omega
      have a5 : e + 1 < 3 * m.numFaces := by omega
      have a6 : e + 2 < 3 * m.numFaces := by omega
      have a7 : e / 3 < m.numFaces := by omega
      simp_all
    · refine ⟨e + 1, e - 1, e - 1, ?_⟩
      have a1 : (e + 1) % 3 = 2 := by omega
      have a2 : (e - 1) % 3 = 0 := by omega
      have a3 : (e + 1) / 3 = e / 3 := by omega
      have a4 : (e - 1) / 3 = e / 3 := by omega
      have a5 : e + 1 < 3 * m.numFaces := by omega
      have a6 : e - 1 < 3 * m.numFaces := by omega
      have a7 : e / 3 < m.numFaces := by omega
      have a8 : e - 1 + 1 = e := by omega
      have a9 : e + 1 ≠ e - 1 := by omega
      have a10 : e - 1 ≠ e := by omega
      simp_all
    · refine ⟨e - 2, e - 1, e - 1, ?_⟩
      have a1 : (e - 2) % 3 = 0 := by omega
      have a2 : (e - 1) % 3 = 1 := by omega
      have a3 : (e - 2) / 3 = e / 3 := by omega
      have a4 : (e - 1) / 3 = e / 3 := by omega
      have a5 : e - 2 < 3 * m.numFaces := by omega
      have a6 : e - 1 < 3 * m.numFaces := by omega
      have a7 : e / 3 < m.numFaces := by omega
      have a8 : e - 1 + 1 = e := by omega
      have a9 : e - 2 + 2 = e := by omega
      have a10 : e - 2 + 1 = e - 1 := by omega
      have a11 : e ≠ e - 2 := by omega
      have a12 : e - 2 ≠ e - 1 := by omega
      have a13 : e - 1 ≠ e := by omega
      simp_all
  · intro he
    have h1 : ¬ e < 3 * m.numFaces := by omega
    have ht : tailOf m e = none := by
      have := mt (tailOf_isSome m e).1 h1
      rw [← Option.isSome_iff_exists] at this; simpa using this
    have hh : headOf m e = none := by
      have := mt (headOf_isSome m e).1 h1
      rw [← Option.isSome_iff_exists] at this; simpa using this
    simp only [s, s_next, s_prev, s_face, s_tail, s_head, h1, if_false, ht, hh, true_and]
    show HalfEdge.twin (HalfEdge.new m) e = none
    unfold HalfEdge.twin HalfEdge.ensureEdgeId
    rw [new_tails_length]
    simp [he]

example : (SearchableMesh.new (⟨[10, 11, 12, 13], [⟨0, 1, 2⟩, ⟨2, 1, 3⟩]⟩ : TMesh Nat)).edgeHead 5 = some 2 := by
  decide

/-- **C06.** `edges_of_face` lists exactly the edges whose face it is. -/
theorem c06_edges_of_face (m : TMesh P) (f : Nat) :
    let s := SearchableMesh.new m
    (f < m.numFaces → ∃ e1 e2 e3, s.edgesOfFace f = some (e1, e2, e3) ∧
      e1 ≠ e2 ∧ e1 ≠ e3 ∧ e2 ≠ e3 ∧
      ∀ e, s.edgeFace e = some f ↔ e = e1 ∨ e = e2 ∨ e = e3) ∧
    (m.numFaces ≤ f → s.edgesOfFace f = none) ∧ s.numEdges = 3 * m.numFaces := by
  intro s
  refine ⟨?_, ?_, ?_⟩
  · intro hf
    refine ⟨f * 3 + 0, f * 3 + 1, f * 3 + 2, ?_, by omega, by omega, by omega, ?_⟩
    · simp only [SearchableMesh.edgesOfFace, s, SearchableMesh.new]
      rw [if_neg (by omega)]
    · intro e
      simp only [s, s_face]
      by_cases he : e < 3 * m.numFaces
      · simp only [he, if_true, Option.some.injEq]; omega
      · simp only [he, if_false]; simp; omega
  · intro hf
    simp only [SearchableMesh.edgesOfFace, s, SearchableMesh.new]
    rw [if_pos hf]
  · simp only [SearchableMesh.numEdges, s, SearchableMesh.new]; omega

/-! ### C07 -/

private theorem orig (m : TMesh P) (v : Nat) (hv : ∃ f, ∃ w, HasCorner m f w ∧ v ≤ w) :
    (SearchableMesh.new m).edgesOriginatingFromVertex v = .ok (idxOf (flatFaces m.faces) v) := by
  have := edgesOriginating_eq m v
  rw [if_pos] at this
  · exact this
  · obtain ⟨f, w, ⟨face, hface, hc⟩, hvw⟩ := hv
    obtain ⟨hlt, heq⟩ := List.getElem?_eq_some_iff.1 hface
    have hg := flatFaces_get m.faces f hlt
    rw [heq] at hg
    refine ⟨w, ?_, hvw⟩
    rcases hc with rfl | rfl | rfl
    · exact List.mem_of_getElem? hg.1
    · exact List.mem_of_getElem? hg.2.1
    · exact List.mem_of_getElem? hg.2.2

private theorem hasCorner_iff (m : TMesh P) (f v : Nat) :
    HasCorner m f v ↔ tailOf m (3 * f) = some v ∨ tailOf m (3 * f + 1) = some v ∨
      tailOf m (3 * f + 2) = some v := by
  unfold HasCorner tailOf
  have h0 : (3 * f) / 3 = f := by omega
  have h1 : (3 * f + 1) / 3 = f := by omega
  have h2 : (3 * f + 2) / 3 = f := by omega
  have k0 : (3 * f) % 3 = 0 := by omega
  have k1 : (3 * f + 1) % 3 = 1 := by omega
  have k2 : (3 * f + 2) % 3 = 2 := by omega
  simp only [h0, h1, h2, k0, k1, k2]
  cases m.faces[f]? <;> simp

private theorem tail_hasCorner (m : TMesh P) (e v : Nat) (h : tailOf m e = some v) :
    HasCorner m (e / 3) v := by
  rw [hasCorner_iff]
  have hm : e = 3 * (e / 3) ∨ e = 3 * (e / 3) + 1 ∨ e = 3 * (e / 3) + 2 := by omega
  rcases hm with hm | hm | hm
  · left; rw [← hm]; exact h
  · right; left; rw [← hm]; exact h
  · right; right; rw [← hm]; exact h

private theorem facesOfVertex_go (s : SearchableMesh P) (es result : List Nat)
    (h : ∀ e ∈ es, s.edgeFace e = some (e / 3)) :
    SearchableMesh.facesOfVertex.go s es result = (result ++ es.map (· / 3), .ok ()) := by
  induction es generalizing result with
  | nil => simp [SearchableMesh.facesOfVertex.go]
  | cons e es ih =>
    simp only [SearchableMesh.facesOfVertex.go, h e (by simp)]
    rw [ih _ (fun x hx => h x (by simp [hx]))]
    simp

private theorem tail_lt (m : TMesh P) (e v : Nat) (h : tailOf m e = some v) : e < 3 * m.numFaces :=
  (tailOf_isSome m e).1 ⟨v, h⟩

private theorem facesOfVertex_eq (m : TMesh P) (v : Nat) (result : List Nat)
    (hv : ∃ f, ∃ w, HasCorner m f w ∧ v ≤ w) :
    (SearchableMesh.new m).facesOfVertex v result =
      (result ++ (idxOf (flatFaces m.faces) v).map (· / 3), .ok ()) := by
  unfold SearchableMesh.facesOfVertex
  rw [orig m v hv]
  simp only
  apply facesOfVertex_go
  intro e he
  rw [mem_idxOf, tails_get] at he
  rw [s_face, if_pos (tail_lt m e v he)]

/-- **C07** (partial: only for vertices not larger than every used vertex id, see
`c07_unused_vertex_error`). All four queries are exact: strictly increasing list of the edges
starting at `v`; duplicate free list of the edges ending at `v`; the edges touching `v`; the faces
having `v` as a corner (each once if the mesh is well formed), appended to the given result. -/
theorem c07_vertex_queries_partial (m : TMesh P) (hwf : m.WellFormed) (v : Nat)
    (hv : ∃ f, ∃ w, HasCorner m f w ∧ v ≤ w) (prior : List Nat) :
    let s := SearchableMesh.new m
    (∃ l, s.edgesOriginatingFromVertex v = .ok l ∧ l.Pairwise (· < ·) ∧
      ∀ e, e ∈ l ↔ tailOf m e = some v) ∧
    (∃ l, s.edgesEndingAtVertex v = .ok l ∧ l.Nodup ∧ ∀ e, e ∈ l ↔ headOf m e = some v) ∧
    (∃ l, s.edgesOfVertex v = .ok l ∧ l.Nodup ∧
      ∀ e, e ∈ l ↔ tailOf m e = some v ∨ headOf m e = some v) ∧
    (∃ l, s.facesOfVertex v prior = (prior ++ l, .ok ()) ∧ l.Pairwise (· < ·) ∧
      ∀ f, f ∈ l ↔ HasCorner m f v) := by
  intro s
  have horig := orig m v hv
  generalize hlist : idxOf (flatFaces m.faces) v = l at horig
  have hmem : ∀ e, e ∈ l ↔ tailOf m e = some v := by
    intro e; rw [← hlist, mem_idxOf, tails_get]
  have hsorted : l.Pairwise (· < ·) := by rw [← hlist]; exact idxOf_sorted _ _
  have hprev : ∀ e ∈ l, (HalfEdge.new m).prev e = some (if e % 3 = 0 then e + 2 else e - 1) := by
    intro e he
    have := s_prev m e
    unfold SearchableMesh.edgePrev at this
    rw [if_pos (tail_lt m e v ((hmem e).1 he))] at this
    exact this
  have hprevmem : ∀ e, (∃ a ∈ l, (HalfEdge.new m).prev a = some e) ↔ headOf m e = some v := by
    intro e
    constructor
    · rintro ⟨a, ha, hp⟩
      rw [hprev a ha] at hp
      have := headOf_prev m a
      rw [Option.some.inj hp] at this
      rw [this]; exact (hmem a).1 ha
    · intro hh
      have hlt := (headOf_isSome m e).1 ⟨v, hh⟩
      refine ⟨if e % 3 = 2 then e - 2 else e + 1, ?_, ?_⟩
      · rw [hmem, tailOf_next]; exact hh
      · rw [hprev _ (by rw [hmem, tailOf_next]; exact hh)]
        congr 1
        have hm : e % 3 = 0 ∨ e % 3 = 1 ∨ e % 3 = 2 := by omega
        rcases hm with hm | hm | hm
        · have : (e + 1) % 3 = 1 := by omega
          simp [hm, this]
        · have : (e + 1) % 3 = 2 := by omega
          simp [hm, this]
        · have : (e - 2) % 3 = 0 := by omega
          simp [hm, this]; omega
  have hprevinj : ∀ a b c, a ∈ l → b ∈ l → (HalfEdge.new m).prev a = some c →
      (HalfEdge.new m).prev b = some c → a = b := by
    intro a b c ha hb h1 h2
    rw [hprev a ha] at h1; rw [hprev b hb] at h2
    have e1 := Option.some.inj h1
    have e2 := Option.some.inj h2
    split at e1 <;> split at e2 <;> omega
  have hnd : l.Nodup := hsorted.imp (fun h => Nat.ne_of_lt h)
  refine ⟨⟨l, horig, hsorted, hmem⟩, ?_, ?_, ?_⟩
  · refine ⟨l.filterMap (HalfEdge.new m).prev, ?_, ?_, ?_⟩
    · show (HalfEdge.new m).edgesEnding v = _
      unfold HalfEdge.edgesEnding
      have : (HalfEdge.new m).edgesOriginating v = .ok l := horig
      rw [this]
    · rw [List.Nodup, List.pairwise_filterMap]
      refine List.Pairwise.imp_of_mem ?_ hnd
      intro a b ha hb hab c hc d hd hcd
      subst hcd
      exact hab (hprevinj a b c ha hb hc hd)
    · intro e
      rw [List.mem_filterMap]
      exact hprevmem e
  · refine ⟨l.flatMap fun e => e :: ((HalfEdge.new m).prev e).toList, ?_, ?_, ?_⟩
    · show (HalfEdge.new m).edgesAll v = _
      unfold HalfEdge.edgesAll
      have : (HalfEdge.new m).edgesOriginating v = .ok l := horig
      rw [this]
    · -- an edge never starts and ends at the same vertex in a well formed mesh
      have hdisj : ∀ e, tailOf m e = some v → headOf m e = some v → False := by
        intro e ht hh
        unfold tailOf at ht; unfold headOf at hh
        cases hf : m.faces[e / 3]? with
        | none => simp [hf] at ht
        | some f =>
          have hw := hwf f (List.mem_of_getElem? hf)
          simp only [hf, Option.map_some, Option.some.injEq] at ht hh
          have hm : e % 3 = 0 ∨ e % 3 = 1 ∨ e % 3 = 2 := by omega
          rcases hm with hm | hm | hm <;> simp only [hm] at ht hh <;> omega
      have key : ∀ a ∈ l, ∀ c, (HalfEdge.new m).prev a = some c → headOf m c = some v :=
        fun a ha c hc => (hprevmem c).1 ⟨a, ha, hc⟩
      rw [List.Nodup, List.pairwise_flatMap]
      constructor
      · intro a ha
        rw [hprev a ha]
        simp only [Option.toList_some, List.pairwise_cons, List.mem_singleton]
        refine ⟨?_, by simp⟩
        rintro x rfl
        intro heq
        have h1 := (hmem a).1 ha
        have h2 := key a ha _ (hprev a ha)
        rw [← heq] at h2
        exact hdisj a h1 h2
      · refine List.Pairwise.imp_of_mem ?_ hnd
        intro a b ha hb hab x hx y hy hxy
        subst hxy
        simp only [List.mem_cons, Option.mem_toList] at hx hy
        rcases hx with rfl | hx
        · rcases hy with rfl | hy
          · exact hab rfl
          · exact hdisj _ ((hmem _).1 ha) (key b hb _ hy)
        · rcases hy with rfl | hy
          · exact hdisj _ ((hmem _).1 hb) (key a ha _ hx)
          · exact hab (hprevinj a b x ha hb hx hy)
    · intro e
      rw [List.mem_flatMap, ← hmem, ← hprevmem]
      simp only [List.mem_cons, Option.mem_toList]
      constructor
      · rintro ⟨a, ha, rfl | h⟩
        · exact Or.inl ha
        · exact Or.inr ⟨a, ha, h⟩
      · rintro (h | ⟨a, ha, h⟩)
        · exact ⟨e, h, Or.inl rfl⟩
        · exact ⟨a, ha, Or.inr h⟩
  · refine ⟨l.map (· / 3), ?_, ?_, ?_⟩
    · rw [← hlist]; exact facesOfVertex_eq m v prior hv
    · rw [List.pairwise_map]
      refine List.Pairwise.imp_of_mem ?_ hsorted
      intro a b ha hb hab
      have h1 := (hmem a).1 ha
      have h2 := (hmem b).1 hb
      rcases Nat.lt_or_ge (a / 3) (b / 3) with h | h
      · exact h
      · exfalso
        have heq : a / 3 = b / 3 := by omega
        unfold tailOf at h1 h2
        rw [heq] at h1
        cases hf : m.faces[b / 3]? with
        | none => simp [hf] at h1
        | some f =>
          have hw := hwf f (List.mem_of_getElem? hf)
          simp only [hf, Option.map_some, Option.some.injEq] at h1 h2
          have hm : a % 3 = 0 ∨ a % 3 = 1 ∨ a % 3 = 2 := by omega
          have hm' : b % 3 = 0 ∨ b % 3 = 1 ∨ b % 3 = 2 := by omega
          rcases hm with hm | hm | hm <;> rcases hm' with hm' | hm' | hm' <;>
            simp only [hm, hm'] at h1 h2 <;> omega
    · intro f
      rw [List.mem_map, hasCorner_iff]
      constructor
      · rintro ⟨e, he, rfl⟩
        have := tail_hasCorner m e v ((hmem e).1 he)
        rwa [hasCorner_iff] at this
      · rintro (h | h | h)
        · exact ⟨3 * f, (hmem _).2 h, by omega⟩
        · exact ⟨3 * f + 1, (hmem _).2 h, by omega⟩
        · exact ⟨3 * f + 2, (hmem _).2 h, by omega⟩

example : ∃ f, ∃ w, HasCorner (⟨[10, 11, 12, 13], [⟨0, 1, 2⟩, ⟨2, 1, 3⟩]⟩ : TMesh Nat) f w ∧ 1 ≤ w :=
  ⟨1, 3, ⟨⟨2, 1, 3⟩, rfl, by decide⟩, by decide⟩

/-- **C07** (partial, same restriction): `HalfEdge::faces` lists exactly the faces having `v` as a
corner, each once. -/
theorem c07_half_edge_faces_partial (m : TMesh P) (hwf : m.WellFormed) (v : Nat)
    (hv : ∃ f, ∃ w, HasCorner m f w ∧ v ≤ w) :
    ∃ l, (HalfEdge.new m).faces v = .ok l ∧ l.Pairwise (· < ·) ∧ ∀ f, f ∈ l ↔ HasCorner m f v := by
  obtain ⟨l, h1, h2, h3⟩ := (c07_vertex_queries_partial m hwf v hv []).2.2.2
  refine ⟨l, ?_, h2, h3⟩
  have horig := orig m v hv
  unfold SearchableMesh.facesOfVertex at h1
  rw [horig] at h1
  have horig' : (HalfEdge.new m).edgesOriginating v = .ok (idxOf (flatFaces m.faces) v) := horig
  simp only [HalfEdge.faces, horig']
  have : ∀ (es : List Nat) (r l : List Nat),
      SearchableMesh.facesOfVertex.go (SearchableMesh.new m) es r = (r ++ l, .ok ()) →
      es.filterMap (HalfEdge.new m).face = l := by
    intro es
    induction es with
    | nil =>
      intro r l h
      simp only [SearchableMesh.facesOfVertex.go, Prod.mk.injEq, and_true] at h
      simpa using h
    | cons e es ih =>
      intro r l h
      unfold SearchableMesh.facesOfVertex.go at h
      have hf : (SearchableMesh.new m).edgeFace e = (HalfEdge.new m).face e := rfl
      rw [hf] at h
      rcases he : (HalfEdge.new m).face e with _ | f
      · rw [he] at h; simp at h
      · rw [he] at h
        simp only at h
        have hpre : ∃ l', l = f :: l' := by
          have hgo : ∀ (es r r' : List Nat), (∃ o, SearchableMesh.facesOfVertex.go (SearchableMesh.new m) es r = (r', o)) →
              ∃ t, r' = r ++ t := by
            intro es
            induction es with
            | nil => rintro r r' ⟨o, h⟩; simp [SearchableMesh.facesOfVertex.go] at h; exact ⟨[], by simp [h.1]⟩
            | cons e es ih =>
              rintro r r' ⟨o, h⟩
              unfold SearchableMesh.facesOfVertex.go at h
              split at h
              · obtain ⟨t, rfl⟩ := ih _ _ ⟨o, h⟩; exact ⟨[_] ++ t, List.append_assoc _ _ _⟩
              · simp at h; exact ⟨[], by simp [h.1]⟩
          obtain ⟨t, ht⟩ := hgo es _ _ ⟨_, h⟩
          exact ⟨t, by simpa using ht⟩
        obtain ⟨l', rfl⟩ := hpre
        rw [List.filterMap_cons_some he, ih (r ++ [f]) l' (by simpa using h)]
  rw [this _ [] l h1]

/-- **C07 violated.** A vertex that exists but has a larger id than every used vertex makes the
query fail with `IncorrectVertexID` instead of returning no edges. Exactly those fail. -/
theorem c07_unused_vertex_error (m : TMesh P) (v : Nat) :
    (SearchableMesh.new m).edgesOriginatingFromVertex v = .error .IncorrectVertexID ↔
      ∀ f w, HasCorner m f w → w < v := by
  constructor
  · intro h f w hc
    rcases Nat.lt_or_ge w v with hlt | hge
    · exact hlt
    · rw [orig m v ⟨f, w, hc, hge⟩] at h
      cases h
  · intro h
    have := edgesOriginating_eq m v
    rw [if_neg] at this
    · exact this
    · rintro ⟨x, hx, hvx⟩
      obtain ⟨e, he⟩ := List.getElem?_of_mem hx
      rw [tails_get] at he
      have := h _ _ (tail_hasCorner m e x he)
      omega

theorem c07_violated : ∃ (m : TMesh Nat) (v : Nat), m.WellFormed ∧ v < m.numVertices ∧
    (SearchableMesh.new m).edgesOriginatingFromVertex v = .error .IncorrectVertexID :=
  ⟨⟨[10, 11, 12, 13], [⟨0, 1, 2⟩]⟩, 3, by
    intro f hf; simp only [List.mem_singleton] at hf; subst hf; decide, by decide, by rfl⟩

/-! ### C08 -/

private theorem opposite_lt {m : TMesh P} {e o : Nat} (h : Opposite m e o) :
    e < 3 * m.numFaces ∧ o < 3 * m.numFaces := by
  obtain ⟨v, w, h1, _, h3, _⟩ := h
  exact ⟨tail_lt m e v h1, tail_lt m o w h3⟩

private theorem twin_eq (m : TMesh P) (e : Nat) (he : e < 3 * m.numFaces) :
    ∃ w, headOf m e = some w ∧ (SearchableMesh.new m).edgeTwin e =
      (((idxOf (flatFaces m.faces) w).map fun o => if o % 3 = 2 then o - 2 else o + 1).filter
        (fun c => tailOf m c == tailOf m e)).getLast? := by
  obtain ⟨w, hw⟩ := (headOf_isSome m e).2 he
  refine ⟨w, hw, ?_⟩
  show HalfEdge.twin (HalfEdge.new m) e = _
  unfold HalfEdge.twin HalfEdge.ensureEdgeId
  rw [new_tails_length, if_neg (by omega)]
  simp only
  -- the structure before twins were filled in has the same tails and start edges
  generalize hpre : (⟨(collect 0 m.faces ([], [])).1, List.replicate (3 * m.numFaces) none,
    (collect 0 m.faces ([], [])).2⟩ : HalfEdge) = h0
  have htw : (HalfEdge.new m).twins = (List.range h0.tails.length).map h0.findTwin := by
    rw [← hpre]; rfl
  have htails : h0.tails = flatFaces m.faces := by
    have := new_tails m; rw [← hpre]; exact this
  have hlen : h0.tails.length = 3 * m.numFaces := by rw [htails, flatFaces_length]; rfl
  have horig : h0.edgesOriginating w = .ok (idxOf (flatFaces m.faces) w) := by
    have h1 : (HalfEdge.new m).edgesOriginating w = .ok (idxOf (flatFaces m.faces) w) := by
      apply orig
      rw [← tailOf_next] at hw
      exact ⟨_, w, tail_hasCorner m _ w hw, Nat.le_refl _⟩
    rw [← hpre]; exact h1
  rw [htw, List.getElem?_map, List.getElem?_range (by omega)]
  simp only [Option.map_some, Option.join_some]
  have hnext : ∀ x, h0.next x =
      if x < 3 * m.numFaces then some (if x % 3 = 2 then x - 2 else x + 1) else none := by
    intro x; rw [next_eq, hlen]
  unfold HalfEdge.findTwin
  rw [hnext, if_pos he]
  simp only
  rw [htails, tails_get, tailOf_next, hw]
  simp only [horig]
  rw [twinLoop_eq]
  have hfm : (idxOf (flatFaces m.faces) w).filterMap h0.next =
      (idxOf (flatFaces m.faces) w).map fun o => if o % 3 = 2 then o - 2 else o + 1 := by
    have hall : ∀ x ∈ idxOf (flatFaces m.faces) w,
        h0.next x = some (if x % 3 = 2 then x - 2 else x + 1) := by
      intro x hx
      rw [mem_idxOf, tails_get] at hx
      rw [hnext, if_pos (tail_lt m x w hx)]
    revert hall
    generalize idxOf (flatFaces m.faces) w = l
    intro hall
    induction l with
    | nil => rfl
    | cons x l ih =>
      rw [List.filterMap_cons, hall x (by simp), List.map_cons,
        ih (fun y hy => hall y (by simp [hy]))]
  rw [hfm, htails]
  have hfil : ((idxOf (flatFaces m.faces) w).map fun o => if o % 3 = 2 then o - 2 else o + 1).filter
      (fun c => (flatFaces m.faces)[c]? == (flatFaces m.faces)[e]?) =
      ((idxOf (flatFaces m.faces) w).map fun o => if o % 3 = 2 then o - 2 else o + 1).filter
      (fun c => tailOf m c == tailOf m e) := by
    apply List.filter_congr
    intro c _
    rw [tails_get, tails_get]
  rw [hfil]
  cases (List.filter (fun c => tailOf m c == tailOf m e)
    (List.map (fun o => if o % 3 = 2 then o - 2 else o + 1) (idxOf (flatFaces m.faces) w))).getLast? <;> rfl

/-- Whatever `edge_twin` returns is the successor of an opposite edge. -/
private theorem twin_some (m : TMesh P) (e t : Nat) (h : (SearchableMesh.new m).edgeTwin e = some t) :
    ∃ o, Opposite m e o ∧ t = (if o % 3 = 2 then o - 2 else o + 1) := by
  by_cases he : e < 3 * m.numFaces
  · obtain ⟨w, hw, ht⟩ := twin_eq m e he
    rw [ht] at h
    have hmem := List.mem_of_getLast? h
    rw [List.mem_filter, List.mem_map] at hmem
    obtain ⟨⟨o, ho, rfl⟩, hc⟩ := hmem
    rw [mem_idxOf, tails_get] at ho
    rw [beq_iff_eq, tailOf_next] at hc
    obtain ⟨v, hv⟩ := (tailOf_isSome m e).2 he
    exact ⟨o, ⟨v, w, hv, hw, ho, by rw [hc, hv]⟩, rfl⟩
  · have := ((c06_half_edge_navigation m e).2 (by omega)).2.2.2.2.2
    rw [this] at h; cases h

private theorem twin_none (m : TMesh P) (e : Nat) :
    (SearchableMesh.new m).edgeTwin e = none ↔ ∀ o, ¬ Opposite m e o := by
  constructor
  · intro h o ho
    obtain ⟨w, hw, ht⟩ := twin_eq m e (opposite_lt ho).1
    rw [h] at ht
    have := ht.symm
    rw [List.getLast?_eq_none_iff, List.filter_eq_nil_iff] at this
    obtain ⟨v, w', h1, h2, h3, h4⟩ := ho
    have hww : w' = w := by rw [h2] at hw; exact Option.some.inj hw
    subst hww
    refine this (if o % 3 = 2 then o - 2 else o + 1) ?_ ?_
    · exact List.mem_map.2 ⟨o, by rw [mem_idxOf, tails_get]; exact h3, rfl⟩
    · rw [tailOf_next, h4, h1]; simp
  · intro h
    cases ht : (SearchableMesh.new m).edgeTwin e with
    | none => rfl
    | some t => obtain ⟨o, ho, _⟩ := twin_some m e t ht; exact absurd ho (h o)

/-- **C08** (partial, what does hold): `edge_twin` is `None` exactly for border edges; in a
manifold mesh with opposite edge `o` it returns the edge after `o`, which lies in `o`'s face. -/
theorem c08_twin_partial (m : TMesh P) (hman : Manifold m) (e : Nat) :
    let s := SearchableMesh.new m
    (s.edgeTwin e = none ↔ ∀ o, ¬ Opposite m e o) ∧
    (∀ o, Opposite m e o → s.edgeTwin e = s.edgeNext o ∧
      ∃ t, s.edgeTwin e = some t ∧ s.edgeFace t = some (o / 3)) := by
  intro s
  refine ⟨twin_none m e, ?_⟩
  intro o ho
  cases ht : s.edgeTwin e with
  | none => exact absurd ho ((twin_none m e).1 ht o)
  | some t =>
    obtain ⟨o', ho', rfl⟩ := twin_some m e t ht
    have := hman e o o' ho ho'
    subst this
    have hlt := (opposite_lt ho).2
    refine ⟨?_, _, rfl, ?_⟩
    · simp only [s, s_next, hlt, if_true]
    · simp only [s, s_face]
      split
      · rw [if_pos (by omega)]; congr 1; omega
      · rw [if_pos (by omega)]; congr 1; omega

/-- **C08 violated, for every mesh.** In a well formed mesh the edge returned by `edge_twin` is
never an opposite edge: it starts where the edge itself starts. -/
theorem c08_twin_never_opposite (m : TMesh P) (hwf : m.WellFormed) (e t : Nat)
    (h : (SearchableMesh.new m).edgeTwin e = some t) :
    (SearchableMesh.new m).edgeTail t = (SearchableMesh.new m).edgeTail e ∧ ¬ Opposite m e t := by
  obtain ⟨o, ⟨v, w, h1, h2, h3, h4⟩, rfl⟩ := twin_some m e t h
  have htail : tailOf m (if o % 3 = 2 then o - 2 else o + 1) = tailOf m e := by
    rw [tailOf_next, h4, h1]
  refine ⟨by rw [s_tail, s_tail, htail], ?_⟩
  rintro ⟨v', w', k1, k2, k3, _⟩
  rw [htail, k1] at k3
  have hvw : v' = w' := Option.some.inj k3
  subst hvw
  unfold tailOf at k1; unfold headOf at k2
  cases hf : m.faces[e / 3]? with
  | none => simp [hf] at k1
  | some f =>
    have hw := hwf f (List.mem_of_getElem? hf)
    simp only [hf, Option.map_some, Option.some.injEq] at k1 k2
    have hm : e % 3 = 0 ∨ e % 3 = 1 ∨ e % 3 = 2 := by omega
    rcases hm with hm | hm | hm <;> simp only [hm] at k1 k2 <;> omega

/-- Two triangles sharing the edge 1-2. -/
def twoTriangles : TMesh Nat := ⟨[10, 11, 12, 13], [⟨0, 1, 2⟩, ⟨2, 1, 3⟩]⟩

example : twoTriangles.WellFormed := by
  intro f hf
  simp only [twoTriangles, List.mem_cons, List.not_mem_nil, or_false] at hf
  rcases hf with rfl | rfl <;> decide

/-- **C08 violated.** Concrete: the twin of 1→2 should be 3 (2→1) but is 4 (1→3), and taking the
twin twice does not return. -/
theorem c08_violated :
    (SearchableMesh.new twoTriangles).edgeTwin 1 = some 4 ∧ Opposite twoTriangles 1 3 ∧
    (SearchableMesh.new twoTriangles).edgeTwin 4 = none := by
  refine ⟨by decide, ⟨1, 2, by decide, by decide, by decide, by decide⟩, by decide⟩

/-! ### C09 -/

/-- **C09.** `face_edge_neighbours` appends, in a manifold mesh, exactly the faces lying across one
of the three edges (in corner order), and fails only for an invalid face id. -/
theorem c09_face_edge_neighbours (m : TMesh P) (hman : Manifold m) (f : Nat) (prior : List Nat) :
    let s := SearchableMesh.new m
    (f < m.numFaces → ∃ l, s.faceEdgeNeighbours f prior = (prior ++ l, .ok ()) ∧ l.length ≤ 3 ∧
      ∀ g, g ∈ l ↔ ∃ e o, e / 3 = f ∧ Opposite m e o ∧ o / 3 = g) ∧
    (m.numFaces ≤ f → s.faceEdgeNeighbours f prior = (prior, .error .IncorrectFaceID)) := by
  intro s
  constructor
  · intro hf
    have hadd : ∀ (e : Nat) (r : List Nat), ∃ l, s.addTwinFace r e = r ++ l ∧ l.length ≤ 1 ∧
        ∀ g, g ∈ l ↔ ∃ o, Opposite m e o ∧ o / 3 = g := by
      intro e r
      obtain ⟨hnone, hsome⟩ := c08_twin_partial m hman e
      unfold SearchableMesh.addTwinFace
      cases ht : s.edgeTwin e with
      | none =>
        refine ⟨[], by simp, by simp, ?_⟩
        intro g
        constructor
        · simp
        · rintro ⟨o, ho, _⟩; exact absurd ho (hnone.1 ht o)
      | some t =>
        obtain ⟨o, ho, _⟩ := twin_some m e t ht
        obtain ⟨_, t', h1, h2⟩ := hsome o ho
        have : t = t' := by
          have hh : s.edgeTwin e = some t' := h1
          rw [ht] at hh; exact Option.some.inj hh
        subst this
        have h2' : s.edgeFace t = some (o / 3) := h2
        simp only [h2']
        refine ⟨[o / 3], rfl, by simp, ?_⟩
        intro g
        rw [List.mem_singleton]
        constructor
        · rintro rfl; exact ⟨o, ho, rfl⟩
        · rintro ⟨o', ho', rfl⟩; rw [hman e o o' ho ho']
    obtain ⟨l1, h1, n1, m1⟩ := hadd (f * 3 + 0) prior
    obtain ⟨l2, h2, n2, m2⟩ := hadd (f * 3 + 1) (prior ++ l1)
    obtain ⟨l3, h3, n3, m3⟩ := hadd (f * 3 + 2) (prior ++ l1 ++ l2)
    refine ⟨l1 ++ l2 ++ l3, ?_, by simp; omega, ?_⟩
    · unfold SearchableMesh.faceEdgeNeighbours SearchableMesh.edgesOfFace
      have : ¬ (f ≥ s.mesh.numFaces) := by
        show ¬ (f ≥ m.numFaces); omega
      simp only [this, if_false]
      rw [h1, h2, h3]
      simp
    · intro g
      simp only [List.mem_append, m1, m2, m3]
      constructor
      · rintro ((⟨o, ho, hg⟩ | ⟨o, ho, hg⟩) | ⟨o, ho, hg⟩)
        · exact ⟨_, o, by omega, ho, hg⟩
        · exact ⟨_, o, by omega, ho, hg⟩
        · exact ⟨_, o, by omega, ho, hg⟩
      · rintro ⟨e, o, he, ho, hg⟩
        have : e = f * 3 + 0 ∨ e = f * 3 + 1 ∨ e = f * 3 + 2 := by omega
        rcases this with rfl | rfl | rfl
        · exact Or.inl (Or.inl ⟨o, ho, hg⟩)
        · exact Or.inl (Or.inr ⟨o, ho, hg⟩)
        · exact Or.inr ⟨o, ho, hg⟩
  · intro hf
    unfold SearchableMesh.faceEdgeNeighbours SearchableMesh.edgesOfFace
    have : f ≥ s.mesh.numFaces := hf
    simp only [this, if_true]

example : Manifold twoTriangles := by
  intro e o o' h h'
  have b1 := opposite_lt h
  have b2 := opposite_lt h'
  have hn : 3 * twoTriangles.numFaces = 6 := by decide
  rw [hn] at b1 b2
  obtain ⟨v, w, h1, h2, h3, h4⟩ := h
  obtain ⟨v', w', k1, k2, k3, k4⟩ := h'
  have hv : v = v' := by rw [h1] at k1; exact Option.some.inj k1
  have hw : w = w' := by rw [h2] at k2; exact Option.some.inj k2
  subst hv; subst hw
  have key : ∀ o < 6, ∀ o' < 6, tailOf twoTriangles o = tailOf twoTriangles o' →
      headOf twoTriangles o = headOf twoTriangles o' → o = o' := by decide
  exact key o b1.2 o' b2.2 (h3.trans k3.symm) (h4.trans k4.symm)

/-- **C09.** `face_vertex_neighbours` yields the strictly increasing list of everything that was in
`result` before and of all faces sharing a vertex with `f` (`f` itself included); it fails only for
an invalid face id. -/
theorem c09_face_vertex_neighbours (m : TMesh P) (f : Nat) (prior : List Nat) :
    let s := SearchableMesh.new m
    (f < m.numFaces → ∃ l, s.faceVertexNeighbours f prior = (l, .ok ()) ∧ l.Pairwise (· < ·) ∧
      ∀ g, g ∈ l ↔ g ∈ prior ∨ ∃ v, HasCorner m f v ∧ HasCorner m g v) ∧
    (m.numFaces ≤ f → s.faceVertexNeighbours f prior = (prior, .error .IncorrectFaceID)) := by
  intro s
  constructor
  · intro hf
    have hf' : m.faces[f]? = some (m.faces[f]'hf) := List.getElem?_eq_getElem hf
    generalize hface : m.faces[f]'hf = face at hf'
    have hca : HasCorner m f face.a := ⟨face, hf', Or.inl rfl⟩
    have hcb : HasCorner m f face.b := ⟨face, hf', Or.inr (Or.inl rfl)⟩
    have hcc : HasCorner m f face.c := ⟨face, hf', Or.inr (Or.inr rfl)⟩
    have ha := facesOfVertex_eq m face.a prior ⟨f, _, hca, Nat.le_refl _⟩
    have hb := fun r => facesOfVertex_eq m face.b r ⟨f, _, hcb, Nat.le_refl _⟩
    have hc := fun r => facesOfVertex_eq m face.c r ⟨f, _, hcc, Nat.le_refl _⟩
    unfold SearchableMesh.faceVertexNeighbours
    have hids : s.mesh.faceVertexIds f = some face := hf'
    simp only [hids]
    have ha' : s.facesOfVertex face.a prior = _ := ha
    have hb' : ∀ r, s.facesOfVertex face.b r = _ := hb
    have hc' : ∀ r, s.facesOfVertex face.c r = _ := hc
    simp only [ha', hb', hc']
    refine ⟨_, rfl, ?_, ?_⟩
    · apply dedup_sorted
      have := stableSort_sorted (le := fun a b => decide (a ≤ b))
        (by intro a b c h1 h2; simp at *; omega) (by intro a b; simp; omega)
        (prior ++ (idxOf (flatFaces m.faces) face.a).map (· / 3) ++
          (idxOf (flatFaces m.faces) face.b).map (· / 3) ++
          (idxOf (flatFaces m.faces) face.c).map (· / 3))
      exact this.imp (by simp)
    · intro g
      have hmem : ∀ v, g ∈ (idxOf (flatFaces m.faces) v).map (· / 3) ↔ HasCorner m g v := by
        intro v
        rw [List.mem_map, hasCorner_iff]
        constructor
        · rintro ⟨e, he, rfl⟩
          rw [mem_idxOf, tails_get] at he
          have := tail_hasCorner m e v he
          rwa [hasCorner_iff] at this
        · rintro (h | h | h)
          · exact ⟨3 * g, by rw [mem_idxOf, tails_get]; exact h, by omega⟩
          · exact ⟨3 * g + 1, by rw [mem_idxOf, tails_get]; exact h, by omega⟩
          · exact ⟨3 * g + 2, by rw [mem_idxOf, tails_get]; exact h, by omega⟩
      rw [dedup_mem, mem_stableSort]
      simp only [List.mem_append, hmem]
      constructor
      · rintro (((h | h) | h) | h)
        · exact Or.inl h
        · exact Or.inr ⟨_, hca, h⟩
        · exact Or.inr ⟨_, hcb, h⟩
        · exact Or.inr ⟨_, hcc, h⟩
      · rintro (h | ⟨v, ⟨face', hface', hv⟩, h⟩)
        · exact Or.inl (Or.inl (Or.inl h))
        · rw [hf'] at hface'
          have := Option.some.inj hface'
          subst this
          rcases hv with rfl | rfl | rfl
          · exact Or.inl (Or.inl (Or.inr h))
          · exact Or.inl (Or.inr h)
          · exact Or.inr h
  · intro hf
    unfold SearchableMesh.faceVertexNeighbours
    have : s.mesh.faceVertexIds f = none := List.getElem?_eq_none hf
    simp only [this]

example : ((SearchableMesh.new twoTriangles).faceVertexNeighbours 1 [7, 7]).1 = [0, 1, 7] := by
  decide +kernel

end R3D

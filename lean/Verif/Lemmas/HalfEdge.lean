import Verif.Model.HalfEdge
import Verif.Lemmas.Mesh
import Verif.Lemmas.Sort
/-
Helper lemmas about the half edge construction.
-/
namespace R3D.HalfEdge

/-- edges (indices into `flat`) whose value is `v`, starting at offset `k` -/
def idxOf (flat : List Nat) (v : Nat) : List Nat :=
  (List.range flat.length).filter fun e => flat[e]? == some v

theorem idxOf_append_single (flat : List Nat) (x v : Nat) :
    idxOf (flat ++ [x]) v = idxOf flat v ++ (if x = v then [flat.length] else []) := by
  unfold idxOf
  rw [List.length_append, List.length_singleton, List.range_succ, List.filter_append]
  congr 1
  · apply List.filter_congr
    intro e he
    rw [List.mem_range] at he
    rw [List.getElem?_append_left he]
  · by_cases h : x = v <;> simp [h]

theorem mem_idxOf {flat : List Nat} {v e : Nat} : e ∈ idxOf flat v ↔ flat[e]? = some v := by
  unfold idxOf
  simp only [List.mem_filter, List.mem_range, beq_iff_eq]
  constructor
  · exact fun h => h.2
  · intro h
    refine ⟨?_, h⟩
    exact (List.getElem?_eq_some_iff.1 h).1

theorem idxOf_sorted (flat : List Nat) (v : Nat) : (idxOf flat v).Pairwise (· < ·) :=
  List.Pairwise.filter _ List.pairwise_lt_range

/-- State of the construction after the indices `flat` have been seen. -/
def Inv (flat : List Nat) (se : List (List Nat)) : Prop :=
  (∀ v, v < se.length → se[v]? = some (idxOf flat v)) ∧
  (∀ v, v < se.length ↔ ∃ x ∈ flat, v ≤ x)

theorem inv_nil : Inv [] [] := by simp [Inv]

theorem inv_append {flat se} (h : Inv flat se) (x : Nat) :
    Inv (flat ++ [x]) (safeAppendAt se x flat.length) := by
  obtain ⟨h1, h2⟩ := h
  unfold safeAppendAt
  by_cases hx : x ≥ se.length
  · simp only [hx, if_true]
    have hlen : (se ++ List.replicate (x + 1 - se.length) ([] : List Nat)).length = x + 1 := by
      simp; omega
    constructor
    · intro v hv
      rw [List.length_modify, hlen] at hv
      rw [List.getElem?_modify, idxOf_append_single]
      by_cases hvs : v < se.length
      · rw [List.getElem?_append_left hvs, h1 v hvs]
        have : x ≠ v := by omega
        simp [this]
      · rw [List.getElem?_append_right (by omega), List.getElem?_replicate]
        have : v - se.length < x + 1 - se.length := by omega
        have hno : idxOf flat v = [] := by
          apply List.eq_nil_iff_forall_not_mem.2
          intro e he
          rw [mem_idxOf] at he
          exact hvs ((h2 v).2 ⟨v, List.mem_of_getElem? he, Nat.le_refl _⟩)
        rw [if_pos this]
        by_cases hxv : x = v <;> simp [hxv, hno]
    · intro v
      rw [List.length_modify, hlen]
      constructor
      · intro hv; exact ⟨x, by simp, by omega⟩
      · rintro ⟨y, hy, hvy⟩
        simp only [List.mem_append, List.mem_singleton] at hy
        rcases hy with hy | rfl
        · have := (h2 v).2 ⟨y, hy, hvy⟩; omega
        · omega
  · simp only [hx, if_false]
    constructor
    · intro v hv
      rw [List.length_modify] at hv
      rw [List.getElem?_modify, idxOf_append_single, h1 v hv]
      by_cases hxv : x = v <;> simp [hxv]
    · intro v
      rw [List.length_modify, h2]
      constructor
      · rintro ⟨y, hy, hvy⟩; exact ⟨y, by simp [hy], hvy⟩
      · rintro ⟨y, hy, hvy⟩
        simp only [List.mem_append, List.mem_singleton] at hy
        rcases hy with hy | rfl
        · exact ⟨y, hy, hvy⟩
        · exact (h2 v).1 (by omega)

theorem collect_spec (fs : List Face3) (i : Nat) (flat : List Nat) (se : List (List Nat))
    (hlen : flat.length = i * 3) (h : Inv flat se) :
    (collect i fs (flat, se)).1 = flat ++ flatFaces fs ∧
      Inv (flat ++ flatFaces fs) (collect i fs (flat, se)).2 := by
  induction fs generalizing i flat se with
  | nil => simp [collect, h]
  | cons f fs ih =>
    have k1 := inv_append h f.a
    have k2 := inv_append k1 f.b
    have k3 := inv_append k2 f.c
    simp only [List.length_append, List.length_singleton, hlen] at k1 k2 k3
    have := ih (i + 1) (flat ++ [f.a] ++ [f.b] ++ [f.c]) _ (by simp [hlen]; omega) k3
    simp only [collect, Nat.add_zero]
    constructor
    · rw [this.1]; simp
    · have e : flat ++ flatFaces (f :: fs) = flat ++ [f.a] ++ [f.b] ++ [f.c] ++ flatFaces fs := by simp
      rw [e]; exact this.2

variable {P : Type}

theorem new_tails (m : TMesh P) : (new m).tails = flatFaces m.faces := by
  have := (collect_spec m.faces 0 [] [] rfl inv_nil).1
  simpa [new] using this

theorem new_inv (m : TMesh P) : Inv (flatFaces m.faces) (new m).startEdges := by
  have := (collect_spec m.faces 0 [] [] rfl inv_nil).2
  simpa [new] using this

theorem new_tails_length (m : TMesh P) : (new m).tails.length = 3 * m.numFaces := by
  rw [new_tails, flatFaces_length]; rfl

theorem next_eq (h : HalfEdge) (e : Nat) :
    h.next e = if e < h.tails.length then some (if e % 3 = 2 then e - 2 else e + 1) else none := by
  unfold next ensureEdgeId
  by_cases he : e < h.tails.length
  · simp only [ge_iff_le, Nat.not_le.2 he, if_false, he, if_true]; split <;> rfl
  · simp [he, Nat.le_of_not_lt he]

theorem prev_eq (h : HalfEdge) (e : Nat) :
    h.prev e = if e < h.tails.length then some (if e % 3 = 0 then e + 2 else e - 1) else none := by
  unfold prev ensureEdgeId
  by_cases he : e < h.tails.length
  · simp only [ge_iff_le, Nat.not_le.2 he, if_false, he, if_true]; split <;> rfl
  · simp [he, Nat.le_of_not_lt he]

theorem face_eq (h : HalfEdge) (e : Nat) :
    h.face e = if e < h.tails.length then some (e / 3) else none := by
  unfold face ensureEdgeId
  by_cases he : e < h.tails.length
  · simp [Nat.not_le.2 he, he]
  · simp [he, Nat.le_of_not_lt he]

theorem tail_eq (h : HalfEdge) (e : Nat) : h.tail e = h.tails[e]? := by
  unfold tail ensureEdgeId
  by_cases he : e < h.tails.length
  · simp [Nat.not_le.2 he]
  · simp [Nat.le_of_not_lt he]

theorem edgesOriginating_eq (m : TMesh P) (v : Nat) :
    (new m).edgesOriginating v =
      if ∃ x ∈ flatFaces m.faces, v ≤ x then .ok (idxOf (flatFaces m.faces) v)
      else .error .IncorrectVertexID := by
  obtain ⟨h1, h2⟩ := new_inv m
  unfold edgesOriginating ensureVertexId
  by_cases hv : v < (new m).startEdges.length
  · have hv' := (h2 v).1 hv
    simp only [ge_iff_le, Nat.not_le.2 hv, if_false, h1 v hv]
    rw [if_pos hv']
  · have hv' := mt (h2 v).2 hv
    simp only [ge_iff_le, Nat.le_of_not_lt hv, if_true]
    rw [if_neg hv']


/-- the twin loop returns the successor of the last originating edge whose successor starts where
edge `i` starts -/
theorem twinLoop_eq (h : HalfEdge) (i : Nat) (os : List Nat) (acc : Option Nat) :
    twinLoop h i os acc =
      match (os.filterMap h.next).filter (fun c => h.tails[c]? == h.tails[i]?) |>.getLast? with
      | some c => some c
      | none => acc := by
  induction os generalizing acc with
  | nil => simp [twinLoop]
  | cons o os ih =>
    simp only [twinLoop]
    rw [ih]
    cases hn : h.next o with
    | none => simp [List.filterMap_cons, hn]
    | some c =>
      simp only [List.filterMap_cons, hn]
      by_cases hc : h.tails[c]? = h.tails[i]?
      · simp only [hc, if_true]
        rw [List.filter_cons_of_pos (by simp [hc]), List.getLast?_cons]
        cases ((os.filterMap h.next).filter (fun c => h.tails[c]? == h.tails[i]?)).getLast? <;> simp
      · simp only [hc, if_false]
        rw [List.filter_cons_of_neg (by simp [hc])]

theorem dedup_mem (l : List Nat) (x : Nat) : x ∈ SearchableMesh.dedupConsecutive l ↔ x ∈ l := by
  induction l using SearchableMesh.dedupConsecutive.induct with
  | case1 => simp [SearchableMesh.dedupConsecutive]
  | case2 y => simp [SearchableMesh.dedupConsecutive]
  | case3 y r ih => simp [SearchableMesh.dedupConsecutive, ih]
  | case4 y z r hne ih => simp [SearchableMesh.dedupConsecutive, hne, ih]

theorem dedup_sorted (l : List Nat) (h : l.Pairwise (· ≤ ·)) :
    (SearchableMesh.dedupConsecutive l).Pairwise (· < ·) := by
  induction l using SearchableMesh.dedupConsecutive.induct with
  | case1 => simp [SearchableMesh.dedupConsecutive]
  | case2 y => simp [SearchableMesh.dedupConsecutive]
  | case3 y r ih =>
    simp only [SearchableMesh.dedupConsecutive, if_true]
    exact ih (List.pairwise_cons.1 h).2
  | case4 y z r hne ih =>
    simp only [SearchableMesh.dedupConsecutive, hne, if_false]
    rw [List.pairwise_cons] at h ⊢
    refine ⟨?_, ih h.2⟩
    intro w hw
    rw [dedup_mem] at hw
    have h1 := h.1 z (by simp)
    rcases List.mem_cons.1 hw with rfl | hw
    · omega
    · have := (List.pairwise_cons.1 h.2).1 w hw
      omega

end R3D.HalfEdge

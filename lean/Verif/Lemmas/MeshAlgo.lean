import Verif.Model.MeshAlgo
import Verif.Lemmas.HalfEdge
namespace R3D

/-! ### generic -/

theorem mapM_some_of {α β : Type} (g : α → Option β) (l : List α) (h : ∀ x ∈ l, ∃ y, g x = some y) :
    ∃ T : List β, l.mapM g = some T ∧ T.map some = l.map g := by
  induction l with
  | nil => exact ⟨[], rfl, rfl⟩
  | cons x l ih =>
    obtain ⟨y, hy⟩ := h x (by simp)
    obtain ⟨T, hT, hm⟩ := ih (fun z hz => h z (by simp [hz]))
    refine ⟨y :: T, ?_, ?_⟩
    · rw [List.mapM_cons, hy, hT]; rfl
    · simp [hm, hy]

theorem foldl_addVertex {P : Type} (xs : List P) (m : TMesh P) :
    xs.foldl (fun r x => (r.addVertex x).1) m = ⟨m.verts ++ xs, m.faces⟩ := by
  induction xs generalizing m with
  | nil => simp
  | cons x xs ih => rw [List.foldl_cons, ih]; simp [TMesh.addVertex]

theorem range_mapM_getElem {α : Type} (l : List α) :
    (List.range l.length).mapM (fun i => l[i]?) = some l := by
  obtain ⟨T, hT, hm⟩ := mapM_some_of (fun i => l[i]?) (List.range l.length)
    (fun x hx => ⟨l[x]'(List.mem_range.1 hx), List.getElem?_eq_getElem _⟩)
  rw [hT]
  congr 1
  have hlen : T.length = l.length := by
    have := congrArg List.length hm; simpa using this
  apply List.ext_getElem? 
  intro i
  by_cases hi : i < l.length
  · have := congrArg (fun x => x[i]?) hm
    simp only [List.getElem?_map] at this
    rw [List.getElem?_range hi] at this
    rw [List.getElem?_eq_getElem (by omega)] at this ⊢
    simpa using this
  · rw [List.getElem?_eq_none (by omega), List.getElem?_eq_none (by omega)]

/-! ### pack_dupes_indexed -/

/-- state invariant of the packing loop -/
def PackInv {T : Type} [DecidableEq T] (st : List (T × Nat) × List T × List Nat) (done : List T) : Prop :=
  (∀ x id, st.1.lookup x = some id ↔ st.2.1[id]? = some x) ∧
  (∀ x, x ∈ st.2.1 ↔ x ∈ done) ∧ st.2.1.Nodup ∧
  st.2.2.map (fun i => st.2.1[i]?) = done.map some ∧
  st.2.1.Sublist done

theorem packStep_inv {T : Type} [DecidableEq T] (st : List (T × Nat) × List T × List Nat)
    (done : List T) (x : T) (h : PackInv st done) : PackInv (packStep st x) (done ++ [x]) := by
  obtain ⟨map, packed, ids⟩ := st
  obtain ⟨h1, h2, h3, h4, h5⟩ := h
  simp only at h1 h2 h3 h4 h5
  unfold packStep
  simp only
  cases hl : map.lookup x with
  | some id =>
    have hx := (h1 x id).1 hl
    simp only
    refine ⟨h1, ?_, h3, ?_, ?_⟩
    · intro y
      have : x ∈ packed := List.mem_of_getElem? hx
      simp only [List.mem_append, List.mem_singleton, ← h2]
      constructor
      · exact Or.inl
      · rintro (h | rfl) <;> assumption
    · simp [h4, hx]
    · exact h5.trans (List.sublist_append_left _ _)
  | none =>
    have hx : x ∉ packed := by
      intro hx
      obtain ⟨i, hi⟩ := List.getElem?_of_mem hx
      rw [(h1 x i).2 hi] at hl; cases hl
    simp only
    refine ⟨?_, ?_, ?_, ?_, ?_⟩
    · intro y id
      simp only [List.lookup_cons]
      by_cases hy : y = x
      · subst hy
        simp only [beq_self_eq_true]
        constructor
        · intro h; have := Option.some.inj h; subst this; simp
        · intro h
          rw [List.getElem?_append] at h
          split at h
          · exact absurd (List.mem_of_getElem? h) hx
          · rename_i hge
            have : id - packed.length = 0 := by
              rcases Nat.eq_zero_or_pos (id - packed.length) with h0 | hne
              · exact h0
              exfalso
              rw [List.getElem?_eq_none (by simp; omega)] at h; cases h
            congr 1; omega
      · have : (y == x) = false := by simpa using hy
        simp only [this]
        rw [h1, List.getElem?_append]
        split
        · rfl
        · rename_i hge
          rw [List.getElem?_eq_none (by omega)]
          constructor
          · intro h; cases h
          · intro h
            rw [List.getElem?_singleton] at h
            split at h
            · have := Option.some.inj h; exact absurd this.symm hy
            · cases h
    · intro y; simp [h2]
    · simp only [List.nodup_append]
      refine ⟨h3, by simp, ?_⟩
      intro a ha b hb; simp at hb; subst hb
      intro heq; subst heq; exact hx ha
    · simp only [List.map_append, List.map_cons, List.map_nil, List.getElem?_concat_length]
      congr 1
      rw [← h4]
      apply List.map_congr_left
      intro i hi
      have : ∃ y, packed[i]? = some y := by
        have hm : packed[i]? ∈ ids.map (fun i => packed[i]?) := List.mem_map.2 ⟨i, hi, rfl⟩
        rw [h4] at hm
        obtain ⟨y, _, hy⟩ := List.mem_map.1 hm
        exact ⟨y, hy.symm⟩
      obtain ⟨y, hy⟩ := this
      have hlt : i < packed.length := (List.getElem?_eq_some_iff.1 hy).1
      rw [List.getElem?_append_left hlt]
    · exact List.Sublist.append h5 (List.Sublist.refl _)

theorem pack_foldl_inv {T : Type} [DecidableEq T] (xs : List T)
    (st : List (T × Nat) × List T × List Nat) (done : List T) (h : PackInv st done) :
    PackInv (xs.foldl packStep st) (done ++ xs) := by
  induction xs generalizing st done with
  | nil => simpa using h
  | cons x xs ih =>
    have := ih _ _ (packStep_inv st done x h)
    simpa using this

theorem pack_inv {T : Type} [DecidableEq T] (xs : List T) :
    PackInv (xs.foldl packStep ([], [], [])) xs := by
  have := pack_foldl_inv xs ([], [], []) [] ⟨by simp, by simp, by simp, by simp, by simp⟩
  simpa using this

/-! ### heal_mesh -/
namespace TMesh
variable {P : Type}

theorem faceVertices_some (m : TMesh P) (hwf : m.WellFormed) (i : Nat) (hi : i < m.numFaces) :
    ∃ t, m.faceVertices i = some t ∧
      m.verts[(m.faces[i]'hi).a]? = some t.1 ∧ m.verts[(m.faces[i]'hi).b]? = some t.2.1 ∧
      m.verts[(m.faces[i]'hi).c]? = some t.2.2 := by
  have hw := hwf (m.faces[i]'hi) (List.getElem_mem hi)
  refine ⟨(m.verts[(m.faces[i]'hi).a]'hw.1, m.verts[(m.faces[i]'hi).b]'hw.2.1,
    m.verts[(m.faces[i]'hi).c]'hw.2.2.1), ?_, ?_, ?_, ?_⟩
  · unfold faceVertices faceVertexIds vertex
    rw [List.getElem?_eq_getElem hi]
    simp only [Option.bind_eq_bind, Option.bind_some]
    rw [List.getElem?_eq_getElem hw.1, List.getElem?_eq_getElem hw.2.1,
      List.getElem?_eq_getElem hw.2.2.1]
    rfl
  · exact List.getElem?_eq_getElem _
  · exact List.getElem?_eq_getElem _
  · exact List.getElem?_eq_getElem _

/-- corner positions through a vertex list -/
def posOf (vs : List P) (f : Face3) : Option P × Option P × Option P :=
  (vs[f.a]?, vs[f.b]?, vs[f.c]?)

theorem healLoop_spec [DecidableEq P] (T : List (P × P × P)) (packed : List P) (ids : List Nat)
    (hnd : packed.Nodup)
    (hids : ids.map (fun i => packed[i]?) = (T.flatMap fun t => [t.1, t.2.1, t.2.2]).map some)
    (fs : List Nat) (hfs : ∀ f ∈ fs, f < T.length) (faces : List Face3) :
    ∃ out, healLoop ids fs ⟨packed, faces⟩ = some (.ok ⟨packed, faces ++ out⟩) ∧
      out.map (posOf packed) = ((fs.filterMap fun f => T[f]?).filter
        (fun t => decide (t.1 ≠ t.2.1 ∧ t.1 ≠ t.2.2 ∧ t.2.1 ≠ t.2.2))).map
          (fun t => (some t.1, some t.2.1, some t.2.2)) ∧
      (∀ f ∈ out, f.a < packed.length ∧ f.b < packed.length ∧ f.c < packed.length ∧
        f.a ≠ f.b ∧ f.a ≠ f.c ∧ f.b ≠ f.c) := by
  induction fs generalizing faces with
  | nil => exact ⟨[], by simp [healLoop], by simp, by simp⟩
  | cons f fs ih =>
    have hf := hfs f (by simp)
    have hT : T[f]? = some (T[f]'hf) := List.getElem?_eq_getElem hf
    generalize T[f]'hf = t at hT
    -- the three indices
    have hflat : ∀ k, k < 3 → (T.flatMap fun t => [t.1, t.2.1, t.2.2])[3 * f + k]? =
        some (match k with | 0 => t.1 | 1 => t.2.1 | _ => t.2.2) := by
      clear hids ih hfs
      induction T generalizing f with
      | nil => simp at hf
      | cons u T ihT =>
        intro k hk
        cases f with
        | zero =>
          simp at hT; subst hT
          have : k = 0 ∨ k = 1 ∨ k = 2 := by omega
          rcases this with rfl | rfl | rfl <;> simp
        | succ f =>
          have := ihT f (by simpa using hf) (by simpa using hT) k hk
          have e : 3 * (f + 1) + k = (3 * f + k) + 1 + 1 + 1 := by omega
          rw [e]; simpa using this
    have hget : ∀ k, k < 3 → ∃ i, ids[3 * f + k]? = some i ∧
        packed[i]? = some (match k with | 0 => t.1 | 1 => t.2.1 | _ => t.2.2) := by
      intro k hk
      have := congrArg (fun l => l[3 * f + k]?) hids
      simp only [List.getElem?_map, hflat k hk, Option.map_some] at this
      cases hi : ids[3 * f + k]? with
      | none => simp [hi] at this
      | some i => exact ⟨i, rfl, by simpa [hi] using this⟩
    obtain ⟨a, ha, hpa⟩ := hget 0 (by omega)
    obtain ⟨b, hb, hpb⟩ := hget 1 (by omega)
    obtain ⟨c, hc, hpc⟩ := hget 2 (by omega)
    simp only at hpa hpb hpc
    have hinj : ∀ (i j : Nat) (p q : P), packed[i]? = some p → packed[j]? = some q → (i = j ↔ p = q) := by
      intro i j p q hp hq
      constructor
      · rintro rfl; rw [hp] at hq; exact Option.some.inj hq
      · rintro rfl
        obtain ⟨h1, h2⟩ := List.getElem?_eq_some_iff.1 hp
        obtain ⟨h3, h4⟩ := List.getElem?_eq_some_iff.1 hq
        exact (List.getElem?_inj h1 hnd).1 (hp.trans hq.symm)
    have la := (List.getElem?_eq_some_iff.1 hpa).1
    have lb := (List.getElem?_eq_some_iff.1 hpb).1
    have lc := (List.getElem?_eq_some_iff.1 hpc).1
    have hab := hinj a b _ _ hpa hpb
    have hac := hinj a c _ _ hpa hpc
    have hbc := hinj b c _ _ hpb hpc
    simp only [healLoop, ha, hb, hc, Option.bind_eq_bind, Option.bind_some, List.filterMap_cons, hT]
    by_cases hdeg : a = b ∨ a = c ∨ b = c
    · rw [if_pos hdeg]
      obtain ⟨out, h1, h2, h3⟩ := ih (fun g hg => hfs g (by simp [hg])) faces
      refine ⟨out, h1, ?_, h3⟩
      rw [h2, List.filter_cons_of_neg]
      rw [hab, hac, hbc] at hdeg
      simp only [decide_eq_true_eq]
      rintro ⟨k1, k2, k3⟩
      rcases hdeg with h | h | h <;> contradiction
    · rw [if_neg hdeg]
      have htry : (⟨packed, faces⟩ : TMesh P).tryAddConnection a b c =
          (⟨packed, faces ++ [⟨a, b, c⟩]⟩, .ok faces.length) := by
        unfold tryAddConnection
        rw [if_neg (by simp only; omega), if_neg hdeg]
      rw [htry]
      simp only
      obtain ⟨out, h1, h2, h3⟩ := ih (fun g hg => hfs g (by simp [hg])) (faces ++ [⟨a, b, c⟩])
      refine ⟨⟨a, b, c⟩ :: out, ?_, ?_, ?_⟩
      · rw [h1]; simp
      · rw [List.filter_cons_of_pos]
        · simp only [List.map_cons, h2, posOf, hpa, hpb, hpc]
        · rw [hab, hac, hbc] at hdeg
          simp only [decide_eq_true_eq]
          refine ⟨fun h => hdeg (Or.inl h), fun h => hdeg (Or.inr (Or.inl h)), fun h => hdeg (Or.inr (Or.inr h))⟩
      · intro g hg
        rcases List.mem_cons.1 hg with rfl | hg
        · refine ⟨la, lb, lc, fun h => hdeg (Or.inl h), fun h => hdeg (Or.inr (Or.inl h)), fun h => hdeg (Or.inr (Or.inr h))⟩
        · exact h3 g hg

theorem filterMap_range_getElem {α : Type} (T : List α) :
    (List.range T.length).filterMap (fun f => T[f]?) = T := by
  have h := range_mapM_getElem T
  obtain ⟨T', hT', hm⟩ := mapM_some_of (fun i => T[i]?) (List.range T.length)
    (fun x hx => ⟨T[x]'(List.mem_range.1 hx), List.getElem?_eq_getElem _⟩)
  rw [h] at hT'
  have := Option.some.inj hT'
  subst this
  have : (List.range T.length).filterMap (fun f => T[f]?) =
      ((List.range T.length).map (fun f => T[f]?)).filterMap id := by
    rw [List.filterMap_map]; rfl
  rw [this, ← hm, List.filterMap_map]
  simp

end TMesh
end R3D

import Verif.Props.Unify
/-
`unify_faces` run on its own result: both runs walk through the faces in the same order.
-/
namespace R3D.TMesh
variable {P : Type}

/-- exchange the last two corners of a triangle -/
def turn (b : Bool) (t : P × P × P) : P × P × P := if b then (t.1, t.2.2, t.2.1) else t

/-- after the second triangle was turned against the first one the two are no longer opposed -/
def TurnsWell (opp : P × P × P → P × P × P → Bool) (s t : P × P × P) : Prop :=
  ∀ a, opp (turn a s) (turn (Bool.xor a (opp s t)) t) = false

theorem vecSet_some {α : Type} {l l' : List α} {i : Nat} {x : α} (h : vecSet l i x = some l') :
    i < l.length ∧ l' = l.set i x := by
  unfold vecSet at h
  split at h
  · exact ⟨by assumption, (Option.some.inj h).symm⟩
  · cases h

theorem un_mono {opp : P × P × P → P × P × P → Bool} {m : TMesh P} {this : Nat} {t : P × P × P} :
    ∀ {ns : List Nat} {s s1 : UnifyState}, unifyNeighbours opp m this t ns s = some s1 →
      (∀ i : Nat, s.checked[i]? = some true → s1.checked[i]? = some true ∧ s1.mustFlip[i]? = s.mustFlip[i]?) ∧
      ((∀ i ∈ s.frontier, s.checked[i]? = some true) → ∀ i ∈ s1.frontier, s1.checked[i]? = some true)
  | [], s, s1, h => by
    cases h; exact ⟨fun i hi => ⟨hi, rfl⟩, fun h => h⟩
  | n :: ns, s, s1, h => by
    unfold unifyNeighbours at h
    simp only [Option.bind_eq_bind, Option.bind_eq_some_iff] at h
    obtain ⟨c, hc, h⟩ := h
    split at h
    · exact un_mono h
    · next hcf =>
      simp only [Option.bind_eq_some_iff] at h
      obtain ⟨tn, htn, fl, hfl, mf, hmf, ch, hch, h⟩ := h
      obtain ⟨l1, rfl⟩ := vecSet_some hmf
      obtain ⟨l2, rfl⟩ := vecSet_some hch
      obtain ⟨k1, k2⟩ := un_mono h
      have hne : ∀ i : Nat, s.checked[i]? = some true → n ≠ i := by
        rintro i hi rfl
        rw [hc] at hi; exact hcf (Option.some.inj hi)
      refine ⟨fun i hi => ?_, fun hf => k2 ?_⟩
      · have := k1 i (by simp only [List.getElem?_set_ne (hne i hi)]; exact hi)
        refine ⟨this.1, this.2.trans ?_⟩
        simp only [List.getElem?_set_ne (hne i hi)]
      · intro i hi
        rcases List.mem_cons.1 hi with rfl | hi
        · simp [l2]
        · simp only [List.getElem?_set_ne (hne i (hf i hi))]; exact hf i hi

theorem ud_mono {opp : P × P × P → P × P × P → Bool} {m : TMesh P} {vtf : List (List Nat)} :
    ∀ {fuel : Nat} {s s1 : UnifyState}, unifyDrain opp m vtf fuel s = some (.ok s1) →
      (∀ i ∈ s.frontier, s.checked[i]? = some true) →
      (∀ i : Nat, s.checked[i]? = some true → s1.checked[i]? = some true ∧ s1.mustFlip[i]? = s.mustFlip[i]?) ∧
      s1.frontier = []
  | 0, s, s1, h, hf => by
    unfold unifyDrain at h
    split at h
    · next he => cases h; exact ⟨fun i hi => ⟨hi, rfl⟩, by simpa using he⟩
    · cases h
  | fuel + 1, s, s1, h, hf => by
    unfold unifyDrain at h
    split at h
    · next he => cases h; exact ⟨fun i hi => ⟨hi, rfl⟩, he⟩
    · next this rest he =>
      simp only [Option.bind_eq_bind, Option.bind_eq_some_iff] at h
      obtain ⟨c, hc, h⟩ := h
      cases c with
      | error e => cases h
      | ok ns =>
        simp only [Option.bind_eq_some_iff] at h
        obtain ⟨t, ht, s2, hs2, h⟩ := h
        obtain ⟨a1, a2⟩ := un_mono hs2
        obtain ⟨b1, b2⟩ := ud_mono h (a2 (fun i hi => hf i (by rw [he]; exact List.mem_cons_of_mem _ hi)))
        refine ⟨fun i hi => ?_, b2⟩
        have p := a1 i hi
        have q := b1 i p.1
        exact ⟨q.1, q.2.trans p.2⟩

theorem us_mono {opp : P × P × P → P × P × P → Bool} {m : TMesh P} {vtf : List (List Nat)} :
    ∀ {is : List Nat} {s s1 : UnifyState}, unifyScan opp m vtf is s = some (.ok s1) → s.frontier = [] →
      (∀ i : Nat, s.checked[i]? = some true → s1.checked[i]? = some true ∧ s1.mustFlip[i]? = s.mustFlip[i]?)
  | [], s, s1, h, _ => by cases h; exact fun i hi => ⟨hi, rfl⟩
  | n :: is, s, s1, h, hf => by
    unfold unifyScan at h
    simp only [Option.bind_eq_bind, Option.bind_eq_some_iff] at h
    obtain ⟨c, hc, h⟩ := h
    split at h
    · exact us_mono h hf
    · next hcf =>
      simp only [Option.bind_eq_some_iff] at h
      obtain ⟨ch, hch, d, hd, h⟩ := h
      obtain ⟨l2, rfl⟩ := vecSet_some hch
      cases d with
      | error e => cases h
      | ok s2 =>
        have hfr : ∀ i ∈ n :: s.frontier, (s.checked.set n true)[i]? = some true := by
          intro i hi
          rw [hf] at hi
          rw [List.mem_singleton.1 hi]
          simp [l2]
        obtain ⟨a1, a2⟩ := ud_mono hd hfr
        have b := us_mono h a2
        intro i hi
        have p := a1 i (by
          by_cases hn : n = i
          · subst hn; simp [l2]
          · simp only [List.getElem?_set_ne hn]; exact hi)
        have q := b i p.1
        exact ⟨q.1, q.2.trans p.2⟩

/-- the state of the second run -/
def still (s : UnifyState) : UnifyState := ⟨s.checked, List.replicate s.mustFlip.length false, s.frontier⟩

theorem un_still {opp : P × P × P → P × P × P → Bool} {m r : TMesh P} {mf : List Bool}
    (hr : ∀ (i : Nat) tri b, m.faceVertices i = some tri → mf[i]? = some b → r.faceVertices i = some (turn b tri))
    (hw : ∀ (f g : Nat) s t, m.faceVertices f = some s → m.faceVertices g = some t → TurnsWell opp s t)
    {this : Nat} {t : P × P × P} {b0 : Bool} (ht : m.faceVertices this = some t) (hb0 : mf[this]? = some b0) :
    ∀ {ns : List Nat} {s s1 : UnifyState}, unifyNeighbours opp m this t ns s = some s1 →
      s.checked[this]? = some true → (∀ i : Nat, s1.checked[i]? = some true → mf[i]? = s1.mustFlip[i]?) →
      unifyNeighbours opp r this (turn b0 t) ns (still s) = some (still s1)
  | [], s, s1, h, _, _ => by cases h; rfl
  | n :: ns, s, s1, h, hch0, hm => by
    unfold unifyNeighbours at h
    simp only [Option.bind_eq_bind, Option.bind_eq_some_iff] at h
    obtain ⟨c, hc, h⟩ := h
    unfold unifyNeighbours
    have hc' : (still s).checked[n]? = some c := hc
    simp only [Option.bind_eq_bind, hc', Option.bind_some]
    split at h
    · next hcc => rw [if_pos hcc]; exact un_still hr hw ht hb0 h hch0 hm
    · next hcf =>
      rw [if_neg hcf]
      simp only [Option.bind_eq_some_iff] at h
      obtain ⟨tn, htn, fl, hfl, mf1, hmf, ch, hch, h⟩ := h
      obtain ⟨l1, rfl⟩ := vecSet_some hmf
      obtain ⟨l2, rfl⟩ := vecSet_some hch
      have hne : n ≠ this := by
        rintro rfl
        rw [hc] at hch0; exact hcf (Option.some.inj hch0)
      have hthis : (s.checked.set n true)[this]? = some true := by
        rw [List.getElem?_set_ne hne]; exact hch0
      obtain ⟨k1, -⟩ := un_mono h
      have e0 : mf[this]? = some fl := by
        have k := k1 this hthis
        rw [hm this k.1, k.2]
        simp only [List.getElem?_set_ne hne]; exact hfl
      have e0' : fl = b0 := by rw [hb0] at e0; exact (Option.some.inj e0).symm
      subst e0'
      have e1 : mf[n]? = some (Bool.xor fl (opp t tn)) := by
        have := k1 n (by simp [l2])
        rw [hm n this.1, this.2]
        simp only [List.getElem?_set_self l1]
        cases fl <;> cases opp t tn <;> rfl
      have hth : (still s).mustFlip[this]? = some false := by
        have : this < s.mustFlip.length := (List.getElem?_eq_some_iff.1 hfl).1
        simp [still, this]
      have hlen : (still s).mustFlip.length = s.mustFlip.length := by simp [still]
      have hset : (List.replicate s.mustFlip.length false).set n false = List.replicate s.mustFlip.length false := by
        apply List.ext_getElem (by simp)
        intro i h1 h2
        rw [List.getElem_set]; split <;> simp
      have v1 : vecSet (still s).mustFlip n false = some (List.replicate s.mustFlip.length false) := by
        unfold vecSet
        rw [if_pos (by rw [hlen]; exact l1)]
        exact congrArg some hset
      have v2 : vecSet (still s).checked n true = some (s.checked.set n true) := by
        unfold vecSet
        exact if_pos l2
      rw [hr n tn _ htn e1]
      simp only [Option.bind_some, hw this n t tn ht htn fl, hth, Bool.false_eq_true, if_false, v1, v2]
      have := un_still hr hw ht hb0 h hthis hm
      simpa [still] using this

theorem ud_still {opp : P × P × P → P × P × P → Bool} {m r : TMesh P} {vtf : List (List Nat)} {mf : List Bool}
    (hr : ∀ (i : Nat) tri b, m.faceVertices i = some tri → mf[i]? = some b → r.faceVertices i = some (turn b tri))
    (hw : ∀ (f g : Nat) s t, m.faceVertices f = some s → m.faceVertices g = some t → TurnsWell opp s t)
    (hn : ∀ i, collectNeighbourFaces r vtf i = collectNeighbourFaces m vtf i)
    (hmf : ∀ (i : Nat) tri, m.faceVertices i = some tri → ∃ b, mf[i]? = some b) :
    ∀ {fuel : Nat} {s s1 : UnifyState}, unifyDrain opp m vtf fuel s = some (.ok s1) →
      (∀ i ∈ s.frontier, s.checked[i]? = some true) →
      (∀ i : Nat, s1.checked[i]? = some true → mf[i]? = s1.mustFlip[i]?) →
      unifyDrain opp r vtf fuel (still s) = some (.ok (still s1))
  | 0, s, s1, h, hf, hm => by
    unfold unifyDrain at h
    split at h
    · next he =>
      cases h
      unfold unifyDrain
      exact if_pos he
    · cases h
  | fuel + 1, s, s1, h, hf, hm => by
    unfold unifyDrain at h
    unfold unifyDrain
    split at h
    · next he =>
      cases h
      have : (still s).frontier = [] := he
      rw [this]
    · next this rest he =>
      have he' : (still s).frontier = this :: rest := he
      rw [he']
      simp only [Option.bind_eq_bind, Option.bind_eq_some_iff] at h
      obtain ⟨c, hc, h⟩ := h
      cases c with
      | error e => cases h
      | ok ns =>
        simp only [Option.bind_eq_some_iff] at h
        obtain ⟨t, ht, s2, hs2, h⟩ := h
        obtain ⟨a1, a2⟩ := un_mono hs2
        have hrest : ∀ i ∈ rest, s.checked[i]? = some true := fun i hi => hf i (by rw [he]; exact List.mem_cons_of_mem _ hi)
        obtain ⟨b1, -⟩ := ud_mono h (a2 hrest)
        obtain ⟨b, hb⟩ := hmf this t ht
        have u := un_still hr hw ht hb hs2 (hf this (by rw [he]; exact List.mem_cons_self)) (fun i hi => by
          have := b1 i hi
          rw [hm i this.1, this.2])
        have d := ud_still hr hw hn hmf h (a2 hrest) hm
        simp only [Option.bind_eq_bind, hn, hc, Option.bind_some, hr this t b ht hb]
        have e : ({ still s with frontier := rest } : UnifyState) = still { s with frontier := rest } := rfl
        rw [e, u]
        exact d

theorem us_still {opp : P × P × P → P × P × P → Bool} {m r : TMesh P} {vtf : List (List Nat)} {mf : List Bool}
    (hr : ∀ (i : Nat) tri b, m.faceVertices i = some tri → mf[i]? = some b → r.faceVertices i = some (turn b tri))
    (hw : ∀ (f g : Nat) s t, m.faceVertices f = some s → m.faceVertices g = some t → TurnsWell opp s t)
    (hn : ∀ i, collectNeighbourFaces r vtf i = collectNeighbourFaces m vtf i)
    (hmf : ∀ (i : Nat) tri, m.faceVertices i = some tri → ∃ b, mf[i]? = some b) (hnum : r.numFaces = m.numFaces) :
    ∀ {is : List Nat} {s s1 : UnifyState}, unifyScan opp m vtf is s = some (.ok s1) → s.frontier = [] →
      (∀ i : Nat, s1.checked[i]? = some true → mf[i]? = s1.mustFlip[i]?) →
      unifyScan opp r vtf is (still s) = some (.ok (still s1))
  | [], s, s1, h, _, _ => by cases h; rfl
  | n :: is, s, s1, h, hf, hm => by
    unfold unifyScan at h
    unfold unifyScan
    simp only [Option.bind_eq_bind, Option.bind_eq_some_iff] at h
    obtain ⟨c, hc, h⟩ := h
    have hc' : (still s).checked[n]? = some c := hc
    simp only [Option.bind_eq_bind, hc', Option.bind_some]
    split at h
    · next hcc => rw [if_pos hcc]; exact us_still hr hw hn hmf hnum h hf hm
    · next hcf =>
      rw [if_neg hcf]
      simp only [Option.bind_eq_some_iff] at h
      obtain ⟨ch, hch, d, hd, h⟩ := h
      obtain ⟨l2, rfl⟩ := vecSet_some hch
      cases d with
      | error e => cases h
      | ok s2 =>
        have hfr : ∀ i ∈ n :: s.frontier, (s.checked.set n true)[i]? = some true := by
          intro i hi
          rw [hf] at hi
          rw [List.mem_singleton.1 hi]
          simp [l2]
        obtain ⟨a1, a2⟩ := ud_mono hd hfr
        have b := us_mono h a2
        have u := ud_still hr hw hn hmf hd hfr (fun i hi => by
          have := b i hi
          rw [hm i this.1, this.2])
        have v := us_still hr hw hn hmf hnum h a2 hm
        have v2 : vecSet (still s).checked n true = some (s.checked.set n true) := by
          unfold vecSet
          exact if_pos l2
        rw [v2]
        simp only [Option.bind_some, hnum]
        have e : ({ still s with checked := s.checked.set n true, frontier := n :: (still s).frontier } : UnifyState)
          = still { s with checked := s.checked.set n true, frontier := n :: s.frontier } := rfl
        rw [e, u]
        exact v

theorem vtfInsert_comm (vtf : List (List Nat)) (v w i : Nat) :
    ((vtfInsert vtf v i).bind fun x => vtfInsert x w i) = (vtfInsert vtf w i).bind fun x => vtfInsert x v i := by
  unfold vtfInsert
  by_cases hvw : v = w
  · subst hvw; rfl
  · cases hv : vtf[v]? with
    | none =>
      cases hw : vtf[w]? with
      | none => rfl
      | some s => simp [List.getElem?_set_ne (Ne.symm hvw), hv]
    | some s =>
      cases hw : vtf[w]? with
      | none => simp [List.getElem?_set_ne hvw, hw]
      | some u =>
        simp only [Option.bind_eq_bind, Option.bind_some, Option.pure_def, List.getElem?_set_ne hvw,
          List.getElem?_set_ne (Ne.symm hvw), hv, hw]
        rw [List.set_comm _ _ hvw]

theorem foldlM_congr' {α β : Type} {f g : β → α → Option β} : ∀ (l : List α), (∀ x ∈ l, ∀ b, f b x = g b x) →
    ∀ b, l.foldlM f b = l.foldlM g b
  | [], _, b => rfl
  | x :: l, h, b => by
    rw [List.foldlM_cons, List.foldlM_cons, h x List.mem_cons_self]
    congr 1
    funext c
    exact foldlM_congr' l (fun y hy => h y (List.mem_cons_of_mem _ hy)) c

/-- `r` is `m` with some faces turned -/
structure Turned (m r : TMesh P) (mf : List Bool) : Prop where
  verts : r.verts = m.verts
  num : r.numFaces = m.numFaces
  len : mf.length = m.numFaces
  face : ∀ (i : Nat) f b, m.faces[i]? = some f → mf[i]? = some b → r.faces[i]? = some (orient b f)

theorem Turned.get {m r : TMesh P} {mf : List Bool} (h : Turned m r mf) (i : Nat) :
    (m.faces[i]? = none ∧ r.faces[i]? = none) ∨
      ∃ f b, m.faces[i]? = some f ∧ mf[i]? = some b ∧ r.faces[i]? = some (orient b f) := by
  rcases Nat.lt_or_ge i m.faces.length with hi | hi
  · have hb : i < mf.length := by rw [h.len]; exact hi
    exact Or.inr ⟨_, _, List.getElem?_eq_getElem hi, List.getElem?_eq_getElem hb,
      h.face i _ _ (List.getElem?_eq_getElem hi) (List.getElem?_eq_getElem hb)⟩
  · refine Or.inl ⟨List.getElem?_eq_none hi, List.getElem?_eq_none ?_⟩
    have := h.num; unfold TMesh.numFaces at this; omega

theorem Turned.vtf {m r : TMesh P} {mf : List Bool} (h : Turned m r mf) : r.vertexToFace = m.vertexToFace := by
  unfold vertexToFace
  have hv : r.numVertices = m.numVertices := by unfold TMesh.numVertices; rw [h.verts]
  rw [h.num, hv]
  apply foldlM_congr'
  intro i _ vtf
  unfold TMesh.faceVertexIds
  rcases h.get i with ⟨h1, h2⟩ | ⟨f, b, h1, -, h2⟩
  · rw [h1, h2]
  · rw [h1, h2]
    cases b with
    | false => rfl
    | true =>
      simp only [orient, if_true, Option.bind_eq_bind, Option.bind_some]
      congr 1
      funext x
      exact vtfInsert_comm x f.c f.b i

theorem Turned.tri {m r : TMesh P} {mf : List Bool} (h : Turned m r mf) (i : Nat) (tri : P × P × P) (b : Bool)
    (ht : m.faceVertices i = some tri) (hb : mf[i]? = some b) : r.faceVertices i = some (turn b tri) := by
  unfold TMesh.faceVertices TMesh.faceVertexIds TMesh.vertex at ht ⊢
  simp only [Option.bind_eq_bind, Option.bind_eq_some_iff] at ht
  obtain ⟨f, hf, p, hp, q, hq, s, hs, e⟩ := ht
  have e := Option.some.inj e
  subst e
  rw [h.face i f b hf hb, h.verts]
  cases b <;> simp [orient, turn, hp, hq, hs]

theorem sort_congr {l l' : List Nat} (h : l.Perm l') :
    stableSort (fun a b => decide (a ≤ b)) l = stableSort (fun a b => decide (a ≤ b)) l' := by
  have srt : ∀ l : List Nat, (stableSort (fun a b => decide (a ≤ b)) l).Pairwise (· ≤ ·) := by
    intro l
    have := stableSort_sorted (le := fun a b : Nat => decide (a ≤ b)) (fun a b c h1 h2 => by
      simp only [decide_eq_true_eq] at *; omega) (fun a b => by
      simp only [decide_eq_true_eq]; omega) l
    simpa using this
  exact ((stableSort_perm l).trans (h.trans (stableSort_perm l').symm)).eq_of_pairwise
    (fun a b _ _ h1 h2 => Nat.le_antisymm h1 h2) (srt l) (srt l')

theorem Turned.neighbours {m r : TMesh P} {mf : List Bool} (h : Turned m r mf) (vtf : List (List Nat)) (i : Nat) :
    collectNeighbourFaces r vtf i = collectNeighbourFaces m vtf i := by
  unfold collectNeighbourFaces TMesh.faceVertexIds
  rcases h.get i with ⟨h1, h2⟩ | ⟨f, b, h1, -, h2⟩
  · rw [h1, h2]
  · rw [h1, h2]
    cases b with
    | false => rfl
    | true =>
      simp only [orient, if_true]
      cases vtf[f.a]? with
      | none => rfl
      | some na =>
        cases vtf[f.b]? with
        | none => cases vtf[f.c]? <;> rfl
        | some nb =>
          cases vtf[f.c]? with
          | none => rfl
          | some nc =>
            simp only [Option.bind_eq_bind, Option.bind_some]
            rw [sort_congr (l := na ++ nc ++ nb) (l' := na ++ nb ++ nc) (by
              rw [List.append_assoc, List.append_assoc]
              exact List.Perm.append_left _ List.perm_append_comm)]

theorem Turned.wf {m r : TMesh P} {mf : List Bool} (h : Turned m r mf) (hwf : m.WellFormed) : r.WellFormed := by
  intro g hg
  obtain ⟨i, hi⟩ := List.getElem?_of_mem hg
  rcases h.get i with ⟨h1, h2⟩ | ⟨f, b, h1, -, h2⟩
  · rw [h2] at hi; cases hi
  · rw [h2] at hi
    have e := Option.some.inj hi
    have := hwf f (List.mem_of_getElem? h1)
    rw [← e, h.verts]
    cases b <;> simp only [orient, if_true, Bool.false_eq_true, if_false] <;> omega

theorem unifyFaces_twice {opp : P × P × P → P × P × P → Bool} {m : TMesh P} (hwf : m.WellFormed)
    (hw : ∀ (f g : Nat) s t, m.faceVertices f = some s → m.faceVertices g = some t → TurnsWell opp s t)
    {r : TMesh P} (hrun : unifyFaces opp m = some (.ok r)) : unifyFaces opp r = some (.ok r) := by
  obtain ⟨vtf, hv1, hv2, hv3⟩ := vertexToFace_spec m hwf
  obtain ⟨s, ord, h1, h2, h3⟩ := unifyScan_spec opp m hwf vtf hv2 hv3 m.numFaces 0 (by omega)
    ⟨List.replicate m.numFaces false, List.replicate m.numFaces false, []⟩ []
    ⟨by simp, by simp, by intro i; simp [List.getElem?_replicate], by simp,
      by intro i _ hi; simp [List.getElem?_replicate, hi], .nil, by simp⟩
    rfl (by intro f hf; cases hf) (by omega)
  rw [← List.range_eq_range'] at h1
  have emit : ∀ (m : TMesh P) (_ : m.WellFormed) (mf : List Bool) (_ : mf.length = m.numFaces),
      unifyEmit m mf (List.range m.numFaces) ⟨m.verts, []⟩ =
        some ⟨m.verts, List.zipWith (fun f b => orient b f) m.faces mf⟩ := by
    intro m hwf mf hl
    refine (unifyEmit_spec m hwf mf hl (List.range m.numFaces) (fun i hi => List.mem_range.1 hi) []).trans ?_
    have hl' : (List.zipWith (fun f b => orient b f) m.faces mf).length = m.numFaces := by
      unfold TMesh.numFaces at *
      rw [List.length_zipWith]; omega
    have e := filterMap_range_getElem (List.zipWith (fun f b => orient b f) m.faces mf)
    rw [hl'] at e
    rw [List.nil_append, ← e]
    congr 3
    funext i
    rw [List.getElem?_zipWith]
    cases m.faces[i]? <;> cases mf[i]? <;> rfl
  have vs : ∀ m : TMesh P, (List.range m.numVertices).mapM m.vertex = some m.verts := fun m => range_mapM_getElem m.verts
  have er : r = ⟨m.verts, List.zipWith (fun f b => orient b f) m.faces s.mustFlip⟩ := by
    unfold unifyFaces at hrun
    simp only [hv1, h1, vs, Option.bind_eq_bind, Option.bind_some, foldl_addVertex, TMesh.empty,
      List.nil_append, emit m hwf _ h2.len2] at hrun
    cases hrun; rfl
  have ht : Turned m r s.mustFlip := by
    subst er
    refine ⟨rfl, ?_, h2.len2, ?_⟩
    · have := h2.len2
      unfold TMesh.numFaces at *
      simp only [List.length_zipWith]; omega
    · intro i f b hf hb
      simp only [List.getElem?_zipWith, hf, hb]
  have h1' : unifyScan opp r vtf (List.range r.numFaces)
      ⟨List.replicate r.numFaces false, List.replicate r.numFaces false, []⟩ = some (.ok (still s)) := by
    have := us_still (r := r) (mf := s.mustFlip) (fun i tri b => ht.tri i tri b) hw (fun i => ht.neighbours vtf i)
      (fun i tri htri => by
        have hi : i < m.numFaces := by
          unfold TMesh.faceVertices TMesh.faceVertexIds at htri
          simp only [Option.bind_eq_bind, Option.bind_eq_some_iff] at htri
          obtain ⟨f, hf, -⟩ := htri
          exact (List.getElem?_eq_some_iff.1 hf).1
        exact ⟨_, List.getElem?_eq_getElem (by rw [ht.len]; exact hi)⟩) ht.num h1 rfl (fun i _ => rfl)
    rw [ht.num]
    simpa [still] using this
  unfold unifyFaces
  have hl : (still s).mustFlip.length = r.numFaces := by
    rw [ht.num]; simp [still, h2.len2]
  simp only [ht.vtf, hv1, h1', vs, Option.bind_eq_bind, Option.bind_some, foldl_addVertex, TMesh.empty,
    List.nil_append, emit r (ht.wf hwf) _ hl]
  have : List.zipWith (fun f b => orient b f) r.faces (still s).mustFlip = r.faces := by
    apply List.ext_getElem?
    intro i
    rw [List.getElem?_zipWith]
    cases hf : r.faces[i]? with
    | none => rfl
    | some f =>
      have hi : i < s.mustFlip.length := by
        rw [ht.len, ← ht.num]; exact (List.getElem?_eq_some_iff.1 hf).1
      simp [still, hi, orient]
  rw [this]
  rfl

end R3D.TMesh

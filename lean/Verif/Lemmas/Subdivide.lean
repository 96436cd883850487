import Verif.Lemmas.MeshAlgo
namespace R3D.TMesh
variable {P : Type}

/-- `{i, j}` is an edge of some face (in either direction) -/
def UEdge (m : TMesh P) (i j : Nat) : Prop :=
  ∃ f ∈ m.faces, (i = f.a ∧ j = f.b) ∨ (i = f.b ∧ j = f.a) ∨ (i = f.b ∧ j = f.c) ∨
    (i = f.c ∧ j = f.b) ∨ (i = f.c ∧ j = f.a) ∨ (i = f.a ∧ j = f.c)

abbrev EdgeMap := List ((Nat × Nat) × Nat)

def midOf (M : EdgeMap) (i j : Nat) : Nat := (M.lookup (min i j, max i j)).getD 0

theorem midOf_comm (M : EdgeMap) (i j : Nat) : midOf M i j = midOf M j i := by
  unfold midOf; rw [Nat.min_comm, Nat.max_comm]

structure LInv (center : P → P → P) (m : TMesh P) (st : TMesh P × EdgeMap) : Prop where
  pre : ∃ mids, st.1.verts = m.verts ++ mids
  val : ∀ k id, st.2.lookup k = some id → m.verts.length ≤ id ∧ id < st.1.verts.length ∧
    ∃ p q, m.verts[k.1]? = some p ∧ m.verts[k.2]? = some q ∧ st.1.verts[id]? = some (center p q)
  inj : ∀ k k' id, st.2.lookup k = some id → st.2.lookup k' = some id → k = k'
  surj : ∀ id, m.verts.length ≤ id → id < st.1.verts.length →
    ∃ i j, UEdge m i j ∧ st.2.lookup (min i j, max i j) = some id

theorem edgeVertex_spec (center : P → P → P) (hcomm : ∀ p q, center p q = center q p)
    (m : TMesh P) (st : TMesh P × EdgeMap) (h : LInv center m st) (i j : Nat) (p q : P)
    (hp : m.verts[i]? = some p) (hq : m.verts[j]? = some q) (he : UEdge m i j) :
    ∃ st' id, edgeVertex center st i j p q = (st', id) ∧ LInv center m st' ∧
      st'.2.lookup (min i j, max i j) = some id ∧
      (∀ k x, st.2.lookup k = some x → st'.2.lookup k = some x) ∧ st'.1.faces = st.1.faces := by
  unfold edgeVertex
  simp only
  cases hl : st.2.lookup (min i j, max i j) with
  | some id => exact ⟨st, id, rfl, h, hl, fun _ _ hx => hx, rfl⟩
  | none =>
    simp only [addVertex]
    refine ⟨_, _, rfl, ?_, by simp, ?_, rfl⟩
    · obtain ⟨mids, hmids⟩ := h.pre
      have hlen : m.verts.length ≤ st.1.verts.length := by rw [hmids]; simp
      constructor
      · exact ⟨mids ++ [center p q], by simp [hmids]⟩
      · intro k id hk
        simp only [List.lookup_cons] at hk
        by_cases hkk : k = (min i j, max i j)
        · subst hkk
          simp only [beq_self_eq_true] at hk
          have := Option.some.inj hk
          subst this
          refine ⟨hlen, by simp, ?_⟩
          rcases Nat.le_total i j with hij | hij
          · refine ⟨p, q, ?_, ?_, by simp⟩
            · simpa [Nat.min_eq_left hij] using hp
            · simpa [Nat.max_eq_right hij] using hq
          · refine ⟨q, p, ?_, ?_, by simp [hcomm p q]⟩
            · simpa [Nat.min_eq_right hij] using hq
            · simpa [Nat.max_eq_left hij] using hp
        · have hb : (k == (min i j, max i j)) = false := by simpa using hkk
          simp only [hb] at hk
          obtain ⟨h1, h2, p', q', h3, h4, h5⟩ := h.val k id hk
          refine ⟨h1, by simp; omega, p', q', h3, h4, ?_⟩
          simp only
          rw [List.getElem?_append_left h2]; exact h5
      · intro k k' id hk hk'
        simp only [List.lookup_cons] at hk hk'
        by_cases hkk : k = (min i j, max i j) <;> by_cases hkk' : k' = (min i j, max i j)
        · rw [hkk, hkk']
        · exfalso
          have hb : (k' == (min i j, max i j)) = false := by simpa using hkk'
          subst hkk
          simp only [hb, beq_self_eq_true] at hk hk'
          have := (h.val k' id hk').2.1
          have := Option.some.inj hk
          omega
        · exfalso
          have hb : (k == (min i j, max i j)) = false := by simpa using hkk
          subst hkk'
          simp only [hb, beq_self_eq_true] at hk hk'
          have := (h.val k id hk).2.1
          have := Option.some.inj hk'
          omega
        · have hb : (k == (min i j, max i j)) = false := by simpa using hkk
          have hb' : (k' == (min i j, max i j)) = false := by simpa using hkk'
          simp only [hb, hb'] at hk hk'
          exact h.inj k k' id hk hk'
      · intro id h1 h2
        simp only [List.length_append, List.length_singleton] at h2
        rcases Nat.lt_or_ge id st.1.verts.length with hlt | hge
        · obtain ⟨i', j', hu, hlk⟩ := h.surj id h1 hlt
          refine ⟨i', j', hu, ?_⟩
          simp only [List.lookup_cons]
          by_cases hkk : (min i' j', max i' j') = (min i j, max i j)
          · rw [hkk, hl] at hlk; cases hlk
          · have hb : ((min i' j', max i' j') == (min i j, max i j)) = false := by simpa using hkk
            simp only [hb]; exact hlk
        · refine ⟨i, j, he, ?_⟩
          simp only [List.lookup_cons, beq_self_eq_true]
          congr 1; omega
    · intro k x hx
      simp only [List.lookup_cons]
      by_cases hkk : k = (min i j, max i j)
      · rw [hkk, hl] at hx; cases hx
      · have hb : (k == (min i j, max i j)) = false := by simpa using hkk
        simp only [hb]; exact hx

/-- the four faces replacing face `f` -/
def fourFaces (mid : Nat → Nat → Nat) (f : Face3) : List Face3 :=
  [⟨f.a, mid f.a f.b, mid f.c f.a⟩, ⟨mid f.a f.b, f.b, mid f.b f.c⟩,
   ⟨mid f.a f.b, mid f.b f.c, mid f.c f.a⟩, ⟨mid f.c f.a, mid f.b f.c, f.c⟩]

theorem tryAdd_ok (m : TMesh P) (a b c : Nat) (ha : a < m.verts.length) (hb : b < m.verts.length)
    (hc : c < m.verts.length) (hab : a ≠ b) (hac : a ≠ c) (hbc : b ≠ c) :
    m.tryAddConnection a b c = (⟨m.verts, m.faces ++ [⟨a, b, c⟩]⟩, .ok m.faces.length) := by
  unfold tryAddConnection
  rw [if_neg (by omega), if_neg (by omega)]

theorem tryAdd_dup (m : TMesh P) (a b c : Nat) (ha : a < m.verts.length) (hb : b < m.verts.length)
    (hc : c < m.verts.length) (h : a = b ∨ a = c ∨ b = c) :
    m.tryAddConnection a b c = (m, .error .FaceIDsNotUnique) := by
  unfold tryAddConnection
  rw [if_neg (by omega), if_pos h]

/-- one turn of the loop up to the connections -/
theorem edges_spec (center : P → P → P) (hcomm : ∀ p q, center p q = center q p)
    (m : TMesh P) (st : TMesh P × EdgeMap) (h : LInv center m st) (f : Face3) (hf : f ∈ m.faces)
    (v1 v2 v3 : P) (h1 : m.verts[f.a]? = some v1) (h2 : m.verts[f.b]? = some v2)
    (h3 : m.verts[f.c]? = some v3) :
    ∃ s1 s2 s3 ia ib ic, edgeVertex center st f.a f.b v1 v2 = (s1, ia) ∧
      edgeVertex center s1 f.b f.c v2 v3 = (s2, ib) ∧
      edgeVertex center s2 f.c f.a v3 v1 = (s3, ic) ∧ LInv center m s3 ∧
      s3.2.lookup (min f.a f.b, max f.a f.b) = some ia ∧
      s3.2.lookup (min f.b f.c, max f.b f.c) = some ib ∧
      s3.2.lookup (min f.c f.a, max f.c f.a) = some ic ∧
      (∀ k x, st.2.lookup k = some x → s3.2.lookup k = some x) ∧ s3.1.faces = st.1.faces := by
  obtain ⟨s1, ia, e1, i1, l1, m1, f1⟩ := edgeVertex_spec center hcomm m st h f.a f.b v1 v2 h1 h2
    ⟨f, hf, by simp⟩
  obtain ⟨s2, ib, e2, i2, l2, m2, f2⟩ := edgeVertex_spec center hcomm m s1 i1 f.b f.c v2 v3 h2 h3
    ⟨f, hf, by simp⟩
  obtain ⟨s3, ic, e3, i3, l3, m3, f3⟩ := edgeVertex_spec center hcomm m s2 i2 f.c f.a v3 v1 h3 h1
    ⟨f, hf, by simp⟩
  exact ⟨s1, s2, s3, ia, ib, ic, e1, e2, e3, i3, m3 _ _ (m2 _ _ l1), m3 _ _ l2, l3,
    fun k x hx => m3 _ _ (m2 _ _ (m1 _ _ hx)), by rw [f3, f2, f1]⟩

/-- adding faces does not disturb the invariant -/
theorem LInv.withFaces {center : P → P → P} {m : TMesh P} {st : TMesh P × EdgeMap}
    (h : LInv center m st) (fs : List Face3) : LInv center m (⟨st.1.verts, fs⟩, st.2) :=
  ⟨h.pre, h.val, h.inj, h.surj⟩

theorem linearLoop_spec (center : P → P → P) (hcomm : ∀ p q, center p q = center q p)
    (m : TMesh P) (hwf : m.WellFormed) (is : List Nat) (his : ∀ i ∈ is, i < m.faces.length)
    (st : TMesh P × EdgeMap) (h : LInv center m st) :
    ∃ st' : TMesh P × EdgeMap, linearLoop center m is st = some (.ok st'.1) ∧ LInv center m st' ∧
      (∀ k x, st.2.lookup k = some x → st'.2.lookup k = some x) ∧
      st'.1.faces = st.1.faces ++ (is.filterMap fun i => m.faces[i]?).flatMap (fourFaces (midOf st'.2)) ∧
      (∀ i ∈ is, ∀ f, m.faces[i]? = some f → (∃ x, st'.2.lookup (min f.a f.b, max f.a f.b) = some x) ∧
        (∃ x, st'.2.lookup (min f.b f.c, max f.b f.c) = some x) ∧
        (∃ x, st'.2.lookup (min f.c f.a, max f.c f.a) = some x)) := by
  induction is generalizing st with
  | nil => exact ⟨st, rfl, h, fun _ _ hx => hx, by simp, by simp⟩
  | cons i is ih =>
    have hi := his i (by simp)
    obtain ⟨t, ht, t1, t2, t3⟩ := m.faceVertices_some hwf i hi
    obtain ⟨v1, v2, v3⟩ := t
    have hface : m.faces[i]? = some (m.faces[i]'hi) := List.getElem?_eq_getElem hi
    have hmemf : m.faces[i]'hi ∈ m.faces := List.getElem_mem hi
    generalize m.faces[i]'hi = f at hface hmemf t1 t2 t3
    have hw := hwf f hmemf
    obtain ⟨s1, s2, s3, ia, ib, ic, e1, e2, e3, hinv, la, lb, lc, hmono, hfaces⟩ :=
      edges_spec center hcomm m st h f hmemf v1 v2 v3 t1 t2 t3
    obtain ⟨ra1, ra2, _⟩ := hinv.val _ _ la
    obtain ⟨rb1, rb2, _⟩ := hinv.val _ _ lb
    obtain ⟨rc1, rc2, _⟩ := hinv.val _ _ lc
    have hlen : m.verts.length ≤ s3.1.verts.length := by
      obtain ⟨mids, hm⟩ := hinv.pre; rw [hm]; simp
    have hab : ia ≠ ib := by
      rintro rfl
      have := hinv.inj _ _ _ la lb
      simp only [Prod.mk.injEq] at this
      omega
    have hac : ia ≠ ic := by
      rintro rfl
      have := hinv.inj _ _ _ la lc
      simp only [Prod.mk.injEq] at this
      omega
    have hbc : ib ≠ ic := by
      rintro rfl
      have := hinv.inj _ _ _ lb lc
      simp only [Prod.mk.injEq] at this
      omega
    have c1 := tryAdd_ok s3.1 f.a ia ic (by omega) (by omega) (by omega) (by omega) (by omega) hac
    have c2 := tryAdd_ok ⟨s3.1.verts, s3.1.faces ++ [⟨f.a, ia, ic⟩]⟩ ia f.b ib (by simp only; omega)
      (by simp only; omega) (by simp only; omega) (by omega) hab (by omega)
    have c3 := tryAdd_ok ⟨s3.1.verts, s3.1.faces ++ [⟨f.a, ia, ic⟩] ++ [⟨ia, f.b, ib⟩]⟩ ia ib ic
      (by simp only; omega) (by simp only; omega) (by simp only; omega) hab hac hbc
    have c4 := tryAdd_ok ⟨s3.1.verts, s3.1.faces ++ [⟨f.a, ia, ic⟩] ++ [⟨ia, f.b, ib⟩] ++ [⟨ia, ib, ic⟩]⟩
      ic ib f.c (by simp only; omega) (by simp only; omega) (by simp only; omega)
      (fun h => hbc h.symm) (by omega) (by omega)
    obtain ⟨st', hloop, hinv', hmono', hfaces', hlk⟩ := ih (fun j hj => his j (by simp [hj]))
      (⟨s3.1.verts, s3.1.faces ++ [⟨f.a, ia, ic⟩] ++ [⟨ia, f.b, ib⟩] ++ [⟨ia, ib, ic⟩] ++ [⟨ic, ib, f.c⟩]⟩, s3.2)
      (hinv.withFaces _)
    refine ⟨st', ?_, hinv', fun k x hx => hmono' k x (hmono k x hx), ?_, ?_⟩
    · have hids : m.faceVertexIds i = some f := hface
      simp only [linearLoop, hids, ht, Option.bind_eq_bind, Option.bind_some, e1, e2, e3, c1, c2, c3, c4]
      exact hloop
    · rw [hfaces', hfaces]
      have ma : midOf st'.2 f.a f.b = ia := by unfold midOf; rw [hmono' _ _ la]; rfl
      have mb : midOf st'.2 f.b f.c = ib := by unfold midOf; rw [hmono' _ _ lb]; rfl
      have mc : midOf st'.2 f.c f.a = ic := by unfold midOf; rw [hmono' _ _ lc]; rfl
      simp [List.filterMap_cons, hface, fourFaces, ma, mb, mc]
    · intro j hj g hg
      rcases List.mem_cons.1 hj with rfl | hj
      · rw [hface] at hg
        have := Option.some.inj hg
        subst this
        exact ⟨⟨ia, hmono' _ _ la⟩, ⟨ib, hmono' _ _ lb⟩, ⟨ic, hmono' _ _ lc⟩⟩
      · exact hlk j hj g hg

/-- a degenerate face makes the loop fail -/
theorem linearLoop_degenerate (center : P → P → P) (hcomm : ∀ p q, center p q = center q p)
    (m : TMesh P)
    (hrange : ∀ f ∈ m.faces, f.a < m.verts.length ∧ f.b < m.verts.length ∧ f.c < m.verts.length)
    (is : List Nat) (his : ∀ i ∈ is, i < m.faces.length)
    (hdeg : ∃ i ∈ is, ∃ f, m.faces[i]? = some f ∧ (f.a = f.b ∨ f.a = f.c ∨ f.b = f.c))
    (st : TMesh P × EdgeMap) (h : LInv center m st) :
    linearLoop center m is st = some (.error .FaceIDsNotUnique) := by
  induction is generalizing st with
  | nil => obtain ⟨i, hi, _⟩ := hdeg; cases hi
  | cons i is ih =>
    have hi := his i (by simp)
    have hface : m.faces[i]? = some (m.faces[i]'hi) := List.getElem?_eq_getElem hi
    have hmemf : m.faces[i]'hi ∈ m.faces := List.getElem_mem hi
    generalize m.faces[i]'hi = f at hface hmemf
    have hw := hrange f hmemf
    have t1 : m.verts[f.a]? = some (m.verts[f.a]'hw.1) := List.getElem?_eq_getElem _
    have t2 : m.verts[f.b]? = some (m.verts[f.b]'hw.2.1) := List.getElem?_eq_getElem _
    have t3 : m.verts[f.c]? = some (m.verts[f.c]'hw.2.2) := List.getElem?_eq_getElem _
    generalize m.verts[f.a]'hw.1 = v1 at t1
    generalize m.verts[f.b]'hw.2.1 = v2 at t2
    generalize m.verts[f.c]'hw.2.2 = v3 at t3
    have ht : m.faceVertices i = some (v1, v2, v3) := by
      unfold faceVertices faceVertexIds vertex
      rw [hface]
      simp only [Option.bind_eq_bind, Option.bind_some, t1, t2, t3]
      rfl
    obtain ⟨s1, s2, s3, ia, ib, ic, e1, e2, e3, hinv, la, lb, lc, hmono, hfaces⟩ :=
      edges_spec center hcomm m st h f hmemf v1 v2 v3 t1 t2 t3
    obtain ⟨ra1, ra2, _⟩ := hinv.val _ _ la
    obtain ⟨rb1, rb2, _⟩ := hinv.val _ _ lb
    obtain ⟨rc1, rc2, _⟩ := hinv.val _ _ lc
    have hlen : m.verts.length ≤ s3.1.verts.length := by
      obtain ⟨mids, hm⟩ := hinv.pre; rw [hm]; simp
    have hids : m.faceVertexIds i = some f := hface
    by_cases hd : f.a = f.b ∨ f.a = f.c ∨ f.b = f.c
    · simp only [linearLoop, hids, ht, Option.bind_eq_bind, Option.bind_some, e1, e2, e3]
      -- equal ids share a midpoint
      by_cases hbc : f.b = f.c
      · have : ia = ic := by
          rw [hbc, Nat.min_comm, Nat.max_comm, lc] at la; exact (Option.some.inj la).symm
        rw [tryAdd_dup s3.1 f.a ia ic (by omega) (by omega) (by omega) (by omega)]
      · by_cases hacf : f.a = f.c
        · have hiab : ia = ib := by
            rw [hacf, Nat.min_comm, Nat.max_comm, lb] at la; exact (Option.some.inj la).symm
          have hac : ia ≠ ic := by
            rintro rfl
            have := hinv.inj _ _ _ la lc
            simp only [Prod.mk.injEq] at this
            omega
          rw [tryAdd_ok s3.1 f.a ia ic (by omega) (by omega) (by omega) (by omega) (by omega) hac]
          simp only
          have c2 := tryAdd_dup ⟨s3.1.verts, s3.1.faces ++ [⟨f.a, ia, ic⟩]⟩ ia f.b ib (by simp only; omega)
            (by simp only; omega) (by simp only; omega) (by omega)
          rw [c2]
        · have habf : f.a = f.b := by omega
          have hibc : ib = ic := by
            rw [← habf, Nat.min_comm, Nat.max_comm, lc] at lb; exact (Option.some.inj lb).symm
          have hac : ia ≠ ic := by
            rintro rfl
            have := hinv.inj _ _ _ la lc
            simp only [Prod.mk.injEq] at this
            omega
          rw [tryAdd_ok s3.1 f.a ia ic (by omega) (by omega) (by omega) (by omega) (by omega) hac]
          simp only
          have c2 := tryAdd_ok ⟨s3.1.verts, s3.1.faces ++ [⟨f.a, ia, ic⟩]⟩ ia f.b ib (by simp only; omega)
            (by simp only; omega) (by simp only; omega) (by omega) (by omega) (by omega)
          have c3 := tryAdd_dup ⟨s3.1.verts, s3.1.faces ++ [⟨f.a, ia, ic⟩] ++ [⟨ia, f.b, ib⟩]⟩ ia ib ic
            (by simp only; omega) (by simp only; omega) (by simp only; omega) (by omega)
          rw [c2]
          simp only
          rw [c3]
    · have hab : ia ≠ ib := by
        rintro rfl
        have := hinv.inj _ _ _ la lb
        simp only [Prod.mk.injEq] at this
        omega
      have hac : ia ≠ ic := by
        rintro rfl
        have := hinv.inj _ _ _ la lc
        simp only [Prod.mk.injEq] at this
        omega
      have hbc : ib ≠ ic := by
        rintro rfl
        have := hinv.inj _ _ _ lb lc
        simp only [Prod.mk.injEq] at this
        omega
      have c1 := tryAdd_ok s3.1 f.a ia ic (by omega) (by omega) (by omega) (by omega) (by omega) hac
      have c2 := tryAdd_ok ⟨s3.1.verts, s3.1.faces ++ [⟨f.a, ia, ic⟩]⟩ ia f.b ib (by simp only; omega)
        (by simp only; omega) (by simp only; omega) (by omega) hab (by omega)
      have c3 := tryAdd_ok ⟨s3.1.verts, s3.1.faces ++ [⟨f.a, ia, ic⟩] ++ [⟨ia, f.b, ib⟩]⟩ ia ib ic
        (by simp only; omega) (by simp only; omega) (by simp only; omega) hab hac hbc
      have c4 := tryAdd_ok ⟨s3.1.verts, s3.1.faces ++ [⟨f.a, ia, ic⟩] ++ [⟨ia, f.b, ib⟩] ++ [⟨ia, ib, ic⟩]⟩
        ic ib f.c (by simp only; omega) (by simp only; omega) (by simp only; omega)
        (fun h => hbc h.symm) (by omega) (by omega)
      simp only [linearLoop, hids, ht, Option.bind_eq_bind, Option.bind_some, e1, e2, e3, c1, c2, c3, c4]
      apply ih (fun j hj => his j (by simp [hj])) _ _ (hinv.withFaces _)
      obtain ⟨j, hj, g, hg, hdg⟩ := hdeg
      rcases List.mem_cons.1 hj with rfl | hj
      · rw [hface] at hg
        have := Option.some.inj hg
        subst this
        exact absurd hdg hd
      · exact ⟨j, hj, g, hg, hdg⟩

end R3D.TMesh

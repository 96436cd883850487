import Verif.Lemmas.MeshAlgo
import Mathlib.Logic.Relation
import Mathlib.Data.List.Nodup
import Mathlib.Data.List.Perm.Subperm
namespace R3D.TMesh
variable {P : Type}

/-- vertex `v` is a corner of face `f` -/
def HasV (m : TMesh P) (f v : Nat) : Prop :=
  ∃ face, m.faces[f]? = some face ∧ (v = face.a ∨ v = face.b ∨ v = face.c)

/-- two faces share a vertex -/
def Adj (m : TMesh P) (f g : Nat) : Prop := ∃ v, HasV m f v ∧ HasV m g v

theorem Adj.symm {m : TMesh P} {f g : Nat} (h : Adj m f g) : Adj m g f := by
  obtain ⟨v, h1, h2⟩ := h; exact ⟨v, h2, h1⟩

theorem HasV.lt {m : TMesh P} {f v : Nat} (h : HasV m f v) : f < m.numFaces := by
  obtain ⟨face, h, _⟩ := h; exact (List.getElem?_eq_some_iff.1 h).1

/-! ### vertex_to_face -/

theorem vtfInsert_spec (vtf : List (List Nat)) (v i : Nat) (hv : v < vtf.length) :
    ∃ r, vtfInsert vtf v i = some r ∧ r.length = vtf.length ∧
      ∀ w g, (∃ l, r[w]? = some l ∧ g ∈ l) ↔ (∃ l, vtf[w]? = some l ∧ g ∈ l) ∨ (w = v ∧ g = i) := by
  unfold vtfInsert
  rw [List.getElem?_eq_getElem hv]
  refine ⟨_, rfl, by simp, ?_⟩
  intro w g
  rw [List.getElem?_set]
  by_cases hw : v = w
  · subst hw
    simp only [if_true, hv, List.getElem?_eq_getElem hv, Option.some.injEq, exists_eq_left', true_and]
    by_cases hi : i ∈ vtf[v]
    · simp only [hi, if_true]
      constructor
      · exact Or.inl
      · rintro (h | rfl)
        · exact h
        · exact hi
    · simp only [hi, if_false, List.mem_cons]
      exact or_comm
  · rw [if_neg hw]
    constructor
    · exact Or.inl
    · rintro (h | ⟨rfl, _⟩)
      · exact h
      · exact absurd rfl hw

theorem vertexToFace_spec (m : TMesh P) (hwf : m.WellFormed) :
    ∃ vtf, m.vertexToFace = some vtf ∧ vtf.length = m.numVertices ∧
      ∀ v g, (∃ l, vtf[v]? = some l ∧ g ∈ l) ↔ HasV m g v := by
  unfold vertexToFace
  have key : ∀ (is : List Nat) (vtf : List (List Nat)), (∀ i ∈ is, i < m.numFaces) →
      vtf.length = m.numVertices →
      ∃ r, is.foldlM (fun vtf i => do
        let f ← m.faceVertexIds i
        let vtf ← vtfInsert vtf f.a i
        let vtf ← vtfInsert vtf f.b i
        vtfInsert vtf f.c i) vtf = some r ∧ r.length = m.numVertices ∧
      ∀ v g, (∃ l, r[v]? = some l ∧ g ∈ l) ↔ (∃ l, vtf[v]? = some l ∧ g ∈ l) ∨ (g ∈ is ∧ HasV m g v) := by
    intro is
    induction is with
    | nil => intro vtf _ h; exact ⟨vtf, rfl, h, by simp⟩
    | cons i is ih =>
      intro vtf his hlen
      have hi := his i (by simp)
      have hface : m.faces[i]? = some (m.faces[i]'hi) := List.getElem?_eq_getElem hi
      have hw := hwf _ (List.getElem_mem hi)
      generalize m.faces[i]'hi = f at hface hw
      obtain ⟨r1, e1, l1, s1⟩ := vtfInsert_spec vtf f.a i (by rw [hlen]; exact hw.1)
      obtain ⟨r2, e2, l2, s2⟩ := vtfInsert_spec r1 f.b i (by rw [l1, hlen]; exact hw.2.1)
      obtain ⟨r3, e3, l3, s3⟩ := vtfInsert_spec r2 f.c i (by rw [l2, l1, hlen]; exact hw.2.2.1)
      obtain ⟨r, e, l, s⟩ := ih r3 (fun j hj => his j (by simp [hj])) (by rw [l3, l2, l1, hlen])
      refine ⟨r, ?_, l, ?_⟩
      · have hids : m.faceVertexIds i = some f := hface
        simp only [List.foldlM_cons, hids, Option.bind_eq_bind, Option.bind_some, e1, e2, e3]
        exact e
      · intro v g
        rw [s, s3, s2, s1]
        have hhas : HasV m i v ↔ v = f.a ∨ v = f.b ∨ v = f.c := by
          constructor
          · rintro ⟨face, hf, h⟩
            rw [hface] at hf; have := Option.some.inj hf; subst this; exact h
          · intro h; exact ⟨f, hface, h⟩
        constructor
        · rintro ((((h | ⟨rfl, rfl⟩) | ⟨rfl, rfl⟩) | ⟨rfl, rfl⟩) | ⟨h1, h2⟩)
          · exact Or.inl h
          · exact Or.inr ⟨by simp, hhas.2 (by simp)⟩
          · exact Or.inr ⟨by simp, hhas.2 (by simp)⟩
          · exact Or.inr ⟨by simp, hhas.2 (by simp)⟩
          · exact Or.inr ⟨by simp [h1], h2⟩
        · rintro (h | ⟨h1, h2⟩)
          · exact Or.inl (Or.inl (Or.inl (Or.inl h)))
          · rcases List.mem_cons.1 h1 with rfl | h1
            · rcases hhas.1 h2 with rfl | rfl | rfl
              · exact Or.inl (Or.inl (Or.inl (Or.inr ⟨rfl, rfl⟩)))
              · exact Or.inl (Or.inl (Or.inr ⟨rfl, rfl⟩))
              · exact Or.inl (Or.inr ⟨rfl, rfl⟩)
            · exact Or.inr ⟨h1, h2⟩
  obtain ⟨r, h1, h2, h3⟩ := key (List.range m.numFaces) (List.replicate m.numVertices [])
    (fun i hi => List.mem_range.1 hi) (by simp)
  refine ⟨r, h1, h2, ?_⟩
  intro v g
  rw [h3]
  constructor
  · rintro (⟨l, hl, hg⟩ | ⟨_, h⟩)
    · rw [List.getElem?_replicate] at hl
      split at hl
      · have := Option.some.inj hl; subst this; cases hg
      · cases hl
    · exact h
  · intro h; exact Or.inr ⟨List.mem_range.2 h.lt, h⟩

theorem collectNeighbourFaces_spec (m : TMesh P) (hwf : m.WellFormed) (vtf : List (List Nat))
    (hlen : vtf.length = m.numVertices)
    (hv : ∀ v g, (∃ l, vtf[v]? = some l ∧ g ∈ l) ↔ HasV m g v) (f : Nat) (hf : f < m.numFaces) :
    ∃ ns, m.collectNeighbourFaces vtf f = some (.ok ns) ∧ ∀ g, g ∈ ns ↔ g ≠ f ∧ Adj m f g := by
  have hface : m.faces[f]? = some (m.faces[f]'hf) := List.getElem?_eq_getElem hf
  have hw := hwf _ (List.getElem_mem hf)
  generalize m.faces[f]'hf = face at hface hw
  unfold collectNeighbourFaces
  have hids : m.faceVertexIds f = some face := hface
  have la : face.a < vtf.length := by rw [hlen]; exact hw.1
  have lb : face.b < vtf.length := by rw [hlen]; exact hw.2.1
  have lc : face.c < vtf.length := by rw [hlen]; exact hw.2.2.1
  have ga : vtf[face.a]? = some vtf[face.a] := List.getElem?_eq_getElem la
  have gb : vtf[face.b]? = some vtf[face.b] := List.getElem?_eq_getElem lb
  have gc : vtf[face.c]? = some vtf[face.c] := List.getElem?_eq_getElem lc
  simp only [hids, ga, gb, gc, Option.bind_eq_bind, Option.bind_some]
  refine ⟨_, rfl, ?_⟩
  intro g
  rw [List.mem_filter, HalfEdge.dedup_mem, mem_stableSort]
  have ha := hv face.a g
  have hb := hv face.b g
  have hc := hv face.c g
  simp only [ga, gb, gc, Option.some.injEq, exists_eq_left'] at ha hb hc
  simp only [List.mem_append, ha, hb, hc, decide_eq_true_eq]
  constructor
  · rintro ⟨(h | h) | h, hne⟩
    · exact ⟨hne, _, ⟨face, hface, Or.inl rfl⟩, h⟩
    · exact ⟨hne, _, ⟨face, hface, Or.inr (Or.inl rfl)⟩, h⟩
    · exact ⟨hne, _, ⟨face, hface, Or.inr (Or.inr rfl)⟩, h⟩
  · rintro ⟨hne, v, ⟨face', hf', hv'⟩, h⟩
    rw [hface] at hf'
    have := Option.some.inj hf'
    subst this
    refine ⟨?_, hne⟩
    rcases hv' with rfl | rfl | rfl
    · exact Or.inl (Or.inl h)
    · exact Or.inl (Or.inr h)
    · exact Or.inr h

/-! ### the traversal -/

/-- `true` iff the two triangles point to opposite sides -/
def diff (opp : P × P × P → P × P × P → Bool) (m : TMesh P) (f g : Nat) : Bool :=
  match m.faceVertices f, m.faceVertices g with
  | some s, some t => opp s t
  | _, _ => false

def Reach (m : TMesh P) : Nat → Nat → Prop := Relation.ReflTransGen (Adj m)

theorem Reach.symm {m : TMesh P} {f g : Nat} (h : Reach m f g) : Reach m g f := by
  induction h with
  | refl => exact Relation.ReflTransGen.refl
  | tail _ h ih => exact Relation.ReflTransGen.head h.symm ih

/-- history of the traversal (newest first): roots keep their orientation, the others get theirs
from an already visited neighbour -/
inductive Built (opp : P × P × P → P × P × P → Bool) (m : TMesh P) (fl : Nat → Option Bool) :
    List Nat → Prop
  | nil : Built opp m fl []
  | root {ord g} : Built opp m fl ord → fl g = some false → (∀ h, Reach m g h → g ≤ h) →
      Built opp m fl (g :: ord)
  | child {ord f g b} : Built opp m fl ord → f ∈ ord → f ≠ g → Adj m f g → fl f = some b →
      fl g = some (xor b (diff opp m f g)) → Built opp m fl (g :: ord)

theorem Built.congr {opp : P × P × P → P × P × P → Bool} {m : TMesh P} {fl fl' : Nat → Option Bool}
    {ord : List Nat} (h : Built opp m fl ord) (heq : ∀ i ∈ ord, fl' i = fl i) : Built opp m fl' ord := by
  induction h with
  | nil => exact .nil
  | root _ h1 h2 ih =>
    exact .root (ih fun i hi => heq i (by simp [hi])) (by rw [heq _ (by simp)]; exact h1) h2
  | child _ h1 h0 h2 h3 h4 ih =>
    exact .child (ih fun i hi => heq i (by simp [hi])) h1 h0 h2
      (by rw [heq _ (by simp [h1])]; exact h3) (by rw [heq _ (by simp)]; exact h4)

structure SI (opp : P × P × P → P × P × P → Bool) (m : TMesh P) (s : UnifyState) (ord : List Nat) : Prop where
  len1 : s.checked.length = m.numFaces
  len2 : s.mustFlip.length = m.numFaces
  chk : ∀ i, s.checked[i]? = some true ↔ i ∈ ord
  nd : ord.Nodup
  unch : ∀ i, i ∉ ord → i < m.numFaces → s.mustFlip[i]? = some false
  built : Built opp m (fun i => s.mustFlip[i]?) ord
  fr : ∀ i ∈ s.frontier, i ∈ ord

theorem SI.lt {opp : P × P × P → P × P × P → Bool} {m : TMesh P} {s : UnifyState} {ord : List Nat}
    (h : SI opp m s ord) {i : Nat} (hi : i ∈ ord) : i < m.numFaces := by
  have := (h.chk i).2 hi
  have := (List.getElem?_eq_some_iff.1 this).1
  rw [h.len1] at this; exact this

theorem SI.length_le {opp : P × P × P → P × P × P → Bool} {m : TMesh P} {s : UnifyState} {ord : List Nat}
    (h : SI opp m s ord) : ord.length ≤ m.numFaces := by
  have : ord ⊆ List.range m.numFaces := fun i hi => List.mem_range.2 (h.lt hi)
  have := (h.nd.subperm this).length_le
  simpa using this

/-- marking a new face -/
theorem SI.mark {opp : P × P × P → P × P × P → Bool} {m : TMesh P} {s : UnifyState} {ord : List Nat}
    (h : SI opp m s ord) {n : Nat} (hn : n ∉ ord) (hlt : n < m.numFaces) (b : Bool)
    (hb : (b = false ∧ ∀ k, Reach m n k → n ≤ k) ∨
      ∃ f bf, f ∈ ord ∧ Adj m f n ∧ s.mustFlip[f]? = some bf ∧ b = xor bf (diff opp m f n)) :
    SI opp m ⟨s.checked.set n true, s.mustFlip.set n b, n :: s.frontier⟩ (n :: ord) := by
  have hold : ∀ i ∈ ord, (s.mustFlip.set n b)[i]? = s.mustFlip[i]? := by
    intro i hi
    rw [List.getElem?_set_ne]
    rintro rfl; exact hn hi
  have hnew : (s.mustFlip.set n b)[n]? = some b := by
    rw [List.getElem?_set_self]; rw [h.len2]; exact hlt
  constructor
  · simp [h.len1]
  · simp [h.len2]
  · intro i
    by_cases hi : n = i
    · subst hi
      simp only [List.mem_cons, true_or, iff_true]
      rw [List.getElem?_set_self]; rw [h.len1]; exact hlt
    · simp only [List.getElem?_set_ne hi, h.chk, List.mem_cons]
      constructor
      · exact Or.inr
      · rintro (rfl | h)
        · exact absurd rfl hi
        · exact h
  · exact List.nodup_cons.2 ⟨hn, h.nd⟩
  · intro i hi hl
    simp only [List.mem_cons, not_or] at hi
    rw [List.getElem?_set_ne (Ne.symm hi.1)]
    exact h.unch i hi.2 hl
  · have hb' : Built opp m (fun i => (s.mustFlip.set n b)[i]?) ord := h.built.congr hold
    rcases hb with ⟨rfl, hmin⟩ | ⟨f, bf, hf, hadj, hbf, rfl⟩
    · exact .root hb' hnew hmin
    · exact .child hb' hf (by rintro rfl; exact hn hf) hadj (by show (s.mustFlip.set n _)[f]? = _; rw [hold f hf]; exact hbf) hnew
  · intro i hi
    rcases List.mem_cons.1 hi with rfl | hi
    · simp
    · simp [h.fr i hi]

theorem unifyNeighbours_spec (opp : P × P × P → P × P × P → Bool) (m : TMesh P) (hwf : m.WellFormed)
    (this : Nat) (t : P × P × P) (ht : m.faceVertices this = some t) (ns : List Nat)
    (hns : ∀ n ∈ ns, n < m.numFaces ∧ Adj m this n) (s : UnifyState) (ord : List Nat)
    (h : SI opp m s ord) (hthis : this ∈ ord) :
    ∃ s' new, unifyNeighbours opp m this t ns s = some s' ∧ SI opp m s' (new ++ ord) ∧
      (∀ n ∈ ns, n ∈ new ++ ord) ∧ s'.frontier = new ++ s.frontier := by
  induction ns generalizing s ord with
  | nil => exact ⟨s, [], rfl, h, by simp, by simp⟩
  | cons n ns ih =>
    obtain ⟨hlt, hadj⟩ := hns n (by simp)
    have hns' : ∀ k ∈ ns, k < m.numFaces ∧ Adj m this k := fun k hk => hns k (by simp [hk])
    have hc : s.checked[n]? = some (s.checked[n]'(by rw [h.len1]; exact hlt)) := List.getElem?_eq_getElem _
    generalize s.checked[n]'(by rw [h.len1]; exact hlt) = c at hc
    cases c with
    | true =>
      obtain ⟨s', new, h1, h2, h3, h4⟩ := ih hns' s ord h hthis
      refine ⟨s', new, ?_, h2, ?_, h4⟩
      · simp only [unifyNeighbours, hc, Option.bind_eq_bind, Option.bind_some, if_true, h1]
      · intro k hk
        rcases List.mem_cons.1 hk with rfl | hk
        · exact List.mem_append_right _ ((h.chk _).1 hc)
        · exact h3 k hk
    | false =>
      have hn : n ∉ ord := fun hn => by rw [(h.chk n).2 hn] at hc; cases hc
      obtain ⟨tn, htn, _⟩ := m.faceVertices_some hwf n hlt
      have hfl : s.mustFlip[this]? = some (s.mustFlip[this]'(by rw [h.len2]; exact h.lt hthis)) :=
        List.getElem?_eq_getElem _
      generalize s.mustFlip[this]'(by rw [h.len2]; exact h.lt hthis) = fl at hfl
      have hd : diff opp m this n = opp t tn := by unfold diff; rw [ht, htn]
      have hb : (if fl then !opp t tn else opp t tn) = xor fl (diff opp m this n) := by
        rw [hd]; cases fl <;> simp
      have hmark := h.mark hn hlt (if fl then !opp t tn else opp t tn)
        (Or.inr ⟨this, fl, hthis, hadj, hfl, hb⟩)
      obtain ⟨s', new, h1, h2, h3, h4⟩ := ih hns' _ _ hmark (by simp [hthis])
      refine ⟨s', new ++ [n], ?_, by simpa using h2, ?_, by simp [h4]⟩
      · have v1 : vecSet s.mustFlip n (if fl then !opp t tn else opp t tn) =
            some (s.mustFlip.set n (if fl then !opp t tn else opp t tn)) := by
          unfold vecSet; rw [if_pos (by rw [h.len2]; exact hlt)]
        have v2 : vecSet s.checked n true = some (s.checked.set n true) := by
          unfold vecSet; rw [if_pos (by rw [h.len1]; exact hlt)]
        simp only [unifyNeighbours, hc, Option.bind_eq_bind, Option.bind_some, htn, hfl, v1, v2]
        exact h1
      · intro k hk
        rcases List.mem_cons.1 hk with rfl | hk
        · simp
        · have := h3 k hk; simpa using this

def ClosedExcept (m : TMesh P) (ord fr : List Nat) : Prop :=
  ∀ f ∈ ord, f ∉ fr → ∀ g, Adj m f g → g ∈ ord

theorem unifyDrain_spec (opp : P × P × P → P × P × P → Bool) (m : TMesh P) (hwf : m.WellFormed)
    (vtf : List (List Nat)) (hlen : vtf.length = m.numVertices)
    (hv : ∀ v g, (∃ l, vtf[v]? = some l ∧ g ∈ l) ↔ HasV m g v)
    (fuel : Nat) (s : UnifyState) (ord : List Nat) (h : SI opp m s ord)
    (hcl : ClosedExcept m ord s.frontier)
    (hfuel : s.frontier.length + (m.numFaces - ord.length) ≤ fuel) :
    ∃ s' new, unifyDrain opp m vtf fuel s = some (.ok s') ∧ SI opp m s' (new ++ ord) ∧
      s'.frontier = [] ∧ ClosedExcept m (new ++ ord) [] := by
  induction fuel generalizing s ord with
  | zero =>
    have : s.frontier = [] := List.length_eq_zero_iff.1 (by omega)
    refine ⟨s, [], ?_, h, this, ?_⟩
    · simp [unifyDrain, this]
    · rw [this] at hcl; exact hcl
  | succ fuel ih =>
    cases hfr : s.frontier with
    | nil =>
      refine ⟨s, [], ?_, h, hfr, ?_⟩
      · simp [unifyDrain, hfr]
      · rw [hfr] at hcl; exact hcl
    | cons this rest =>
      have hthis : this ∈ ord := h.fr this (by rw [hfr]; simp)
      have hlt := h.lt hthis
      obtain ⟨ns, hns, hmem⟩ := collectNeighbourFaces_spec m hwf vtf hlen hv this hlt
      obtain ⟨t, ht, _⟩ := m.faceVertices_some hwf this hlt
      have h' : SI opp m { s with frontier := rest } ord :=
        ⟨h.len1, h.len2, h.chk, h.nd, h.unch, h.built, fun i hi => h.fr i (by rw [hfr]; simp only at hi; simp [hi])⟩
      obtain ⟨s1, new, h1, h2, h3, h4⟩ := unifyNeighbours_spec opp m hwf this t ht ns
        (fun n hn => ⟨by
          obtain ⟨_, v, _, hv2⟩ := (hmem n).1 hn
          exact hv2.lt, ((hmem n).1 hn).2⟩) _ ord h' hthis
      simp only at h4
      have hcl1 : ClosedExcept m (new ++ ord) s1.frontier := by
        intro f hf hnf g hg
        rw [h4] at hnf
        simp only [List.mem_append, not_or] at hnf hf
        have hf' : f ∈ ord := hf.resolve_left hnf.1
        by_cases hft : f = this
        · subst hft
          by_cases hgf : g = f
          · subst hgf; exact List.mem_append_right _ hf'
          · exact h3 g ((hmem g).2 ⟨hgf, hg⟩)
        · refine List.mem_append_right _ (hcl f hf' ?_ g hg)
          rw [hfr]; simp [hft, hnf.2]
      have hle := h2.length_le
      obtain ⟨s2, new2, k1, k2, k3, k4⟩ := ih s1 (new ++ ord) h2 hcl1 (by
        rw [hfr] at hfuel
        simp only [List.length_cons] at hfuel
        simp only [List.length_append] at hle
        rw [h4]; simp only [List.length_append]; omega)
      refine ⟨s2, new2 ++ new, ?_, by simpa using k2, k3, by simpa using k4⟩
      simp only [unifyDrain, hfr, hns, ht, h1, Option.bind_eq_bind, Option.bind_some]
      exact k1

theorem unifyScan_spec (opp : P × P × P → P × P × P → Bool) (m : TMesh P) (hwf : m.WellFormed)
    (vtf : List (List Nat)) (hlen : vtf.length = m.numVertices)
    (hv : ∀ v g, (∃ l, vtf[v]? = some l ∧ g ∈ l) ↔ HasV m g v)
    (n k : Nat) (hk : k + n = m.numFaces) (s : UnifyState) (ord : List Nat) (h : SI opp m s ord)
    (hfr : s.frontier = []) (hcl : ClosedExcept m ord []) (hlow : ∀ i < k, i ∈ ord) :
    ∃ s' ord', unifyScan opp m vtf (List.range' k n) s = some (.ok s') ∧ SI opp m s' ord' ∧
      ∀ i < m.numFaces, i ∈ ord' := by
  induction n generalizing k s ord with
  | zero => exact ⟨s, ord, rfl, h, fun i hi => hlow i (by omega)⟩
  | succ n ih =>
    have hklt : k < m.numFaces := by omega
    have hc : s.checked[k]? = some (s.checked[k]'(by rw [h.len1]; exact hklt)) := List.getElem?_eq_getElem _
    generalize s.checked[k]'(by rw [h.len1]; exact hklt) = c at hc
    rw [List.range'_succ]
    cases c with
    | true =>
      obtain ⟨s', ord', h1, h2, h3⟩ := ih (k + 1) (by omega) s ord h hfr hcl (by
        intro i hi
        rcases Nat.lt_or_eq_of_le (Nat.le_of_lt_succ hi) with hlt | rfl
        · exact hlow i hlt
        · exact (h.chk _).1 hc)
      refine ⟨s', ord', ?_, h2, h3⟩
      simp only [unifyScan, hc, Option.bind_eq_bind, Option.bind_some, if_true]
      exact h1
    | false =>
      have hkn : k ∉ ord := fun hn => by rw [(h.chk k).2 hn] at hc; cases hc
      have hmin : ∀ j, Reach m k j → k ≤ j := by
        intro j hj
        rcases Nat.lt_or_ge j k with hlt | hge
        · exfalso
          have hj' := hj.symm
          have : ∀ x, Reach m j x → x ∈ ord := by
            intro x hx
            induction hx with
            | refl => exact hlow j hlt
            | tail _ hadj ihx => exact hcl _ ihx (by simp) _ hadj
          exact hkn (this k hj')
        · exact hge
      have hun := h.unch k hkn hklt
      have hset : s.mustFlip.set k false = s.mustFlip := by
        apply List.ext_getElem?
        intro i
        by_cases hi : k = i
        · subst hi; rw [List.getElem?_set_self (by rw [h.len2]; exact hklt), hun]
        · rw [List.getElem?_set_ne hi]
      have hmark := h.mark hkn hklt false (Or.inl ⟨rfl, hmin⟩)
      rw [hset] at hmark
      obtain ⟨s1, new, d1, d2, d3, d4⟩ := unifyDrain_spec opp m hwf vtf hlen hv (m.numFaces + 1) _ _ hmark (by
        intro f hf hnf g hg
        simp only [hfr, List.mem_singleton] at hnf
        rcases List.mem_cons.1 hf with rfl | hf
        · exact absurd rfl hnf
        · exact List.mem_cons_of_mem _ (hcl f hf (by simp) g hg)) (by
        simp only [hfr, List.length_cons, List.length_nil]; omega)
      obtain ⟨s', ord', h1, h2, h3⟩ := ih (k + 1) (by omega) s1 _ d2 d3 d4 (by
        intro i hi
        rcases Nat.lt_or_eq_of_le (Nat.le_of_lt_succ hi) with hlt | rfl
        · simp [hlow i hlt]
        · simp)
      refine ⟨s', ord', ?_, h2, h3⟩
      have v2 : vecSet s.checked k true = some (s.checked.set k true) := by
        unfold vecSet; rw [if_pos (by rw [h.len1]; exact hklt)]
      simp only [unifyScan, hc, Option.bind_eq_bind, Option.bind_some, v2, d1]
      exact h1

/-- flipped or kept -/
def orient (b : Bool) (f : Face3) : Face3 := if b then ⟨f.a, f.c, f.b⟩ else f

theorem unifyEmit_spec (m : TMesh P) (hwf : m.WellFormed) (mf : List Bool)
    (hlen : mf.length = m.numFaces) (is : List Nat) (his : ∀ i ∈ is, i < m.numFaces) (fs : List Face3) :
    unifyEmit m mf is ⟨m.verts, fs⟩ = some ⟨m.verts, fs ++ is.filterMap fun i =>
      match m.faces[i]?, mf[i]? with
      | some f, some b => some (orient b f)
      | _, _ => none⟩ := by
  induction is generalizing fs with
  | nil => simp [unifyEmit]
  | cons i is ih =>
    have hi := his i (by simp)
    have hface : m.faces[i]? = some (m.faces[i]'hi) := List.getElem?_eq_getElem hi
    have hw := hwf _ (List.getElem_mem hi)
    generalize m.faces[i]'hi = f at hface hw
    have hfl : mf[i]? = some (mf[i]'(by rw [hlen]; exact hi)) := List.getElem?_eq_getElem _
    generalize mf[i]'(by rw [hlen]; exact hi) = b at hfl
    have hids : m.faceVertexIds i = some f := hface
    have htry : (if b then (⟨m.verts, fs⟩ : TMesh P).tryAddConnection f.a f.c f.b
        else (⟨m.verts, fs⟩ : TMesh P).tryAddConnection f.a f.b f.c) =
        (⟨m.verts, fs ++ [orient b f]⟩, .ok fs.length) := by
      cases b
      · simp only [orient, Bool.false_eq_true, if_false]
        unfold tryAddConnection
        rw [if_neg (by simp only; omega), if_neg (by omega)]
      · simp only [orient, if_true]
        unfold tryAddConnection
        rw [if_neg (by simp only; omega), if_neg (by omega)]
    simp only [unifyEmit, hids, hfl, Option.bind_eq_bind, Option.bind_some, htry]
    rw [ih (fun j hj => his j (by simp [hj]))]
    simp [hface, hfl]

/-- main description of the result -/
theorem unifyFaces_spec (opp : P × P × P → P × P × P → Bool) (m : TMesh P) (hwf : m.WellFormed) :
    ∃ (r : TMesh P) (mf : List Bool) (ord : List Nat), unifyFaces opp m = some (.ok r) ∧ r.verts = m.verts ∧
      mf.length = m.numFaces ∧ r.numFaces = m.numFaces ∧
      (∀ (i : Nat) f b, m.faces[i]? = some f → mf[i]? = some b → r.faces[i]? = some (orient b f)) ∧
      Built opp m (fun i => mf[i]?) ord ∧ (∀ i < m.numFaces, i ∈ ord) := by
  obtain ⟨vtf, hv1, hv2, hv3⟩ := vertexToFace_spec m hwf
  obtain ⟨s, ord, h1, h2, h3⟩ := unifyScan_spec opp m hwf vtf hv2 hv3 m.numFaces 0 (by omega)
    ⟨List.replicate m.numFaces false, List.replicate m.numFaces false, []⟩ []
    ⟨by simp, by simp, by intro i; simp [List.getElem?_replicate], by simp,
      by intro i _ hi; simp [List.getElem?_replicate, hi], .nil, by simp⟩
    rfl (by intro f hf; cases hf) (by omega)
  rw [← List.range_eq_range'] at h1
  have hvs : (List.range m.numVertices).mapM m.vertex = some m.verts := range_mapM_getElem m.verts
  have hemit := unifyEmit_spec m hwf s.mustFlip h2.len2 (List.range m.numFaces)
    (fun i hi => List.mem_range.1 hi) []
  have hmapeq : ((List.range m.numFaces).filterMap fun i =>
      match m.faces[i]?, s.mustFlip[i]? with
      | some f, some b => some (orient b f)
      | _, _ => none) = List.zipWith (fun f b => orient b f) m.faces s.mustFlip := by
    have : ((List.range m.numFaces).filterMap fun i =>
      match m.faces[i]?, s.mustFlip[i]? with
      | some f, some b => some (orient b f)
      | _, _ => none) = (List.range (List.zipWith (fun f b => orient b f) m.faces s.mustFlip).length).filterMap
        (fun i => (List.zipWith (fun f b => orient b f) m.faces s.mustFlip)[i]?) := by
      have hl : (List.zipWith (fun f b => orient b f) m.faces s.mustFlip).length = m.numFaces := by
        have := h2.len2
        unfold TMesh.numFaces at *
        rw [List.length_zipWith]; omega
      rw [hl]
      congr 1
      funext i
      rw [List.getElem?_zipWith]
      cases m.faces[i]? <;> cases s.mustFlip[i]? <;> rfl
    rw [this, filterMap_range_getElem]
  rw [hmapeq] at hemit
  refine ⟨⟨m.verts, List.zipWith (fun f b => orient b f) m.faces s.mustFlip⟩, s.mustFlip, ord, ?_, rfl, h2.len2, ?_, ?_, h2.built, h3⟩
  · unfold unifyFaces
    simp only [hv1, h1, hvs, Option.bind_eq_bind, Option.bind_some, foldl_addVertex, TMesh.empty,
      List.nil_append, hemit]
    rfl
  · have := h2.len2
    unfold TMesh.numFaces at *
    simp only [List.length_zipWith]; omega
  · intro i f b hf hb
    simp only [List.getElem?_zipWith, hf, hb]

theorem Built.colour {opp : P × P × P → P × P × P → Bool} {m : TMesh P} {fl : Nat → Option Bool}
    {ord : List Nat} (h : Built opp m fl ord) (σ : Nat → Bool)
    (hσ : ∀ f g, f ≠ g → Adj m f g → diff opp m f g = xor (σ f) (σ g)) :
    ∀ g ∈ ord, ∃ r, Reach m g r ∧ (∀ k, Reach m r k → r ≤ k) ∧ fl g = some (xor (σ g) (σ r)) := by
  induction h with
  | nil => intro g hg; cases hg
  | @root ord g0 hb h1 h2 ih =>
    intro g hg
    rcases List.mem_cons.1 hg with rfl | hg
    · exact ⟨g, Relation.ReflTransGen.refl, h2, by rw [h1]; simp⟩
    · exact ih g hg
  | @child ord f g0 b hb hf hne hadj h3 h4 ih =>
    intro g hg
    rcases List.mem_cons.1 hg with rfl | hg
    · obtain ⟨r, hr, hmin, hfl⟩ := ih f hf
      refine ⟨r, Relation.ReflTransGen.head hadj.symm hr, hmin, ?_⟩
      rw [h4, hσ f g hne hadj]
      rw [h3] at hfl
      have := Option.some.inj hfl
      subst this
      congr 1
      cases σ f <;> cases σ g <;> cases σ r <;> rfl
    · exact ih g hg

end R3D.TMesh

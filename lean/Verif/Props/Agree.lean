import Verif.Props.TruncatedPly
import Verif.Props.StlUnique
/-!
# C120: the loaders of one format agree

A format with vertices and faces can be loaded as a mesh or as points only, .ply files also without knowing which of the two they
hold, and .stl files as triplets of points, as separate triangles or with the corners unified. The same file yields the same with all
of them.
-/
namespace R3D
open Spec

variable {α σ τ ε P : Type}

/-! ### specification -/

/-- `x` is what was loaded of a file into the mesh `m`, and `y` what was loaded of it into the points `ip`: the points hold the
vertices of the mesh. They are all of them if the mesh was loaded completely; if not, either the same error stopped both, or something
about the faces (`face`) stopped the mesh, and the points go on. -/
def Spec.SameVertices (face : ε → Prop) (m : TMesh P) (ip : List P) (x : TMesh P × Except ε Unit) (y : List P × Except ε Unit) : Prop :=
  ∃ v w, x.1.verts = m.verts ++ v ∧ y.1 = ip ++ (v ++ w) ∧ (x.2 = .ok () → w = [] ∧ y.2 = .ok ()) ∧
    ∀ e, x.2 = .error e → face e ∨ (w = [] ∧ y.2 = .error e)

/-! ### the loops -/

/-- more fuel than needed does not matter -/
theorem forEach_fuel {μ : Type} {next : σ → Panics (Option (Except ε α) × σ)} {push : μ → α → μ × Except ε Unit} (k : Nat) :
    ∀ (n : Nat) (s : σ) (m : μ) x, forEach next push n s m = some x → forEach next push (n + k) s m = some x
  | 0, _, _, _, h => by cases h
  | n + 1, s, m, x, h => by
    rw [Nat.add_right_comm]
    unfold forEach at h ⊢
    split at h
    · cases h
    · exact h
    · exact h
    · split at h
      · exact forEach_fuel k n _ _ _ h
      · exact h

/-- a loop over the items of a mesh and one over those that are no faces -/
theorem forEach_agree {next : σ → Panics (Option (Except ε (Item (Point3D α))) × σ)}
    {next' : τ → Panics (Option (Except ε (Item (Point3D α))) × τ)}
    {push : TMesh (Point3D α) → Item (Point3D α) → TMesh (Point3D α) × Except ε Unit} {eIdx : ε} (hp : MeshPush push eIdx)
    (face : ε → Prop) (hIdx : face eIdx) (R : σ → τ → Prop)
    (hnone : ∀ s t s', R s t → next s = some (none, s') → ∃ t', next' t = some (none, t'))
    (herr : ∀ s t e s', R s t → next s = some (some (.error e), s') → face e ∨ ∃ t', next' t = some (some (.error e), t'))
    (hdata : ∀ s t p s', R s t → next s = some (some (.ok (.data p)), s') → ∃ t', next' t = some (some (.ok (.data p)), t') ∧ R s' t')
    (hface : ∀ s t a b c s', R s t → next s = some (some (.ok (.face a b c)), s') → R s' t)
    (hres : ∀ s t n k s', R s t → next s = some (some (.ok (.reserve n k)), s') → ∃ n' k' t', next' t = some (some (.ok (.reserve n' k')), t') ∧
      R s' t') :
    ∀ (n k : Nat) (s : σ) (t : τ) (m : TMesh (Point3D α)) (ip : List (Point3D α)) x y, R s t → forEach next push n s m = some x →
      forEach next' pushItem k t ip = some y → SameVertices face m ip x y := by
  have hgrow : ∀ (k : Nat) (t : τ) (ip : List (Point3D α)) y, forEach next' pushItem k t ip = some y → ip <+: y.1 :=
    fun k t ip y h => forEach_grows (fun m => List.prefix_refl m) (fun _ _ _ h1 h2 => h1.trans h2) pushItem_begins _ _ _ _ h
  have hfe : ∀ (e : ε) (m : TMesh (Point3D α)) (ip : List (Point3D α)) (k : Nat) (t : τ) y, face e →
      forEach next' pushItem k t ip = some y → SameVertices face m ip (m, .error e) y := by
    intro e m ip k t y he h
    obtain ⟨w, hw⟩ := hgrow k t ip y h
    exact ⟨[], w, by simp, by simp [hw], fun h => (by cases h), fun e' h => by cases h; exact .inl he⟩
  intro n
  induction n with
  | zero => intro k s t m ip x y _ hx; cases hx
  | succ n ih =>
    intro k s t m ip x y hR hx hy
    obtain ⟨k, rfl⟩ : ∃ k', k = k' + 1 := by
      cases k with
      | zero => cases hy
      | succ k => exact ⟨k, rfl⟩
    unfold forEach at hx
    rcases hn : next s with _ | ⟨_ | e | it, s'⟩
    · rw [hn] at hx; cases hx
    · rw [hn] at hx
      cases hx
      obtain ⟨t', ht⟩ := hnone s t s' hR hn
      unfold forEach at hy
      rw [ht] at hy
      cases hy
      exact ⟨[], [], by simp, by simp, fun _ => ⟨rfl, rfl⟩, fun e h => by cases h⟩
    · rw [hn] at hx
      cases hx
      rcases herr s t e s' hR hn with h | ⟨t', ht⟩
      · exact hfe e m ip _ t y h hy
      · unfold forEach at hy
        rw [ht] at hy
        cases hy
        exact ⟨[], [], by simp, by simp, fun h => (by cases h), fun e h => by cases h; exact .inr ⟨rfl, rfl⟩⟩
    · rw [hn] at hx
      cases it with
      | data p =>
        obtain ⟨t', ht, hR'⟩ := hdata s t p s' hR hn
        simp only [hp.data] at hx
        unfold forEach at hy
        rw [ht] at hy
        simp only [pushItem] at hy
        obtain ⟨v, w, h1, h2, h3, h4⟩ := ih _ _ _ _ _ _ _ hR' hx hy
        exact ⟨p :: v, w, by simpa using h1, by simpa using h2, h3, h4⟩
      | face a b c =>
        have hR' := hface s t a b c s' hR hn
        by_cases hf : Fits 0 m.verts.length (Says.face a b c : Says (Point3D α) ε)
        · simp only [hp.face m a b c hf] at hx
          obtain ⟨v, w, h1, h2, h3, h4⟩ := ih _ _ _ _ _ _ _ hR' hx hy
          exact ⟨v, w, h1, h2, h3, h4⟩
        · simp only [hp.bad m a b c hf] at hx
          cases hx
          exact hfe eIdx m ip _ t y hIdx hy
      | reserve i j =>
        obtain ⟨i', j', t', ht, hR'⟩ := hres s t i j s' hR hn
        simp only [hp.reserve] at hx
        unfold forEach at hy
        rw [ht] at hy
        simp only [pushItem] at hy
        exact ih _ _ _ _ _ _ _ hR' hx hy

/-- collecting the items into a list -/
theorem drain_forEach {next : σ → Option (Except ε (Point3D α)) × σ} : ∀ (n : Nat) (s : σ) (ip l : List (Point3D α)) (r : Except ε Unit),
    drain next n s = some (l, r) →
    forEach (fun s => some (match next s with
      | (none, s') => (none, s') | (some (.error e), s') => (some (.error e), s') | (some (.ok p), s') => (some (.ok (.data p)), s')))
      pushItem n s ip = some (ip ++ l, r)
  | 0, _, _, _, _, h => by cases h
  | n + 1, s, ip, l, r, h => by
    unfold drain at h
    unfold forEach
    rcases hn : next s with ⟨_ | e | p, s'⟩
    · rw [hn] at h
      cases h
      simp
    · rw [hn] at h
      cases h
      simp
    · rw [hn] at h
      simp only [Option.map_eq_some_iff, Prod.mk.injEq] at h
      obtain ⟨⟨l', r'⟩, h1, rfl, rfl⟩ := h
      simp only [pushItem]
      rw [drain_forEach n s' (ip ++ [p]) l' r' h1]
      simp

/-! ### .obj -/

/-- the errors about faces -/
def Spec.ObjFaceError (e : LineInfo ObjError) : Prop := e.err = .Face ∨ e.err = .InvalidMeshIndices

theorem objPush_push : MeshPush (objPush (α := α)) (.none .InvalidMeshIndices) where
  reserve _ _ _ := rfl
  data _ _ := rfl
  face m a b c h := by
    obtain ⟨h1, h2, h3, h4, h5, h6⟩ := h
    simp only [objPush, TMesh.tryAddConnection]
    rw [if_neg (by omega), if_neg (by omega)]
  bad m a b c h := by
    unfold Fits at h
    simp only [objPush, TMesh.tryAddConnection]
    by_cases hr : a ≥ m.verts.length ∨ b ≥ m.verts.length ∨ c ≥ m.verts.length
    · simp [hr]
    · rw [if_neg hr, if_pos (by omega)]

theorem objFetchFace_face (line : Bytes) (e : ObjError) (h : objFetchFace line = some (.error e)) : e = .Face := by
  unfold objFetchFace at h
  split at h
  · cases h; rfl
  · split at h
    · split at h <;> cases h
    · cases h; rfl

/-- one step of the two iterators -/
theorem objLoop_agree (T : FloatText α) : ∀ (ls : List Bytes) (i : Nat) x s', objMeshLoop T ls i = some (x, s') →
    match x with
    | none => ∃ t', objPointsLoop T ls i = (none, t')
    | some (.error e) => ObjFaceError e ∨ ∃ t', objPointsLoop T ls i = (some (.error e), t')
    | some (.ok (.data p)) => objPointsLoop T ls i = (some (.ok p), s') ∧ s'.isDone = false
    | some (.ok (.face _ _ _)) => objPointsLoop T ls i = objPointsLoop T s'.lines s'.iLine ∧ s'.isDone = false
    | some (.ok (.reserve _ _)) => False
  | [], i, x, s', h => by
    cases h
    exact ⟨_, rfl⟩
  | l :: ls, i, x, s', h => by
    unfold objMeshLoop at h
    have hloop : objPointsLoop T (l :: ls) i = if startsWith l b!"v " then
      match objFetchVertex T l with
      | .ok p => (some (.ok p), ⟨ls, false, i + 1⟩)
      | .error e => (some (.error (.line (i + 1) l e)), ⟨ls, true, i + 1⟩)
      else objPointsLoop T ls (i + 1) := rfl
    rw [hloop]
    by_cases hv : startsWith l b!"v " = true
    · simp only [hv, if_true] at h ⊢
      cases hf : objFetchVertex T l with
      | ok p => rw [hf] at h; cases h; exact ⟨rfl, rfl⟩
      | error e => rw [hf] at h; cases h; exact .inr ⟨_, rfl⟩
    · simp only [hv, if_false, Bool.false_eq_true] at h ⊢
      by_cases hf : startsWith l b!"f " = true
      · simp only [hf, if_true] at h
        rcases ho : objFetchFace l with _ | e | ⟨a, b, c⟩
        · rw [ho] at h; cases h
        · rw [ho] at h
          cases h
          exact .inl (.inl (objFetchFace_face l e ho))
        · rw [ho] at h
          cases h
          exact ⟨rfl, rfl⟩
      · simp only [hf, if_false, Bool.false_eq_true] at h
        exact objLoop_agree T ls (i + 1) x s' h

/-- **C120** for .obj -/
theorem c120_obj (T : FloatText α) (file : Bytes) (m : TMesh (Point3D α)) (x y) (hx : loadObjMesh T file m = some x)
    (hy : loadObjPoints T file = some y) : SameVertices ObjFaceError m [] x y := by
  obtain ⟨l, r⟩ := y
  have hy' := drain_forEach _ _ [] _ _ hy
  rw [List.nil_append] at hy'
  refine forEach_agree objPush_push ObjFaceError (.inr rfl)
    (fun s t : LineIter => s.isDone = false ∧ objPointsNext T t = objPointsLoop T s.lines s.iLine) ?_ ?_ ?_ ?_ ?_ _ _ _ _ m [] x (l, r)
    ⟨rfl, rfl⟩ hx hy'
  · rintro s t s' ⟨h1, h2⟩ hn
    rw [objMeshNext, h1] at hn
    obtain ⟨t', ht⟩ := objLoop_agree T _ _ _ _ hn
    exact ⟨t', by simp only [h2, ht]⟩
  · rintro s t e s' ⟨h1, h2⟩ hn
    rw [objMeshNext, h1] at hn
    rcases objLoop_agree T _ _ _ _ hn with h | ⟨t', ht⟩
    · exact .inl h
    · exact .inr ⟨t', by simp only [h2, ht]⟩
  · rintro s t p s' ⟨h1, h2⟩ hn
    rw [objMeshNext, h1] at hn
    obtain ⟨ht, hd⟩ := objLoop_agree T _ _ _ _ hn
    exact ⟨s', by simp only [h2, ht], hd, by rw [objPointsNext, hd]; rfl⟩
  · rintro s t a b c s' ⟨h1, h2⟩ hn
    rw [objMeshNext, h1] at hn
    obtain ⟨ht, hd⟩ := objLoop_agree T _ _ _ _ hn
    exact ⟨hd, by rw [h2, ht]⟩
  · rintro s t i j s' ⟨h1, h2⟩ hn
    rw [objMeshNext, h1] at hn
    exact (objLoop_agree T _ _ _ _ hn).elim

/-! ### .off -/

/-- the errors about faces -/
def Spec.OffFaceError (e : LineInfo OffError) : Prop :=
  e.err = .FaceCount ∨ e.err = .Face ∨ e.err = .FaceVertexCount ∨ e.err = .InvalidMeshIndices

theorem offFetchFace_face (line : Bytes) (e : OffError) (h : offFetchFace line = .error e) : e = .Face ∨ e = .FaceVertexCount := by
  unfold offFetchFace at h
  split at h
  · cases h; exact .inr rfl
  · split at h
    · split at h
      · cases h
      · cases h; exact .inl rfl
    · cases h; exact .inr rfl

/-- what the iterator over points keeps of the state -/
def offView (s : OffMeshIter) : OffMeshIter := { s with counts := s.counts.map fun c => (c.1, 0) }

/-- the vertices are complete -/
def offAll (s : OffMeshIter) : Prop := ∃ c, s.counts = some c ∧ ¬s.nVerticesAdded < c.1

theorem offPointsLoop_all (T : FloatText α) : ∀ (ls : List Bytes) (s : OffMeshIter), offAll s → ∃ t', offPointsLoop T ls (offView s) = (none, t')
  | [], s, _ => ⟨_, rfl⟩
  | l :: ls, s, h => by
    obtain ⟨c, h1, h2⟩ := h
    unfold offPointsLoop
    dsimp only
    split
    · exact offPointsLoop_all T ls { s with lines := ls, iLine := s.iLine + 1, offSeen := true } ⟨c, h1, h2⟩
    · split
      · exact offPointsLoop_all T ls { s with lines := ls, iLine := s.iLine + 1 } ⟨c, h1, h2⟩
      · simp only [offPointsLine, offView, h1, Option.map_some, if_neg h2]
        exact ⟨_, rfl⟩

theorem offPointsLine_none (T : FloatText α) (line : Bytes) (s : OffMeshIter) (h : s.counts = none) : offPointsLine T line s =
    match nthNum parseNat (toWords line) 0 with
    | some n => (some (.ok (.reserve n 0)), { s with counts := some (n, 0) })
    | none => (some (.error (.line s.iLine line .VertexCount)), { s with isDone := true }) := by
  unfold offPointsLine
  rw [h]
  rcases nthNum parseNat (toWords line) 0 with _ | _ <;> rfl

theorem offPointsLine_lt (T : FloatText α) (line : Bytes) (s : OffMeshIter) (n k : Nat) (h : s.counts = some (n, k)) (hlt : s.nVerticesAdded < n) :
    offPointsLine T line s = match offFetchVertex T line with
      | .ok p => (some (.ok (.data p)), { s with nVerticesAdded := s.nVerticesAdded + 1 })
      | .error e => (some (.error (.line s.iLine line e)), { s with nVerticesAdded := s.nVerticesAdded + 1, isDone := true }) := by
  unfold offPointsLine
  rw [h]
  dsimp only
  rw [if_pos hlt]
  rcases offFetchVertex T line with _ | _ <;> rfl

theorem offLoop_agree (T : FloatText α) : ∀ (ls : List Bytes) (s : OffMeshIter) x s', s.isDone = false → offMeshLoop T ls s = (x, s') →
    match x with
    | none => ∃ t', offPointsLoop T ls (offView s) = (none, t')
    | some (.error e) => OffFaceError e ∨ ∃ t', offPointsLoop T ls (offView s) = (some (.error e), t')
    | some (.ok (.data p)) => offPointsLoop T ls (offView s) = (some (.ok (.data p)), offView s') ∧ s'.isDone = false
    | some (.ok (.face _ _ _)) => offAll s ∧ offAll s' ∧ s'.isDone = false
    | some (.ok (.reserve _ _)) => ∃ n k, offPointsLoop T ls (offView s) = (some (.ok (.reserve n k)), offView s') ∧ s'.isDone = false
  | [], s, x, s', hd, h => by
    cases h
    exact ⟨_, rfl⟩
  | l :: ls, s, x, s', hd, h => by
    unfold offMeshLoop at h
    have hloop : offPointsLoop T (l :: ls) (offView s) =
      if !s.offSeen && startsWith l b!"OFF" then offPointsLoop T ls (offView { s with lines := ls, iLine := s.iLine + 1, offSeen := true })
      else if l.isEmpty || startsWith l b!"#" then offPointsLoop T ls (offView { s with lines := ls, iLine := s.iLine + 1 })
      else offPointsLine T l (offView { s with lines := ls, iLine := s.iLine + 1 }) := rfl
    rw [hloop]
    dsimp only at h
    split at h
    · rename_i hc
      rw [if_pos hc]
      exact offLoop_agree T ls { s with lines := ls, iLine := s.iLine + 1, offSeen := true } x s' hd h
    · rename_i hc
      rw [if_neg hc]
      split at h
      · rename_i hc2
        rw [if_pos hc2]
        exact offLoop_agree T ls { s with lines := ls, iLine := s.iLine + 1 } x s' hd h
      · rename_i hc2
        rw [if_neg hc2]
        clear hloop hc hc2
        rcases hcs : s.counts with _ | ⟨nv, nf⟩
        · simp only [offMeshLine, hcs, offFetchCounts] at h
          rw [offPointsLine_none T l _ (by simp [offView])]
          rcases h0 : nthNum parseNat (toWords l) 0 with _ | n
          · rw [h0] at h
            cases h
            exact .inr ⟨_, rfl⟩
          · rw [h0] at h
            rcases h1 : nthNum parseNat (toWords l) 1 with _ | k
            · rw [h1] at h
              cases h
              exact .inl (.inl rfl)
            · rw [h1] at h
              cases h
              exact ⟨_, _, rfl, hd⟩
        · simp only [offMeshLine, hcs] at h
          by_cases hlt : s.nVerticesAdded < nv
          · rw [if_pos hlt] at h
            rw [offPointsLine_lt T l (offView { s with lines := ls, iLine := s.iLine + 1, counts := some (nv, nf) }) nv 0 rfl hlt]
            cases hf : offFetchVertex T l with
            | ok p =>
              rw [hf] at h
              cases h
              exact ⟨by simp [offView], hd⟩
            | error e =>
              rw [hf] at h
              cases h
              exact .inr ⟨_, rfl⟩
          · rw [if_neg hlt] at h
            rcases hf : offFetchFace l with e | ⟨a, b, c⟩
            · rw [hf] at h
              cases h
              rcases offFetchFace_face l e hf with rfl | rfl
              · exact .inl (.inr (.inl rfl))
              · exact .inl (.inr (.inr (.inl rfl)))
            · rw [hf] at h
              cases h
              exact ⟨⟨_, hcs, hlt⟩, ⟨_, rfl, hlt⟩, hd⟩

/-- in the faces, errors are about faces and no further vertex follows -/
theorem offLoop_all (T : FloatText α) : ∀ (ls : List Bytes) (s : OffMeshIter) x s', s.isDone = false → offAll s → offMeshLoop T ls s = (x, s') →
    match x with
    | none => True
    | some (.error e) => OffFaceError e
    | some (.ok (.face _ _ _)) => True
    | some (.ok _) => False
  | [], s, x, s', _, _, h => by cases h; trivial
  | l :: ls, s, x, s', hd, ha, h => by
    unfold offMeshLoop at h
    dsimp only at h
    split at h
    · exact offLoop_all T ls { s with lines := ls, iLine := s.iLine + 1, offSeen := true } x s' hd ha h
    · split at h
      · exact offLoop_all T ls { s with lines := ls, iLine := s.iLine + 1 } x s' hd ha h
      · obtain ⟨c, h1, h2⟩ := ha
        simp only [offMeshLine, h1, if_neg h2] at h
        rcases hf : offFetchFace l with e | ⟨a, b, c⟩
        · rw [hf] at h
          cases h
          rcases offFetchFace_face l e hf with rfl | rfl
          · exact .inr (.inl rfl)
          · exact .inr (.inr (.inl rfl))
        · rw [hf] at h
          cases h
          trivial

/-- **C120** for .off -/
theorem c120_off (T : FloatText α) (file : Bytes) (m : TMesh (Point3D α)) (x y) (hx : loadOffMesh T file m = some x)
    (hy : loadOffPoints T file = some y) : SameVertices OffFaceError m [] x y := by
  have hnext : ∀ t : OffMeshIter, t.isDone = false → offPointsNext T t = offPointsLoop T t.lines t := by
    intro t h; rw [offPointsNext, h]; rfl
  refine forEach_agree offPush_push OffFaceError (.inr (.inr (.inr rfl)))
    (fun s t : OffMeshIter => s.isDone = false ∧ (t = offView s ∨ (offAll s ∧ ∃ t', offPointsNext T t = (none, t')))) ?_ ?_ ?_ ?_ ?_ _ _ _ _ m [] x y
    ⟨rfl, .inl rfl⟩ hx hy
  · rintro s t s' ⟨h1, rfl | ⟨h2, t', h3⟩⟩ hn
    · simp only [offMeshNext, h1, Option.some.injEq] at hn
      obtain ⟨t', ht⟩ := offLoop_agree T _ _ _ _ h1 hn
      exact ⟨t', by rw [hnext (offView s) h1]; exact congrArg some ht⟩
    · exact ⟨t', by rw [h3]⟩
  · rintro s t e s' ⟨h1, rfl | ⟨h2, t', h3⟩⟩ hn
    · simp only [offMeshNext, h1, Option.some.injEq] at hn
      rcases offLoop_agree T _ _ _ _ h1 hn with h | ⟨t', ht⟩
      · exact .inl h
      · exact .inr ⟨t', by rw [hnext (offView s) h1]; exact congrArg some ht⟩
    · simp only [offMeshNext, h1, Option.some.injEq] at hn
      exact .inl (offLoop_all T _ _ _ _ h1 h2 hn)
  · rintro s t p s' ⟨h1, rfl | ⟨h2, t', h3⟩⟩ hn
    · simp only [offMeshNext, h1, Option.some.injEq] at hn
      obtain ⟨ht, hd⟩ := offLoop_agree T _ _ _ _ h1 hn
      exact ⟨offView s', by rw [hnext (offView s) h1]; exact congrArg some ht, hd, .inl rfl⟩
    · simp only [offMeshNext, h1, Option.some.injEq] at hn
      exact (offLoop_all T _ _ _ _ h1 h2 hn).elim
  · rintro s t a b c s' ⟨h1, rfl | ⟨h2, t', h3⟩⟩ hn
    · simp only [offMeshNext, h1, Option.some.injEq] at hn
      obtain ⟨ha, hb, hd⟩ := offLoop_agree T _ _ _ _ h1 hn
      obtain ⟨t', ht⟩ := offPointsLoop_all T s.lines s ha
      exact ⟨hd, .inr ⟨hb, t', by rw [hnext (offView s) h1]; exact ht⟩⟩
    · simp only [offMeshNext, h1, Option.some.injEq] at hn
      obtain ⟨ha, hb, hd⟩ := offLoop_agree T _ _ _ _ h1 hn
      exact ⟨hd, .inr ⟨hb, t', h3⟩⟩
  · rintro s t i j s' ⟨h1, rfl | ⟨h2, t', h3⟩⟩ hn
    · simp only [offMeshNext, h1, Option.some.injEq] at hn
      obtain ⟨n, k, ht, hd⟩ := offLoop_agree T _ _ _ _ h1 hn
      exact ⟨n, k, offView s', by rw [hnext (offView s) h1]; exact congrArg some ht, hd, .inl rfl⟩
    · simp only [offMeshNext, h1, Option.some.injEq] at hn
      exact (offLoop_all T _ _ _ _ h1 h2 hn).elim

/-! ### .ply -/

/-- the errors about faces: not declared, missing, malformed or referring to no vertex -/
def Spec.PlyFaceError (e : LineInfo PlyError) : Prop :=
  e = .none .LoadHeaderInvalid ∨ e = .none .AccessFile ∨ e.err = .FaceStructure ∨ e = .none .InvalidMeshIndices

theorem plyMeshFaces_agree (format : PlyFormat) (h : PlyFaceData) (c : PlyCursor) (x s') (he : plyMeshFaces format h c = (x, s')) :
    (∃ c', s' = .faces c') ∧
    match x with
    | none => True
    | some (.error e) => PlyFaceError e
    | some (.ok (.face _ _ _)) => True
    | some (.ok _) => False := by
  unfold plyMeshFaces at he
  rcases hf : plyFacesInner format h c with ⟨_ | e | ⟨i, j, k⟩, c'⟩
  · rw [hf] at he
    cases he
    exact ⟨⟨_, rfl⟩, trivial⟩
  · rw [hf] at he
    cases he
    refine ⟨⟨_, rfl⟩, ?_⟩
    show PlyFaceError e
    unfold plyFacesInner at hf
    split at hf
    · unfold plyAsciiFacesNext at hf
      split at hf
      · cases hf
      · split at hf
        · split at hf
          · split at hf
            · cases hf
            · cases hf
              exact .inr (.inr (.inl rfl))
          · cases hf
        · cases hf
    · rename_i en
      unfold plyBinaryFacesNext at hf
      split at hf
      · cases hf
      · split at hf
        · split at hf
          · rename_i e' rest hb
            cases hf
            unfold plyBinaryFace at hb
            split at hb
            · cases hb
              exact .inr (.inl rfl)
            · split at hb
              · cases hb
                exact .inr (.inr (.inl rfl))
              · split at hb
                · cases hb
                  exact .inr (.inl rfl)
                · cases hb
          · cases hf
        · cases hf
  · rw [hf] at he
    cases he
    exact ⟨⟨_, rfl⟩, trivial⟩

/-- **C120** for .ply -/
theorem c120_ply (T : FloatText F64) (file : Bytes) (m : TMesh PlyPoint) (ip : List PlyPoint) (x y) (hx : loadPlyMesh T file m = some x)
    (hy : loadPlyPoints T file ip = some y) : SameVertices PlyFaceError m ip x y := by
  unfold loadPlyMesh PlyMeshIter.new at hx
  unfold loadPlyPoints PlyPointsIter.new at hy
  rcases ho : plyLoadHeader file with _ | e | ⟨hd, rest, i⟩
  · rw [ho] at hx; cases hx
  · rw [ho] at hx hy
    cases hx
    cases hy
    exact ⟨[], [], by simp, by simp, fun h => (by cases h), fun e h => by cases h; exact .inr ⟨rfl, rfl⟩⟩
  · rw [ho] at hx hy
    dsimp only at hx hy
    rcases hf : hd.face with _ | f
    · rw [hf] at hx
      cases hx
      obtain ⟨w, hw⟩ := forEach_grows (fun m => List.prefix_refl m) (fun _ _ _ h1 h2 => h1.trans h2) pushItem_begins _ _ _ _ hy
      exact ⟨[], w, by simp, by simp [hw], fun h => (by cases h), fun e h => by cases h; exact .inl (.inl rfl)⟩
    · rw [hf] at hx
      dsimp only at hx
      refine forEach_agree plyPush_push PlyFaceError (.inr (.inr (.inr rfl)))
        (fun (s : PlyMeshIter) (t : PlyPointsIter) => s.format = hd.format ∧ s.vertex = hd.vertex ∧ t.format = hd.format ∧ t.vertex = hd.vertex ∧
          (s.toReserve = none ↔ t.toReserve = none) ∧
          (s.inner = .points t.inner ∨ (s.toReserve = none ∧ (∃ c, s.inner = .faces c) ∧ ∃ t', plyPointsNext T t = (none, t'))))
        ?_ ?_ ?_ ?_ ?_ _ _ _ _ m ip x y ⟨rfl, rfl, rfl, rfl, by simp, .inl rfl⟩ hx hy
      · rintro s t s' ⟨h1, h2, h3, h4, h5, h6 | ⟨h6, h7, t', h8⟩⟩ hn
        · simp only [Option.some.injEq] at hn ⊢
          unfold plyMeshNext at hn
          split at hn
          · cases hn
          · rename_i hr
            rcases hi : plyPointsInner T hd.format hd.vertex t.inner with ⟨_ | e | p, c⟩
            · exact ⟨{ t with inner := c }, by simp [plyPointsNext, h5.1 hr, h3, h4, hi, plyData]⟩
            · rw [h6, h1, h2] at hn
              simp only [plyMeshInner, hi] at hn
              cases hn
            · rw [h6, h1, h2] at hn
              simp only [plyMeshInner, hi] at hn
              cases hn
        · exact ⟨t', by rw [h8]⟩
      · rintro s t e s' ⟨h1, h2, h3, h4, h5, h6 | ⟨h6, ⟨c, h7⟩, t', h8⟩⟩ hn
        · simp only [Option.some.injEq] at hn ⊢
          unfold plyMeshNext at hn
          split at hn
          · cases hn
          · rename_i hr
            rw [h6, h1, h2] at hn
            rcases hi : plyPointsInner T hd.format hd.vertex t.inner with ⟨_ | e' | p, c⟩
            · simp only [plyMeshInner, hi] at hn
              rcases hm : plyMeshFaces hd.format s.face ⟨c.read, false, 0, c.iLine⟩ with ⟨x', c'⟩
              rw [hm] at hn
              cases hn
              exact .inl (plyMeshFaces_agree _ _ _ _ _ hm).2
            · simp only [plyMeshInner, hi] at hn
              cases hn
              exact .inr ⟨{ t with inner := c }, by simp [plyPointsNext, h5.1 hr, h3, h4, hi, plyData]⟩
            · simp only [plyMeshInner, hi] at hn
              cases hn
        · simp only [Option.some.injEq, plyMeshNext, h6, h7, h1, h2, plyMeshInner] at hn
          rcases hm : plyMeshFaces hd.format s.face c with ⟨x', c'⟩
          rw [hm] at hn
          cases hn
          exact .inl (plyMeshFaces_agree _ _ _ _ _ hm).2
      · rintro s t p s' ⟨h1, h2, h3, h4, h5, h6 | ⟨h6, ⟨c, h7⟩, t', h8⟩⟩ hn
        · simp only [Option.some.injEq] at hn ⊢
          unfold plyMeshNext at hn
          split at hn
          · cases hn
          · rename_i hr
            rw [h6, h1, h2] at hn
            rcases hi : plyPointsInner T hd.format hd.vertex t.inner with ⟨_ | e' | q, c⟩
            · simp only [plyMeshInner, hi] at hn
              rcases hm : plyMeshFaces hd.format s.face ⟨c.read, false, 0, c.iLine⟩ with ⟨x', c'⟩
              rw [hm] at hn
              cases hn
              exact (plyMeshFaces_agree _ _ _ _ _ hm).2.elim
            · simp only [plyMeshInner, hi] at hn
              cases hn
            · simp only [plyMeshInner, hi] at hn
              cases hn
              exact ⟨{ t with inner := c }, by simp [plyPointsNext, h5.1 hr, h3, h4, hi, plyData], rfl, rfl, h3, h4, h5, .inl rfl⟩
        · simp only [Option.some.injEq, plyMeshNext, h6, h7, h1, h2, plyMeshInner] at hn
          rcases hm : plyMeshFaces hd.format s.face c with ⟨x', c'⟩
          rw [hm] at hn
          cases hn
          exact (plyMeshFaces_agree _ _ _ _ _ hm).2.elim
      · rintro s t a b c s' ⟨h1, h2, h3, h4, h5, h6 | ⟨h6, ⟨cu, h7⟩, t', h8⟩⟩ hn
        · simp only [Option.some.injEq] at hn ⊢
          unfold plyMeshNext at hn
          split at hn
          · cases hn
          · rename_i hr
            rw [h6, h1, h2] at hn
            rcases hi : plyPointsInner T hd.format hd.vertex t.inner with ⟨_ | e' | q, cu⟩
            · simp only [plyMeshInner, hi] at hn
              rcases hm : plyMeshFaces hd.format s.face ⟨cu.read, false, 0, cu.iLine⟩ with ⟨x', c'⟩
              rw [hm] at hn
              cases hn
              exact ⟨rfl, rfl, h3, h4, h5, .inr ⟨hr, (plyMeshFaces_agree _ _ _ _ _ hm).1,
                { t with inner := cu }, by simp [plyPointsNext, h5.1 hr, h3, h4, hi, plyData]⟩⟩
            · simp only [plyMeshInner, hi] at hn
              cases hn
            · simp only [plyMeshInner, hi] at hn
              cases hn
        · simp only [Option.some.injEq, plyMeshNext, h6, h7, h1, h2, plyMeshInner] at hn
          rcases hm : plyMeshFaces hd.format s.face cu with ⟨x', c'⟩
          rw [hm] at hn
          cases hn
          exact ⟨rfl, rfl, h3, h4, by simpa [h6] using h5, .inr ⟨rfl, (plyMeshFaces_agree _ _ _ _ _ hm).1, t', h8⟩⟩
      · rintro s t i j s' ⟨h1, h2, h3, h4, h5, h6 | ⟨h6, ⟨c, h7⟩, t', h8⟩⟩ hn
        · simp only [Option.some.injEq] at hn ⊢
          unfold plyMeshNext at hn
          split at hn
          · rename_i n k hr
            cases hn
            obtain ⟨nt, hnt⟩ : ∃ nt, t.toReserve = some nt := by
              rcases htr : t.toReserve with _ | nt
              · rw [h5.2 htr] at hr; cases hr
              · exact ⟨nt, rfl⟩
            exact ⟨nt, 0, { t with toReserve := none }, by simp [plyPointsNext, hnt], h1, h2, h3, h4, by simp, .inl h6⟩
          · rename_i hr
            rw [h6, h1, h2] at hn
            rcases hi : plyPointsInner T hd.format hd.vertex t.inner with ⟨_ | e' | q, c⟩
            · simp only [plyMeshInner, hi] at hn
              rcases hm : plyMeshFaces hd.format s.face ⟨c.read, false, 0, c.iLine⟩ with ⟨x', c'⟩
              rw [hm] at hn
              cases hn
              exact (plyMeshFaces_agree _ _ _ _ _ hm).2.elim
            · simp only [plyMeshInner, hi] at hn
              cases hn
            · simp only [plyMeshInner, hi] at hn
              cases hn
        · simp only [Option.some.injEq, plyMeshNext, h6, h7, h1, h2, plyMeshInner] at hn
          rcases hm : plyMeshFaces hd.format s.face c with ⟨x', c'⟩
          rw [hm] at hn
          cases hn
          exact (plyMeshFaces_agree _ _ _ _ _ hm).2.elim

/-- a loop over the items of a wrapped iterator -/
theorem forEach_wrap {μ ι : Type} {next : σ → Panics (Option (Except ε ι) × σ)} {next' : τ → Panics (Option (Except ε ι) × τ)}
    {push : μ → ι → μ × Except ε Unit} (f : σ → τ) (h : ∀ s, next' (f s) = (next s).map fun r => (r.1, f r.2)) :
    ∀ (n : Nat) (s : σ) (m : μ), forEach next' push n (f s) m = forEach next push n s m
  | 0, _, _ => rfl
  | n + 1, s, m => by
    unfold forEach
    rw [h]
    rcases next s with _ | ⟨_ | e | a, s'⟩
    · rfl
    · rfl
    · rfl
    · simp only [Option.map_some]
      rcases push m a with ⟨m', e | u⟩
      · rfl
      · exact forEach_wrap f h n s' m'

/-- **C120**: the loader that finds out whether a .ply file has faces does what one of the others does: that of meshes, or, if the
header declares no faces (which that one reports), that of points. -/
theorem c120_either (T : FloatText F64) (file : Bytes) (m : TMesh PlyPoint) (ip : List PlyPoint) (x y) (hx : loadPlyMesh T file m = some x)
    (hy : loadPlyPoints T file ip = some y) :
    loadPlyEither T file m ip = some (x.1, ip, x.2.map fun _ => .Mesh) ∨
    (x = (m, .error (.none .LoadHeaderInvalid)) ∧ loadPlyEither T file m ip = some (m, y.1, y.2.map fun _ => .Points)) := by
  unfold loadPlyMesh PlyMeshIter.new at hx
  unfold loadPlyPoints PlyPointsIter.new at hy
  unfold loadPlyEither
  rcases ho : plyLoadHeader file with _ | e | ⟨hd, rest, i⟩
  · rw [ho] at hx; cases hx
  · rw [ho] at hx
    cases hx
    exact .inl rfl
  · rw [ho] at hx hy
    dsimp only at hx hy ⊢
    rcases hf : hd.face with _ | f
    · rw [hf] at hx
      cases hx
      refine .inr ⟨rfl, ?_⟩
      have h1 : forEach (fun s => some (plyPointsNext T s)) pushItem (file.length + 2)
          (⟨hd.format, hd.vertex, ⟨rest, false, 0, i⟩, none⟩ : PlyPointsIter) ip = some y := hy
      rw [forEach_wrap (fun c => (⟨hd.format, hd.vertex, c, none⟩ : PlyPointsIter))
        (next := fun s => let r := plyPointsInner T hd.format hd.vertex s; some (plyData r.1, r.2)) (fun _ => rfl)] at h1
      dsimp only
      rw [forEach_fuel 1 _ _ _ _ h1]
      rfl
    · rw [hf] at hx
      refine .inl ?_
      have h1 : forEach (fun s => some (plyMeshNext T s)) plyPush (file.length + 2)
          (⟨hd.format, hd.vertex, f, .points ⟨rest, false, 0, i⟩, none⟩ : PlyMeshIter) m = some x := hx
      rw [forEach_wrap (fun c => (⟨hd.format, hd.vertex, f, c, none⟩ : PlyMeshIter))
        (next := fun s => some (plyMeshInner T hd.format hd.vertex f s)) (fun _ => rfl)] at h1
      dsimp only
      rw [forEach_fuel 1 _ _ _ _ h1]
      rfl

/-! ### .stl -/

/-- **C120** for .stl: the separate triangles are the triplets with consecutive indices, the normals and the end are the same -/
theorem c120_stl (T : FloatText F64) (file : Bytes) (format : StlFormat) (m : TMesh StlPoint) (ns : List StlPoint) :
    ∃ pts normals r, loadStlTriplets T file format m.verts ns = some ((pts, normals), r) ∧
      loadStlMeshDuped T file format m ns = some ((⟨pts, m.faces ++ (List.range (normals.length - ns.length)).map fun i =>
        ⟨m.verts.length + 3 * i, m.verts.length + 3 * i + 1, m.verts.length + 3 * i + 2⟩⟩, normals), r) ∧
      pts.length = m.verts.length + 3 * (normals.length - ns.length) ∧ ns.length ≤ normals.length := by
  obtain ⟨⟨fs, r, h⟩, h2⟩ := c63_loaders T file format
  obtain ⟨h3, h4⟩ := h2 fs r h
  refine ⟨_, _, r, h3 _ _, ?_, ?_, ?_⟩
  · rw [h4]
    simp [dupedMesh]
  · have : ∀ fs : List (StlFace StlPoint), (fs.flatMap corners).length = 3 * fs.length := by
      intro fs
      induction fs with
      | nil => rfl
      | cons f fs ih => rw [List.flatMap_cons, List.length_append, ih, List.length_cons]; simp [corners]; omega
    simp [this]
  · simp

/-- and with unified corners: the same triangles without those two corners of which are the same, their normals and the same end -/
theorem c120_unique (same : StlPoint → StlPoint → Bool) (hsymm : ∀ p q, same p q = true → same q p = true)
    (htrans : ∀ p q r, same p q = true → same q r = true → same p r = true) (T : FloatText F64) (file : Bytes) (format : StlFormat)
    (m : TMesh StlPoint) (ns : List StlPoint) :
    ∃ (ts : List (StlFace StlPoint)) (r : Except (LineInfo StlError) Unit) (vs : List StlPoint) (faces : List Face3),
      loadStlMeshDuped T file format m ns = some ((dupedMesh m ts, ns ++ ts.map StlFace.n), r) ∧
      loadStlMeshUnique same T file format m ns =
        some ((⟨m.verts ++ vs, m.faces ++ faces⟩, ns ++ (ts.filter fun t => !degenerate same t).map StlFace.n), r) ∧
      List.Forall₂ (FaceIs same m.verts.length vs) (ts.filter fun t => !degenerate same t) faces := by
  obtain ⟨⟨ts, r, h⟩, h2⟩ := c63_loaders T file format
  obtain ⟨vs, faces, h3, -, -, h4⟩ := c66_unique same hsymm htrans T file format ts r h m ns
  exact ⟨ts, r, vs, faces, (h2 ts r h).2 m ns, h3, h4⟩

/-! ### examples -/

/-- a malformed face stops the mesh, the points go on -/
example : loadObjMesh natText b!"v 1 2 3\nf 1 x 2\nv 4 5 6\n" ⟨[], []⟩ =
      some (⟨[⟨1, 2, 3⟩], []⟩, .error (.line 2 b!"f 1 x 2" .Face)) ∧
    loadObjPoints natText b!"v 1 2 3\nf 1 x 2\nv 4 5 6\n" = some ([⟨1, 2, 3⟩, ⟨4, 5, 6⟩], .ok ()) := by decide +kernel

/-- a malformed vertex stops both -/
example : loadOffMesh natText b!"OFF\n2 1 0\n1 2 3\n4 x 6\n3 0 1 2\n" ⟨[], []⟩ =
      some (⟨[⟨1, 2, 3⟩], []⟩, .error (.line 4 b!"4 x 6" .Vertex)) ∧
    loadOffPoints natText b!"OFF\n2 1 0\n1 2 3\n4 x 6\n3 0 1 2\n" = some ([⟨1, 2, 3⟩], .error (.line 4 b!"4 x 6" .Vertex)) := by
  decide +kernel

/-- points only: the loader of meshes refuses what that of either kind loads -/
example : ∃ file p, loadPlyMesh natF64 file ⟨[], []⟩ = some (⟨[], []⟩, .error (.none .LoadHeaderInvalid)) ∧
    loadPlyPoints natF64 file [] = some ([p], .ok ()) ∧ loadPlyEither natF64 file ⟨[], []⟩ [] = some (⟨[], []⟩, [p], .ok .Points) :=
  ⟨b!"ply\nformat ascii 1.0\nelement vertex 1\nproperty float x\nproperty float y\nproperty float z\nend_header\n1 2 3\n",
    ⟨F64.ofRat 1, F64.ofRat 2, F64.ofRat 3⟩, by decide +kernel, by decide +kernel, by decide +kernel⟩

end R3D

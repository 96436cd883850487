import Verif.Props.LayoutWords
/-!
C132 for the headers of .ply files: comments do not matter, wherever they are.
-/
namespace R3D
open Spec

/-- lines of the header of a .ply file that are neither comments nor information on objects -/
def Spec.plyMatters (c : Bytes) : Bool := !(b!"comment".isPrefixOf (trimEnd c) || b!"obj_info".isPrefixOf (trimEnd c))

/-- what the header says, where the data starts, and which error is reported, but for the number and the text of the line -/
def headerOutcome (r : Panics (Except (LineInfo PlyError) (PlyHeader × Bytes × Nat))) : Option (Except PlyError (PlyHeader × Bytes)) :=
  r.map fun r => (r.map fun x => (x.1, x.2.1)).mapError LineInfo.err

theorem plyHeader_comments (body : Bytes) : ∀ (cs : List Bytes), (∀ c ∈ cs, (10 : UInt8) ∉ c) → (∀ c ∈ cs, trimEnd c ≠ b!"end_header") →
    ∀ (n n' i i' : Nat) (s : PlyHeaderState), (textOf cs ++ (b!"end_header" ++ 10 :: body)).length < n →
      (textOf (cs.filter plyMatters) ++ (b!"end_header" ++ 10 :: body)).length < n' →
      headerOutcome (plyHeaderLoop n (textOf cs ++ (b!"end_header" ++ 10 :: body)) i s) =
        headerOutcome (plyHeaderLoop n' (textOf (cs.filter plyMatters) ++ (b!"end_header" ++ 10 :: body)) i' s)
  | [], _, _ => by
    intro n n' i i' s hn hn'
    obtain ⟨n, rfl⟩ : ∃ k, n = k + 1 := ⟨n - 1, by omega⟩
    obtain ⟨n', rfl⟩ : ∃ k, n' = k + 1 := ⟨n' - 1, by omega⟩
    have e : fetchLine (b!"end_header" ++ 10 :: body) = some (b!"end_header", body) := by
      rw [fetchLine_line _ _ (by decide)]
      rfl
    simp only [List.filter_nil, textOf, List.flatMap_nil, List.nil_append]
    rw [plyHeaderLoop, plyHeaderLoop, e]
    simp only
    rcases hl : plyHeaderLine b!"end_header" s with _ | x | st | h
    · rfl
    · rfl
    · exact absurd hl (by
        have h1 : startsWith b!"end_header" b!"comment" = false := by decide
        have h2 : startsWith b!"end_header" b!"obj_info" = false := by decide
        have h3 : startsWith b!"end_header" b!"property" = false := by decide
        have h4 : startsWith b!"end_header" b!"element vertex" = false := by decide
        have h5 : startsWith b!"end_header" b!"element face" = false := by decide
        have h6 : b!"end_header" ≠ b!"ply" := by decide
        have h7 : plyFormatLine b!"end_header" = .error .LoadFormatNotFound := by decide
        unfold plyHeaderLine plyHeaderRest
        rw [h1, h2, h3, h4, h5, h7]
        simp only [Bool.false_eq_true, if_false, if_neg h6, and_false]
        split
        · simp
        · split
          · simp
          · split
            · rcases plyEndHeader s with _ | _ <;> simp [Except.map]
            · simp)
    · rfl
  | c :: cs, hc, he => by
    intro n n' i i' s hn hn'
    have ih := plyHeader_comments body cs (fun x hx => hc x (by simp [hx])) (fun x hx => he x (by simp [hx]))
    obtain ⟨n, rfl⟩ : ∃ k, n = k + 1 := ⟨n - 1, by omega⟩
    have e1 : ∀ cs : List Bytes, textOf (c :: cs) ++ (b!"end_header" ++ 10 :: body) = c ++ 10 :: (textOf cs ++ (b!"end_header" ++ 10 :: body)) := by
      intro cs
      simp [textOf]
    have e2 : ∀ u, fetchLine (c ++ 10 :: u) = some (trimEnd c, u) := by
      intro u
      rw [fetchLine_line _ _ (hc c (by simp)), ← cleanLine_trimEnd]
    rw [e1] at hn ⊢
    have hn2 : (textOf cs ++ (b!"end_header" ++ 10 :: body)).length < n := by
      rw [List.length_append, List.length_cons] at hn
      omega
    rw [plyHeaderLoop, e2]
    simp only
    by_cases hm : plyMatters c = true
    · rw [List.filter_cons_of_pos hm, e1] at hn' ⊢
      obtain ⟨n', rfl⟩ : ∃ k, n' = k + 1 := ⟨n' - 1, by omega⟩
      have hn3 : (textOf (cs.filter plyMatters) ++ (b!"end_header" ++ 10 :: body)).length < n' := by
        rw [List.length_append, List.length_cons] at hn'
        omega
      rw [plyHeaderLoop, e2]
      simp only
      rcases hl : plyHeaderLine (trimEnd c) s with _ | x | st | h
      · rfl
      · rfl
      · exact ih n n' (i + 1) (i' + 1) st hn2 hn3
      · exact absurd (plyHeaderLine_done hl) (he c (by simp))
    · rw [List.filter_cons_of_neg (by simpa using hm)] at hn' ⊢
      have : plyHeaderLine (trimEnd c) s = some (.ok (.next s)) := by
        have hm' : (b!"comment".isPrefixOf (trimEnd c) || b!"obj_info".isPrefixOf (trimEnd c)) = true := by
          unfold plyMatters at hm
          rwa [Bool.not_eq_true, Bool.not_eq_false'] at hm
        unfold plyHeaderLine
        rcases Bool.or_eq_true _ _ ▸ hm' with h | h
        · rw [if_pos (by unfold startsWith; exact h)]
        · by_cases h1 : startsWith (trimEnd c) b!"comment" = true
          · rw [if_pos h1]
          · rw [if_neg h1, if_pos (by unfold startsWith; exact h)]
      rw [this]
      exact ih n n' (i + 1) i' s hn2 hn'

/-! ### the data -/

/-- at the same place, but for the number of the line -/
def PlyPlace (s t : PlyCursor) : Prop := s.read = t.read ∧ s.isDone = t.isDone ∧ s.current = t.current

/-- the same next results, but for the number of the line -/
def PlaceStep {β σ : Type} (R : σ → σ → Prop) (x y : Option (Except (LineInfo PlyError) β) × σ) : Prop :=
  R x.2 y.2 ∧ ((x.1 = none ∧ y.1 = none) ∨ (∃ e e', x.1 = some (.error e) ∧ y.1 = some (.error e') ∧ LineInfo.err e = LineInfo.err e') ∨
    ∃ a, x.1 = some (.ok a) ∧ y.1 = some (.ok a))

theorem plyPoints_place (T : FloatText F64) (f : PlyFormat) (h : PlyVertexData) {s t : PlyCursor} (hs : PlyPlace s t) :
    PlaceStep PlyPlace (plyPointsInner T f h s) (plyPointsInner T f h t) := by
  obtain ⟨sr, sd, sc, si⟩ := s
  obtain ⟨tr, td, tc, ti⟩ := t
  obtain ⟨h1, h2, h3⟩ := hs
  simp only at h1 h2 h3
  subst h1 h2 h3
  rcases f with _ | e
  · unfold plyPointsInner plyAsciiPointsNext plyAsciiPointsEnd
    simp only
    by_cases hd : sd = true
    · rw [if_pos hd, if_pos hd]; exact ⟨⟨rfl, rfl, rfl⟩, .inl ⟨rfl, rfl⟩⟩
    · rw [if_neg hd, if_neg hd]
      by_cases hc : sc < h.count
      · rw [if_pos hc, if_pos hc]
        rcases fetchLine sr with _ | ⟨l, r⟩
        · simp only
          by_cases hq : sc + 1 ≠ h.count
          · rw [if_pos hq, if_pos hq]; exact ⟨⟨rfl, rfl, rfl⟩, .inr (.inl ⟨_, _, rfl, rfl, rfl⟩)⟩
          · rw [if_neg hq, if_neg hq]; exact ⟨⟨rfl, rfl, rfl⟩, .inl ⟨rfl, rfl⟩⟩
        · simp only
          rcases plyAsciiVertex T h l with x | p
          · exact ⟨⟨rfl, rfl, rfl⟩, .inr (.inl ⟨_, _, rfl, rfl, rfl⟩)⟩
          · exact ⟨⟨rfl, rfl, rfl⟩, .inr (.inr ⟨_, rfl, rfl⟩)⟩
      · rw [if_neg hc, if_neg hc]
        by_cases hq : sc ≠ h.count
        · rw [if_pos hq, if_pos hq]; exact ⟨⟨rfl, rfl, rfl⟩, .inr (.inl ⟨_, _, rfl, rfl, rfl⟩)⟩
        · rw [if_neg hq, if_neg hq]; exact ⟨⟨rfl, rfl, rfl⟩, .inl ⟨rfl, rfl⟩⟩
  · unfold plyPointsInner plyBinaryPointsNext
    simp only
    by_cases hd : sd = true
    · rw [if_pos hd, if_pos hd]; exact ⟨⟨rfl, rfl, rfl⟩, .inl ⟨rfl, rfl⟩⟩
    · rw [if_neg hd, if_neg hd]
      by_cases hc : sc < h.count
      · rw [if_pos hc, if_pos hc]
        rcases plyBinaryVertex e h sr with _ | ⟨p, r⟩
        · exact ⟨⟨rfl, rfl, rfl⟩, .inr (.inl ⟨_, _, rfl, rfl, rfl⟩)⟩
        · exact ⟨⟨rfl, rfl, rfl⟩, .inr (.inr ⟨_, rfl, rfl⟩)⟩
      · rw [if_neg hc, if_neg hc]; exact ⟨⟨rfl, rfl, rfl⟩, .inl ⟨rfl, rfl⟩⟩

theorem plyFaces_place (f : PlyFormat) (h : PlyFaceData) {s t : PlyCursor} (hs : PlyPlace s t) :
    PlaceStep PlyPlace (plyFacesInner f h s) (plyFacesInner f h t) := by
  obtain ⟨sr, sd, sc, si⟩ := s
  obtain ⟨tr, td, tc, ti⟩ := t
  obtain ⟨h1, h2, h3⟩ := hs
  simp only at h1 h2 h3
  subst h1 h2 h3
  rcases f with _ | e
  · unfold plyFacesInner plyAsciiFacesNext
    simp only
    by_cases hd : sd = true
    · rw [if_pos hd, if_pos hd]; exact ⟨⟨rfl, rfl, rfl⟩, .inl ⟨rfl, rfl⟩⟩
    · rw [if_neg hd, if_neg hd]
      by_cases hc : sc < h.count
      · rw [if_pos hc, if_pos hc]
        rcases fetchLine sr with _ | ⟨l, r⟩
        · exact ⟨⟨rfl, rfl, rfl⟩, .inl ⟨rfl, rfl⟩⟩
        · simp only
          rcases plyIndexLine l with _ | p
          · exact ⟨⟨rfl, rfl, rfl⟩, .inr (.inl ⟨_, _, rfl, rfl, rfl⟩)⟩
          · exact ⟨⟨rfl, rfl, rfl⟩, .inr (.inr ⟨_, rfl, rfl⟩)⟩
      · rw [if_neg hc, if_neg hc]; exact ⟨⟨rfl, rfl, rfl⟩, .inl ⟨rfl, rfl⟩⟩
  · unfold plyFacesInner plyBinaryFacesNext
    simp only
    by_cases hd : sd = true
    · rw [if_pos hd, if_pos hd]; exact ⟨⟨rfl, rfl, rfl⟩, .inl ⟨rfl, rfl⟩⟩
    · rw [if_neg hd, if_neg hd]
      by_cases hc : sc < h.count
      · rw [if_pos hc, if_pos hc]
        rcases plyBinaryFace e h sr with ⟨_ | p, r⟩
        · exact ⟨⟨rfl, rfl, rfl⟩, .inr (.inl ⟨_, _, rfl, rfl, rfl⟩)⟩
        · exact ⟨⟨rfl, rfl, rfl⟩, .inr (.inr ⟨_, rfl, rfl⟩)⟩
      · rw [if_neg hc, if_neg hc]; exact ⟨⟨rfl, rfl, rfl⟩, .inl ⟨rfl, rfl⟩⟩

/-- the same for meshes -/
def MeshPlace : PlyMeshCursor → PlyMeshCursor → Prop
  | .points s, .points t => PlyPlace s t
  | .faces s, .faces t => PlyPlace s t
  | _, _ => False

theorem plyMeshFaces_place (f : PlyFormat) (h : PlyFaceData) {s t : PlyCursor} (hs : PlyPlace s t) :
    PlaceStep MeshPlace (plyMeshFaces f h s) (plyMeshFaces f h t) := by
  unfold plyMeshFaces
  obtain ⟨h1, h2⟩ := plyFaces_place f h hs
  rcases ex : plyFacesInner f h s with ⟨x, s'⟩
  rcases ey : plyFacesInner f h t with ⟨y, t'⟩
  rw [ex, ey] at h1 h2
  rcases h2 with ⟨q1, q2⟩ | ⟨e, e', q1, q2, q3⟩ | ⟨⟨a, b, c⟩, q1, q2⟩ <;> simp only at q1 q2 <;> subst q1 q2
  · exact ⟨h1, .inl ⟨rfl, rfl⟩⟩
  · exact ⟨h1, .inr (.inl ⟨_, _, rfl, rfl, q3⟩)⟩
  · exact ⟨h1, .inr (.inr ⟨_, rfl, rfl⟩)⟩

theorem plyMesh_place (T : FloatText F64) (f : PlyFormat) (hv : PlyVertexData) (hf : PlyFaceData) {s t : PlyMeshCursor} (hs : MeshPlace s t) :
    PlaceStep MeshPlace (plyMeshInner T f hv hf s) (plyMeshInner T f hv hf t) := by
  rcases s with s | s <;> rcases t with t | t
  · unfold plyMeshInner
    simp only
    obtain ⟨h1, h2⟩ := plyPoints_place T f hv (s := s) (t := t) hs
    rcases ex : plyPointsInner T f hv s with ⟨x, s'⟩
    rcases ey : plyPointsInner T f hv t with ⟨y, t'⟩
    rw [ex, ey] at h1 h2
    rcases h2 with ⟨q1, q2⟩ | ⟨e, e', q1, q2, q3⟩ | ⟨a, q1, q2⟩ <;> simp only at q1 q2 <;> subst q1 q2
    · exact plyMeshFaces_place f hf ⟨h1.1, rfl, rfl⟩
    · exact ⟨h1, .inr (.inl ⟨_, _, rfl, rfl, q3⟩)⟩
    · exact ⟨h1, .inr (.inr ⟨_, rfl, rfl⟩)⟩
  · exact hs.elim
  · exact hs.elim
  · exact plyMeshFaces_place f hf hs

theorem plyMesh_sameStep (T : FloatText F64) (f : PlyFormat) (hv : PlyVertexData) (hf : PlyFaceData) (s t : PlyMeshCursor) (hs : MeshPlace s t) :
    SameStep MeshPlace (fun s => s.read.length) (fun s => s.read.length) s t (plyMeshInner T f hv hf s) (plyMeshInner T f hv hf t) := by
  obtain ⟨h1, h2⟩ := plyMesh_place T f hv hf hs
  rcases ex : plyMeshInner T f hv hf s with ⟨x, s'⟩
  rcases ey : plyMeshInner T f hv hf t with ⟨y, t'⟩
  rw [ex, ey] at h1 h2
  rcases h2 with ⟨q1, q2⟩ | ⟨e, e', q1, q2, q3⟩ | ⟨a, q1, q2⟩ <;> simp only at q1 q2 <;> subst q1 q2
  · exact .inl ⟨_, _, rfl, rfl⟩
  · exact .inr (.inl ⟨_, _, _, _, rfl, rfl, q3⟩)
  · exact .inr (.inr ⟨_, _, _, rfl, rfl, h1, (plyMeshInner_shorter _ _ _ _ _ _ _ ex).1, (plyMeshInner_shorter _ _ _ _ _ _ _ ey).1⟩)

theorem plyPoints_sameStep (T : FloatText F64) (f : PlyFormat) (hv : PlyVertexData) (s t : PlyCursor) (hs : PlyPlace s t) :
    SameStep PlyPlace (fun s => s.read.length) (fun s => s.read.length) s t
      (let r := plyPointsInner T f hv s; (plyData r.1, r.2)) (let r := plyPointsInner T f hv t; (plyData r.1, r.2)) := by
  obtain ⟨h1, h2⟩ := plyPoints_place T f hv hs
  rcases ex : plyPointsInner T f hv s with ⟨x, s'⟩
  rcases ey : plyPointsInner T f hv t with ⟨y, t'⟩
  rw [ex, ey] at h1 h2
  rcases h2 with ⟨q1, q2⟩ | ⟨e, e', q1, q2, q3⟩ | ⟨a, q1, q2⟩ <;> simp only at q1 q2 <;> subst q1 q2
  · exact .inl ⟨_, _, rfl, rfl⟩
  · exact .inr (.inl ⟨_, _, _, _, rfl, rfl, q3⟩)
  · exact .inr (.inr ⟨_, _, _, rfl, rfl, h1, (plyPointsInner_shorter _ _ _ _ _).1 _ ex, (plyPointsInner_shorter _ _ _ _ _).1 _ ey⟩)

/-- two files whose headers say the same and are followed by the same data -/
theorem ply_outcome (T : FloatText F64) {s t : Bytes} (h : headerOutcome (plyLoadHeader s) = headerOutcome (plyLoadHeader t)) (m : TMesh PlyPoint)
    (ip : List PlyPoint) : outcome (loadPlyMesh T s m) = outcome (loadPlyMesh T t m) ∧ outcome (loadPlyPoints T s ip) = outcome (loadPlyPoints T t ip) ∧
    (loadPlyEither T s m ip).map (fun r => (r.1, r.2.1, r.2.2.mapError LineInfo.err)) =
      (loadPlyEither T t m ip).map (fun r => (r.1, r.2.1, r.2.2.mapError LineInfo.err)) := by
  unfold loadPlyMesh loadPlyPoints loadPlyEither PlyMeshIter.new PlyPointsIter.new
  rcases h1 : plyLoadHeader s with _ | x | ⟨h0, r, i⟩ <;> rcases h2 : plyLoadHeader t with _ | y | ⟨h', r', j⟩ <;> rw [h1, h2] at h <;>
    simp only [headerOutcome, Option.map_none, Option.map_some, Except.map, Except.mapError, Option.some.injEq, Except.error.injEq, Except.ok.injEq, Prod.mk.injEq, reduceCtorEq] at h
  · exact ⟨rfl, rfl, rfl⟩
  · refine ⟨?_, ?_, ?_⟩ <;> simp [outcome, Except.mapError, h]
  · obtain ⟨rfl, rfl⟩ := h
    have l1 : r.length < s.length := plyHeaderLoop_length _ _ _ _ _ _ _ h1
    have l2 : r.length < t.length := plyHeaderLoop_length _ _ _ _ _ _ _ h2
    dsimp only
    have hmesh : ∀ f n n', r.length + 1 < n → r.length + 1 < n' →
        outcome (forEach (fun s => some (plyMeshInner T h0.format h0.vertex f s)) plyPush n (.points ⟨r, false, 0, i⟩) m) =
        outcome (forEach (fun s => some (plyMeshInner T h0.format h0.vertex f s)) plyPush n' (.points ⟨r, false, 0, j⟩) m) := by
      intro f n n' hn hn'
      exact forEach_sameStep (R := MeshPlace) (fun s => s.read.length) (fun s => s.read.length) (plyMesh_sameStep T h0.format h0.vertex f) _ _ _ _ _
        ⟨rfl, rfl, rfl⟩ (by simp only [PlyMeshCursor.read]; omega) (by simp only [PlyMeshCursor.read]; omega)
    have hpoints : ∀ n n', r.length + 1 < n → r.length + 1 < n' →
        outcome (forEach (fun s => let r := plyPointsInner T h0.format h0.vertex s; some (plyData r.1, r.2)) pushItem n ⟨r, false, 0, i⟩ ip) =
        outcome (forEach (fun s => let r := plyPointsInner T h0.format h0.vertex s; some (plyData r.1, r.2)) pushItem n' ⟨r, false, 0, j⟩ ip) := by
      intro n n' hn hn'
      exact forEach_sameStep (R := PlyPlace) (fun s => s.read.length) (fun s => s.read.length) (plyPoints_sameStep T h0.format h0.vertex) _ _ _ _ _
        ⟨rfl, rfl, rfl⟩ (by dsimp only; omega) (by dsimp only; omega)
    have hmap : ∀ {μ : Type} (x y : Panics (μ × Except (LineInfo PlyError) Unit)) (g : μ → TMesh PlyPoint) (k : μ → List PlyPoint) (w : MeshOrPoints), outcome x = outcome y →
        (x.map fun r => (g r.1, k r.1, r.2.map fun _ => w)).map (fun r => (r.1, r.2.1, r.2.2.mapError LineInfo.err)) =
        (y.map fun r => (g r.1, k r.1, r.2.map fun _ => w)).map (fun r => (r.1, r.2.1, r.2.2.mapError LineInfo.err)) := by
      intro μ x y g k w hxy
      rcases x with _ | ⟨a, _ | _⟩ <;> rcases y with _ | ⟨b, _ | _⟩ <;>
        simp only [outcome, Option.map_none, Option.map_some, Except.map, Except.mapError, Option.some.injEq, Except.error.injEq, Prod.mk.injEq, reduceCtorEq, and_false] at hxy ⊢
      · obtain ⟨rfl, h2⟩ := hxy
        exact ⟨rfl, rfl, h2⟩
      · rw [hxy.1]; exact ⟨rfl, rfl, trivial⟩
    refine ⟨?_, ?_, ?_⟩
    · cases h0.face with
      | none => rfl
      | some f =>
        dsimp only
        have hw : ∀ n c, forEach (fun s => some (plyMeshNext T s)) plyPush (n + 1) ⟨h0.format, h0.vertex, f, c, some (h0.vertex.count, f.count)⟩ m =
            forEach (fun s => some (plyMeshInner T h0.format h0.vertex f s)) plyPush n c m := by
          intro n c
          show forEach (fun s => some (plyMeshNext T s)) plyPush n ⟨h0.format, h0.vertex, f, c, none⟩ m = _
          exact forEach_wrap (fun c => (⟨h0.format, h0.vertex, f, c, none⟩ : PlyMeshIter)) (fun c => rfl) n c m
        rw [hw, hw, hmesh f (s.length + 2) (t.length + 2) (by omega) (by omega)]
    · have hw : ∀ n c, forEach (fun s => some (plyPointsNext T s)) pushItem (n + 1) ⟨h0.format, h0.vertex, c, some h0.vertex.count⟩ ip =
          forEach (fun s => let r := plyPointsInner T h0.format h0.vertex s; some (plyData r.1, r.2)) pushItem n c ip := by
        intro n c
        show forEach (fun s => some (plyPointsNext T s)) pushItem n ⟨h0.format, h0.vertex, c, none⟩ ip = _
        exact forEach_wrap (fun c => (⟨h0.format, h0.vertex, c, none⟩ : PlyPointsIter)) (fun c => rfl) n c ip
      rw [hw, hw, hpoints (s.length + 2) (t.length + 2) (by omega) (by omega)]
    · cases h0.face with
      | none => exact hmap _ _ (fun _ => m) id .Points (hpoints (s.length + 3) (t.length + 3) (by omega) (by omega))
      | some f => exact hmap _ _ id (fun _ => ip) .Mesh (hmesh f (s.length + 3) (t.length + 3) (by omega) (by omega))

/-- **C132** for .ply files of all formats: lines of comments and information on objects in the header, wherever they are and
whatever they say, have no effect -/
theorem c132_ply (T : FloatText F64) (cs ds : List Bytes) (body : Bytes) (hc : ∀ c ∈ cs, (10 : UInt8) ∉ c) (hd : ∀ c ∈ ds, (10 : UInt8) ∉ c)
    (hec : ∀ c ∈ cs, trimEnd c ≠ b!"end_header") (hed : ∀ c ∈ ds, trimEnd c ≠ b!"end_header") (h : cs.filter plyMatters = ds.filter plyMatters)
    (m : TMesh PlyPoint) (ip : List PlyPoint) :
    outcome (loadPlyMesh T (textOf cs ++ b!"end_header\n" ++ body) m) = outcome (loadPlyMesh T (textOf ds ++ b!"end_header\n" ++ body) m) ∧
    outcome (loadPlyPoints T (textOf cs ++ b!"end_header\n" ++ body) ip) = outcome (loadPlyPoints T (textOf ds ++ b!"end_header\n" ++ body) ip) ∧
    (loadPlyEither T (textOf cs ++ b!"end_header\n" ++ body) m ip).map (fun r => (r.1, r.2.1, r.2.2.mapError LineInfo.err)) =
      (loadPlyEither T (textOf ds ++ b!"end_header\n" ++ body) m ip).map (fun r => (r.1, r.2.1, r.2.2.mapError LineInfo.err)) := by
  have e : ∀ xs, textOf xs ++ b!"end_header\n" ++ body = textOf xs ++ (b!"end_header" ++ 10 :: body) := by
    intro xs
    rw [List.append_assoc]
    rfl
  rw [e, e]
  refine ply_outcome T ?_ m ip
  unfold plyLoadHeader
  have hl := Nat.lt_succ_self (textOf (cs.filter plyMatters) ++ (b!"end_header" ++ 10 :: body)).length
  rw [plyHeader_comments body cs hc hec _ _ 0 0 .init (Nat.lt_succ_self _) hl, h, ← plyHeader_comments body ds hd hed _ _ 0 0 .init (Nat.lt_succ_self _) (h ▸ hl)]

/-- comments before, within and at the end of a header -/
example : ∃ cs ds : List Bytes, (∀ c ∈ cs, (10 : UInt8) ∉ c) ∧ (∀ c ∈ ds, (10 : UInt8) ∉ c) ∧ (∀ c ∈ cs, trimEnd c ≠ b!"end_header") ∧
    (∀ c ∈ ds, trimEnd c ≠ b!"end_header") ∧ cs.filter plyMatters = ds.filter plyMatters ∧ cs ≠ ds ∧
    loadPlyPoints natF64 (textOf cs ++ b!"end_header\n" ++ b!"1 2 3\n") [] = some ([⟨F64.ofRat 1, F64.ofRat 2, F64.ofRat 3⟩], .ok ()) :=
  ⟨[b!"comment first", b!"ply", b!"format ascii 1.0", b!"comment element vertex 7", b!"element vertex 1", b!"property float x", b!"property float y",
    b!"obj_info property float w", b!"property float z", b!"comment end_header"],
   [b!"ply", b!"format ascii 1.0", b!"element vertex 1", b!"property float x", b!"property float y", b!"property float z"],
   by decide, by decide, by decide, by decide, by decide, by decide, by decide +kernel⟩

end R3D

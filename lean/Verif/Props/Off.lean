import Verif.Props.Obj
/-!
C80 (.off) and C81 (.pts): files that announce their counts.
-/
namespace R3D
open Spec

variable {α P ε σ : Type}

/-! ### specification -/

/-- Loading a file whose lines say `ks` into the mesh `m`: everything before the first line that does not fit is taken over,
that line (if any) is the error. -/
def Spec.Loaded (eIdx : ε) (m : TMesh P) (ks : List (Says P ε)) (m' : TMesh P) (r : Except ε Unit) : Prop :=
  ∃ good rest, ks = good ++ rest ∧ AllFit 0 m.verts.length good ∧
    m' = ⟨m.verts ++ verticesOf good, m.faces ++ facesOf 0 good⟩ ∧
    ((rest = [] ∧ r = .ok ()) ∨
      ∃ bad rest', rest = bad :: rest' ∧ ¬Fits 0 m'.verts.length bad ∧
        r = .error (match bad with | .malformed e => e | _ => eIdx))

/-- The same for points: only malformed lines stop the loader. -/
def Spec.LoadedPoints (ks : List (Says P ε)) (pts : List P) (r : Except ε Unit) : Prop :=
  ∃ good rest, ks = good ++ rest ∧ (∀ k ∈ good, ∀ e, k ≠ .malformed e) ∧ pts = verticesOf good ∧
    ((rest = [] ∧ r = .ok ()) ∨ ∃ e rest', rest = .malformed e :: rest' ∧ r = .error e)

/-- the line starts with three numbers -/
def Spec.VertexWords (T : FloatText α) (line : Bytes) (p : Point3D α) : Prop :=
  ∃ wx wy wz ws, WordsOf blank line (wx :: wy :: wz :: ws) ∧
    fromAscii T.parse wx = some p.x ∧ fromAscii T.parse wy = some p.y ∧ fromAscii T.parse wz = some p.z

/-- `3 a b c ...` -/
def Spec.TriangleWords (line : Bytes) (a b c : Nat) : Prop :=
  ∃ wa wb wc ws, WordsOf blank line (b!"3" :: wa :: wb :: wc :: ws) ∧
    fromAscii parseNat wa = some a ∧ fromAscii parseNat wb = some b ∧ fromAscii parseNat wc = some c

/-- the line starts with a count -/
def Spec.CountWord (line : Bytes) (n : Nat) : Prop :=
  ∃ w ws, WordsOf blank line (w :: ws) ∧ fromAscii parseNat w = some n

/-- the line starts with two counts -/
def Spec.CountWords (line : Bytes) (n k : Nat) : Prop :=
  ∃ v w ws, WordsOf blank line (v :: w :: ws) ∧ fromAscii parseNat v = some n ∧ fromAscii parseNat w = some k

/-- the lines with a content and their numbers: not empty, no comment, without the first `OFF` -/
def Spec.offContent (ls : List Bytes) : List (Bytes × Nat) :=
  ((ls.zipIdx 1).filter fun x => !x.1.isEmpty && !(b!"#").isPrefixOf x.1).eraseP fun x => (b!"OFF").isPrefixOf x.1

/-- a line in the vertex part -/
def Spec.OffVertexLine (T : FloatText α) (x : Bytes × Nat) : Says (Point3D α) (LineInfo OffError) → Prop
  | .vertex p => VertexWords T x.1 p
  | .malformed e => (¬∃ p, VertexWords T x.1 p) ∧ e = .line x.2 x.1 .Vertex
  | _ => False

/-- a line in the face part: only triangles are accepted -/
def Spec.OffFaceLine (x : Bytes × Nat) : Says P (LineInfo OffError) → Prop
  | .face a b c => TriangleWords x.1 a b c
  | .malformed e => ((¬∃ ws, WordsOf blank x.1 (b!"3" :: ws)) ∧ e = .line x.2 x.1 .FaceVertexCount) ∨
      ((∃ ws, WordsOf blank x.1 (b!"3" :: ws)) ∧ (¬∃ a b c, TriangleWords x.1 a b c) ∧ e = .line x.2 x.1 .Face)
  | _ => False

/-- what the content of an .off file says -/
def Spec.OffMeans (T : FloatText α) : List (Bytes × Nat) → List (Says (Point3D α) (LineInfo OffError)) → Prop
  | [], ks => ks = []
  | (c, i) :: body, ks =>
    ((¬∃ n, CountWord c n) ∧ ks = [.malformed (.line i c .VertexCount)]) ∨
    ((∃ n, CountWord c n) ∧ (¬∃ n f, CountWords c n f) ∧ ks = [.malformed (.line i c .FaceCount)]) ∨
    ∃ n f kv kf, CountWords c n f ∧ ks = .nothing :: (kv ++ kf) ∧
      List.Forall₂ (OffVertexLine T) (body.take n) kv ∧ List.Forall₂ OffFaceLine (body.drop n) kf

/-- what the points loader reads of it -/
def Spec.OffPointsMeans (T : FloatText α) : List (Bytes × Nat) → List (Says (Point3D α) (LineInfo OffError)) → Prop
  | [], ks => ks = []
  | (c, i) :: body, ks =>
    ((¬∃ n, CountWord c n) ∧ ks = [.malformed (.line i c .VertexCount)]) ∨
    ∃ n kv, CountWord c n ∧ ks = .nothing :: kv ∧ List.Forall₂ (OffVertexLine T) (body.take n) kv

/-! ### the generic loop -/

/-- the sequence of items an iterator yields -/
inductive Steps (next : σ → Panics (Option (Except ε (Item P)) × σ)) : σ → List (Says P ε) → Prop
  | done {s s'} : next s = some (none, s') → Steps next s []
  | reserve {s s' n k ks} : next s = some (some (.ok (.reserve n k)), s') → Steps next s' ks → Steps next s (.nothing :: ks)
  | vertex {s s' p ks} : next s = some (some (.ok (.data p)), s') → Steps next s' ks → Steps next s (.vertex p :: ks)
  | face {s s' a b c ks} : next s = some (some (.ok (.face a b c)), s') → Steps next s' ks → Steps next s (.face a b c :: ks)
  | malformed {s s' e ks} : next s = some (some (.error e), s') → Steps next s (.malformed e :: ks)

/-- how the loaders treat an item -/
structure MeshPush (push : TMesh P → Item P → TMesh P × Except ε Unit) (eIdx : ε) : Prop where
  reserve : ∀ m n k, push m (.reserve n k) = (m, .ok ())
  data : ∀ m p, push m (.data p) = (⟨m.verts ++ [p], m.faces⟩, .ok ())
  face : ∀ m a b c, Fits 0 m.verts.length (Says.face a b c : Says P ε) → push m (.face a b c) = (⟨m.verts, m.faces ++ [⟨a, b, c⟩]⟩, .ok ())
  bad : ∀ m a b c, ¬Fits 0 m.verts.length (Says.face a b c : Says P ε) → push m (.face a b c) = (m, .error eIdx)

theorem offPush_push : MeshPush (offPush (α := α)) (.none .InvalidMeshIndices) where
  reserve _ _ _ := rfl
  data _ _ := rfl
  face m a b c h := by
    obtain ⟨h1, h2, h3, h4, h5, h6⟩ := h
    simp only [offPush, TMesh.tryAddConnection]
    rw [if_neg (by omega), if_neg (by omega)]
  bad m a b c h := by
    unfold Fits at h
    simp only [offPush, TMesh.tryAddConnection]
    by_cases hr : a ≥ m.verts.length ∨ b ≥ m.verts.length ∨ c ≥ m.verts.length
    · simp [hr]
    · rw [if_neg hr, if_pos (by omega)]

theorem verticesOf_cons (k : Says P ε) (ks : List (Says P ε)) : verticesOf (k :: ks) = verticesOf [k] ++ verticesOf ks := by
  cases k <;> simp [verticesOf]
theorem facesOf_cons (base : Nat) (k : Says P ε) (ks : List (Says P ε)) : facesOf base (k :: ks) = facesOf base [k] ++ facesOf base ks := by
  cases k <;> simp [facesOf]

theorem forEach_mesh {next : σ → Panics (Option (Except ε (Item P)) × σ)} {push : TMesh P → Item P → TMesh P × Except ε Unit}
    {eIdx : ε} (hp : MeshPush push eIdx) {s : σ} {ks : List (Says P ε)} (hs : Steps next s ks) (m : TMesh P) (N : Nat)
    (hN : ks.length < N) : ∃ m' r, forEach next push N s m = some (m', r) ∧ Loaded eIdx m ks m' r := by
  induction hs generalizing m N with
  | done h =>
    obtain ⟨N, rfl⟩ := Nat.exists_eq_succ_of_ne_zero (Nat.ne_of_gt (Nat.zero_lt_of_lt hN))
    exact ⟨m, .ok (), by simp [forEach, h], [], [], rfl, allFit_nil, by simp [verticesOf, facesOf], .inl ⟨rfl, rfl⟩⟩
  | malformed h =>
    obtain ⟨N, rfl⟩ := Nat.exists_eq_succ_of_ne_zero (Nat.ne_of_gt (Nat.zero_lt_of_lt hN))
    rename_i e ks
    exact ⟨m, .error e, by simp [forEach, h], [], .malformed e :: ks, rfl, allFit_nil, by simp [verticesOf, facesOf],
      .inr ⟨_, _, rfl, id, rfl⟩⟩
  | reserve h _ ih =>
    obtain ⟨N, rfl⟩ := Nat.exists_eq_succ_of_ne_zero (Nat.ne_of_gt (Nat.zero_lt_of_lt hN))
    rw [List.length_cons] at hN
    obtain ⟨m', r, h1, good, rest, rfl, h3, h4, h5⟩ := ih m N (by omega)
    exact ⟨m', r, by simp [forEach, h, hp.reserve, h1], .nothing :: good, rest, rfl, allFit_cons.2 ⟨trivial, h3⟩, h4, h5⟩
  | vertex h _ ih =>
    obtain ⟨N, rfl⟩ := Nat.exists_eq_succ_of_ne_zero (Nat.ne_of_gt (Nat.zero_lt_of_lt hN))
    rw [List.length_cons] at hN
    rename_i p ks _
    obtain ⟨m', r, h1, good, rest, rfl, h3, h4, h5⟩ := ih ⟨m.verts ++ [p], m.faces⟩ N (by omega)
    refine ⟨m', r, by simp [forEach, h, hp.data, h1], .vertex p :: good, rest, rfl, allFit_cons.2 ⟨trivial, ?_⟩, ?_, h5⟩
    · simpa [verticesOf] using h3
    · rw [h4]; simp [verticesOf, facesOf]
  | face h _ ih =>
    obtain ⟨N, rfl⟩ := Nat.exists_eq_succ_of_ne_zero (Nat.ne_of_gt (Nat.zero_lt_of_lt hN))
    rw [List.length_cons] at hN
    rename_i a b c ks _
    by_cases hf : Fits 0 m.verts.length (Says.face a b c : Says P ε)
    · obtain ⟨m', r, h1, good, rest, rfl, h3, h4, h5⟩ := ih ⟨m.verts, m.faces ++ [⟨a, b, c⟩]⟩ N (by omega)
      refine ⟨m', r, by simp [forEach, h, hp.face m a b c hf, h1], .face a b c :: good, rest, rfl, allFit_cons.2 ⟨hf, ?_⟩, ?_, h5⟩
      · simpa [verticesOf] using h3
      · rw [h4]; simp [verticesOf, facesOf]
    · refine ⟨m, .error eIdx, by simp [forEach, h, hp.bad m a b c hf], [], .face a b c :: ks, rfl, allFit_nil, by simp [verticesOf, facesOf],
        .inr ⟨_, _, rfl, hf, rfl⟩⟩

theorem forEach_points {next : σ → Panics (Option (Except ε (Item (Point3D α))) × σ)} {s : σ} {ks : List (Says (Point3D α) ε)}
    (hs : Steps next s ks) (l : List (Point3D α)) (N : Nat) (hN : ks.length < N) :
    ∃ pts r, forEach next pushItem N s l = some (l ++ pts, r) ∧ LoadedPoints ks pts r := by
  induction hs generalizing l N with
  | done h =>
    obtain ⟨N, rfl⟩ := Nat.exists_eq_succ_of_ne_zero (Nat.ne_of_gt (Nat.zero_lt_of_lt hN))
    exact ⟨[], .ok (), by simp [forEach, h], [], [], rfl, by simp, rfl, .inl ⟨rfl, rfl⟩⟩
  | malformed h =>
    obtain ⟨N, rfl⟩ := Nat.exists_eq_succ_of_ne_zero (Nat.ne_of_gt (Nat.zero_lt_of_lt hN))
    rename_i e ks
    exact ⟨[], .error e, by simp [forEach, h], [], .malformed e :: ks, rfl, by simp, rfl, .inr ⟨_, _, rfl, rfl⟩⟩
  | reserve h _ ih =>
    obtain ⟨N, rfl⟩ := Nat.exists_eq_succ_of_ne_zero (Nat.ne_of_gt (Nat.zero_lt_of_lt hN))
    rw [List.length_cons] at hN
    obtain ⟨pts, r, h1, good, rest, rfl, h3, h4, h5⟩ := ih l N (by omega)
    refine ⟨pts, r, by simp [forEach, h, pushItem, h1], .nothing :: good, rest, rfl, ?_, by simpa [verticesOf] using h4, h5⟩
    simpa using h3
  | vertex h _ ih =>
    obtain ⟨N, rfl⟩ := Nat.exists_eq_succ_of_ne_zero (Nat.ne_of_gt (Nat.zero_lt_of_lt hN))
    rw [List.length_cons] at hN
    rename_i p ks _
    obtain ⟨pts, r, h1, good, rest, rfl, h3, h4, h5⟩ := ih (l ++ [p]) N (by omega)
    refine ⟨p :: pts, r, by simp [forEach, h, pushItem, h1], .vertex p :: good, rest, rfl, ?_, by simpa [verticesOf] using h4, h5⟩
    simpa using h3
  | face h _ ih =>
    obtain ⟨N, rfl⟩ := Nat.exists_eq_succ_of_ne_zero (Nat.ne_of_gt (Nat.zero_lt_of_lt hN))
    rw [List.length_cons] at hN
    obtain ⟨pts, r, h1, good, rest, rfl, h3, h4, h5⟩ := ih l N (by omega)
    refine ⟨pts, r, by simp [forEach, h, pushItem, h1], .face _ _ _ :: good, rest, rfl, ?_, by simpa [verticesOf] using h4, h5⟩
    simpa using h3

/-! ### lines of an .off file -/

/-- the content that is left at a line -/
def offRest (seen : Bool) (i : Nat) (ls : List Bytes) : List (Bytes × Nat) :=
  let c := (ls.zipIdx i).filter fun x => !x.1.isEmpty && !(b!"#").isPrefixOf x.1
  if seen then c else c.eraseP fun x => (b!"OFF").isPrefixOf x.1

theorem offRest_cons (seen : Bool) (i : Nat) (l : Bytes) (ls : List Bytes) : offRest seen i (l :: ls) =
    if !seen && startsWith l b!"OFF" then offRest true (i + 1) ls
    else if l.isEmpty || startsWith l b!"#" then offRest seen (i + 1) ls
    else (l, i) :: offRest seen (i + 1) ls := by
  unfold offRest startsWith
  have hO : (b!"OFF").isPrefixOf l = true → l.isEmpty = false ∧ (b!"#").isPrefixOf l = false := by
    intro h
    rw [List.isPrefixOf_iff_prefix] at h
    obtain ⟨r, rfl⟩ := h
    exact ⟨rfl, rfl⟩
  cases seen <;> cases h1 : (b!"OFF").isPrefixOf l <;> cases h2 : l.isEmpty <;> cases h3 : (b!"#").isPrefixOf l <;>
    simp_all [List.zipIdx_cons, List.filter_cons, List.eraseP_cons]

theorem offRest_length (seen : Bool) (i : Nat) (ls : List Bytes) : (offRest seen i ls).length ≤ ls.length := by
  induction ls generalizing seen i with
  | nil => simp [offRest]
  | cons l ls ih =>
    rw [offRest_cons]
    split_ifs <;> simp only [List.length_cons]
    · have := ih true (i + 1); omega
    · have := ih seen (i + 1); omega
    · have := ih seen (i + 1); omega

theorem offMeshLoop_content (T : FloatText α) (ls : List Bytes) (s : OffMeshIter) :
    (offRest s.offSeen (s.iLine + 1) ls = [] → (offMeshLoop T ls s).1 = none) ∧
    ∀ l i cs, offRest s.offSeen (s.iLine + 1) ls = (l, i) :: cs → ∃ s', s'.counts = s.counts ∧ s'.nVerticesAdded = s.nVerticesAdded ∧
      s'.isDone = s.isDone ∧ s'.iLine = i ∧ offRest s'.offSeen (i + 1) s'.lines = cs ∧ offMeshLoop T ls s = offMeshLine T l s' := by
  induction ls generalizing s with
  | nil => exact ⟨fun _ => by simp [offMeshLoop], fun l i cs h => by simp [offRest] at h⟩
  | cons l ls ih =>
    rw [offRest_cons, offMeshLoop]
    dsimp only
    split_ifs with h1 h2
    · exact ih { s with lines := ls, iLine := s.iLine + 1, offSeen := true }
    · exact ih { s with lines := ls, iLine := s.iLine + 1 }
    · refine ⟨fun h => by simp at h, fun l' i cs h => ?_⟩
      simp only [List.cons.injEq, Prod.mk.injEq] at h
      obtain ⟨⟨rfl, rfl⟩, rfl⟩ := h
      exact ⟨{ s with lines := ls, iLine := s.iLine + 1 }, rfl, rfl, rfl, rfl, rfl, rfl⟩

theorem offPointsLoop_content (T : FloatText α) (ls : List Bytes) (s : OffMeshIter) :
    (offRest s.offSeen (s.iLine + 1) ls = [] → (offPointsLoop T ls s).1 = none) ∧
    ∀ l i cs, offRest s.offSeen (s.iLine + 1) ls = (l, i) :: cs → ∃ s', s'.counts = s.counts ∧ s'.nVerticesAdded = s.nVerticesAdded ∧
      s'.isDone = s.isDone ∧ s'.iLine = i ∧ offRest s'.offSeen (i + 1) s'.lines = cs ∧ offPointsLoop T ls s = offPointsLine T l s' := by
  induction ls generalizing s with
  | nil => exact ⟨fun _ => by simp [offPointsLoop], fun l i cs h => by simp [offRest] at h⟩
  | cons l ls ih =>
    rw [offRest_cons, offPointsLoop]
    dsimp only
    split_ifs with h1 h2
    · exact ih { s with lines := ls, iLine := s.iLine + 1, offSeen := true }
    · exact ih { s with lines := ls, iLine := s.iLine + 1 }
    · refine ⟨fun h => by simp at h, fun l' i cs h => ?_⟩
      simp only [List.cons.injEq, Prod.mk.injEq] at h
      obtain ⟨⟨rfl, rfl⟩, rfl⟩ := h
      exact ⟨{ s with lines := ls, iLine := s.iLine + 1 }, rfl, rfl, rfl, rfl, rfl, rfl⟩

theorem vertexWords_iff {ε' : Type} {T : FloatText α} {e : ε'} {line : Bytes} {p : Point3D α} :
    vertexOf T e (toWords line) = .ok p ↔ VertexWords T line p := by
  rw [vertexOf_ok]
  constructor
  · rintro ⟨wx, wy, wz, r, h1, h2⟩; exact ⟨wx, wy, wz, r, toWords_iff.1 h1, h2⟩
  · rintro ⟨wx, wy, wz, r, h1, h2⟩; exact ⟨wx, wy, wz, r, toWords_iff.2 h1, h2⟩

theorem offVertex_cases (T : FloatText α) (l : Bytes) (i : Nat) :
    (∃ p, OffVertexLine T (l, i) (.vertex p) ∧ offFetchVertex T l = .ok p) ∨
    (OffVertexLine T (l, i) (.malformed (.line i l .Vertex)) ∧ offFetchVertex T l = .error .Vertex) := by
  unfold offFetchVertex
  cases h : vertexOf T OffError.Vertex (toWords l) with
  | ok p => exact .inl ⟨p, vertexWords_iff.1 h, rfl⟩
  | error e =>
    rw [vertexOf_error h]
    refine .inr ⟨⟨fun ⟨p, hp⟩ => ?_, rfl⟩, rfl⟩
    rw [(vertexWords_iff (e := OffError.Vertex)).2 hp] at h
    cases h

theorem offFace_cases (l : Bytes) (i : Nat) :
    (∃ a b c, OffFaceLine (P := P) (l, i) (.face a b c) ∧ offFetchFace l = .ok (a, b, c)) ∨
    (∃ e, OffFaceLine (P := P) (l, i) (.malformed (.line i l e)) ∧ offFetchFace l = .error e) := by
  unfold offFetchFace
  obtain ⟨ws, hws⟩ := wordsOf_exists blank l
  have hu : ∀ ws', WordsOf blank l ws' → ws' = ws := fun ws' h => by rw [← toWords_iff.2 h, toWords_iff.2 hws]
  rw [toWords_iff.2 hws]
  cases ws with
  | nil =>
    refine .inr ⟨_, .inl ⟨fun ⟨ws', h⟩ => ?_, rfl⟩, rfl⟩
    have := hu _ h
    simp at this
  | cons count words =>
    dsimp only
    by_cases h3 : count = b!"3"
    · rw [if_pos h3]
      subst h3
      split
      · rename_i a b c ha hb hc
        rw [nthNum_words] at ha hb hc
        obtain ⟨wa, ea, ha⟩ := ha
        obtain ⟨wb, eb, hb⟩ := hb
        obtain ⟨wc, ec, hc⟩ := hc
        match words, ea, eb, ec with
        | x :: y :: z :: r, ea, eb, ec =>
          simp at ea eb ec
          subst ea eb ec
          exact .inl ⟨a, b, c, ⟨_, _, _, _, hws, ha, hb, hc⟩, rfl⟩
      · rename_i hno
        refine .inr ⟨_, .inr ⟨⟨_, hws⟩, fun ⟨a, b, c, wa, wb, wc, r, hw, ha, hb, hc⟩ => ?_, rfl⟩, rfl⟩
        have := hu _ hw
        simp only [List.cons.injEq, true_and] at this
        subst this
        exact hno a b c (nthNum_words.2 ⟨wa, rfl, ha⟩) (nthNum_words.2 ⟨wb, rfl, hb⟩) (nthNum_words.2 ⟨wc, rfl, hc⟩)
    · rw [if_neg h3]
      refine .inr ⟨_, .inl ⟨fun ⟨ws', h⟩ => ?_, rfl⟩, rfl⟩
      have := hu _ h
      simp only [List.cons.injEq] at this
      exact h3 this.1.symm

theorem countWord_iff {l : Bytes} {n : Nat} : nthNum parseNat (toWords l) 0 = some n ↔ CountWord l n := by
  rw [nthNum_words]
  constructor
  · rintro ⟨w, h1, h2⟩
    cases h : toWords l with
    | nil => rw [h] at h1; simp at h1
    | cons x ws =>
      rw [h] at h1
      simp at h1
      subst h1
      exact ⟨_, _, toWords_iff.1 h, h2⟩
  · rintro ⟨w, ws, h1, h2⟩
    rw [toWords_iff.2 h1]
    exact ⟨w, rfl, h2⟩

theorem countWords_iff {l : Bytes} {n k : Nat} :
    (nthNum parseNat (toWords l) 0 = some n ∧ nthNum parseNat (toWords l) 1 = some k) ↔ CountWords l n k := by
  rw [nthNum_words, nthNum_words]
  constructor
  · rintro ⟨⟨v, h1, h2⟩, ⟨w, h3, h4⟩⟩
    cases h : toWords l with
    | nil => rw [h] at h1; simp at h1
    | cons x ws =>
      cases ws with
      | nil => rw [h] at h3; simp at h3
      | cons y ws =>
        rw [h] at h1 h3
        simp at h1 h3
        subst h1 h3
        exact ⟨_, _, _, toWords_iff.1 h, h2, h4⟩
  · rintro ⟨v, w, ws, h1, h2, h3⟩
    rw [toWords_iff.2 h1]
    exact ⟨⟨v, rfl, h2⟩, ⟨w, rfl, h3⟩⟩

/-- once the counts are known -/
theorem off_body_steps (T : FloatText α) (nv nf : Nat) (cs : List (Bytes × Nat)) (s : OffMeshIter) (hs : s.isDone = false)
    (hc : s.counts = some (nv, nf)) (hn : s.nVerticesAdded ≤ nv) (hcs : offRest s.offSeen (s.iLine + 1) s.lines = cs) :
    ∃ kv kf, Steps (fun s => some (offMeshNext T s)) s (kv ++ kf) ∧
      List.Forall₂ (OffVertexLine T) (cs.take (nv - s.nVerticesAdded)) kv ∧ List.Forall₂ OffFaceLine (cs.drop (nv - s.nVerticesAdded)) kf := by
  induction cs generalizing s with
  | nil =>
    refine ⟨[], [], .done (s' := (offMeshNext T s).2) ?_, by simp, by simp⟩
    have := (offMeshLoop_content T s.lines s).1 hcs
    simp only [offMeshNext, hs, Bool.false_eq_true, if_false]
    rw [← this]
  | cons c cs ih =>
    obtain ⟨l, i⟩ := c
    obtain ⟨s', e1, e2, e3, e4, e5, e6⟩ := (offMeshLoop_content T s.lines s).2 l i cs hcs
    have hnext : offMeshNext T s = offMeshLine T l s' := by simp only [offMeshNext, hs, Bool.false_eq_true, if_false]; exact e6
    have hline : offMeshLine T l s' = if s'.nVerticesAdded < nv then
        match offFetchVertex T l with
        | .ok p => (some (.ok (.data p)), { s' with nVerticesAdded := s'.nVerticesAdded + 1 })
        | .error e => (some (.error (.line s'.iLine l e)), { s' with nVerticesAdded := s'.nVerticesAdded + 1, isDone := true })
      else
        match offFetchFace l with
        | .ok (a, b, c) => (some (.ok (.face a b c)), s')
        | .error e => (some (.error (.line s'.iLine l e)), { s' with isDone := true }) := by
      unfold offMeshLine
      rw [e1, hc]
      rfl
    by_cases hlt : s'.nVerticesAdded < nv
    · rw [if_pos hlt] at hline
      have ht : nv - s.nVerticesAdded = (nv - (s.nVerticesAdded + 1)) + 1 := by omega
      obtain ⟨kv, kf, h1, h2, h3⟩ := ih { s' with nVerticesAdded := s'.nVerticesAdded + 1 } (e3.trans hs) (e1.trans hc) (by dsimp only; omega)
        (by dsimp only; rw [e4]; exact e5)
      dsimp only at h2 h3
      rw [e2] at h2 h3
      rcases offVertex_cases T l i with ⟨p, hp, hf⟩ | ⟨hp, hf⟩
      · rw [hf] at hline
        refine ⟨.vertex p :: kv, kf, .vertex (by rw [hnext, hline]) h1, ?_, ?_⟩
        · rw [ht, List.take_succ_cons]; exact .cons hp h2
        · rw [ht, List.drop_succ_cons]; exact h3
      · rw [hf, e4] at hline
        refine ⟨.malformed (.line i l .Vertex) :: kv, kf, .malformed (by rw [hnext, hline]), ?_, ?_⟩
        · rw [ht, List.take_succ_cons]; exact .cons hp h2
        · rw [ht, List.drop_succ_cons]; exact h3
    · rw [if_neg hlt] at hline
      have ht : nv - s.nVerticesAdded = 0 := by omega
      obtain ⟨kv, kf, h1, h2, h3⟩ := ih s' (e3.trans hs) (e1.trans hc) (by omega) (by rw [e4]; exact e5)
      rw [e2, ht] at h2 h3
      rw [ht]
      simp only [List.take_zero, List.drop_zero] at h2 h3 ⊢
      cases h2
      rcases offFace_cases (P := Point3D α) l i with ⟨a, b, c, hp, hf⟩ | ⟨e, hp, hf⟩
      · rw [hf] at hline
        exact ⟨[], .face a b c :: kf, .face (by rw [hnext, hline]) h1, .nil, .cons hp h3⟩
      · rw [hf, e4] at hline
        exact ⟨[], .malformed (.line i l e) :: kf, .malformed (by rw [hnext, hline]), .nil, .cons hp h3⟩

theorem off_steps (T : FloatText α) (s : OffMeshIter) (hs : s.isDone = false) (hc : s.counts = none) (hn : s.nVerticesAdded = 0) :
    ∃ ks, Steps (fun s => some (offMeshNext T s)) s ks ∧ OffMeans T (offRest s.offSeen (s.iLine + 1) s.lines) ks := by
  cases hcs : offRest s.offSeen (s.iLine + 1) s.lines with
  | nil =>
    refine ⟨[], .done (s' := (offMeshNext T s).2) ?_, rfl⟩
    have := (offMeshLoop_content T s.lines s).1 hcs
    simp only [offMeshNext, hs, Bool.false_eq_true, if_false]
    rw [← this]
  | cons c cs =>
    obtain ⟨l, i⟩ := c
    obtain ⟨s', e1, e2, e3, e4, e5, e6⟩ := (offMeshLoop_content T s.lines s).2 l i cs hcs
    have hnext : offMeshNext T s = offMeshLine T l s' := by simp only [offMeshNext, hs, Bool.false_eq_true, if_false]; exact e6
    unfold offMeshLine offFetchCounts at hnext
    rw [e1, hc] at hnext
    dsimp only at hnext
    cases h0 : nthNum parseNat (toWords l) 0 with
    | none =>
      rw [h0, e4] at hnext
      refine ⟨[.malformed (.line i l .VertexCount)], .malformed (by rw [hnext]), .inl ⟨fun ⟨n, h⟩ => ?_, rfl⟩⟩
      rw [countWord_iff.2 h] at h0; cases h0
    | some v =>
      cases h1 : nthNum parseNat (toWords l) 1 with
      | none =>
        rw [h0, h1, e4] at hnext
        refine ⟨[.malformed (.line i l .FaceCount)], .malformed (by rw [hnext]), .inr (.inl ⟨⟨v, countWord_iff.1 h0⟩, fun ⟨n, f, h⟩ => ?_, rfl⟩)⟩
        rw [(countWords_iff.2 h).2] at h1; cases h1
      | some f =>
        rw [h0, h1] at hnext
        dsimp only at hnext
        obtain ⟨kv, kf, h2, h3, h4⟩ := off_body_steps T v f cs { s' with counts := some (v, f) } (e3.trans hs) rfl (by dsimp only; omega)
          (by dsimp only; rw [e4]; exact e5)
        dsimp only at h3 h4
        rw [e2, hn] at h3 h4
        exact ⟨.nothing :: (kv ++ kf), .reserve (by rw [hnext]) h2, .inr (.inr ⟨v, f, kv, kf, countWords_iff.1 ⟨h0, h1⟩, rfl, h3, h4⟩)⟩

theorem OffMeans.length {T : FloatText α} {cs : List (Bytes × Nat)} {ks : List (Says (Point3D α) (LineInfo OffError))} (h : OffMeans T cs ks) :
    ks.length ≤ cs.length := by
  cases cs with
  | nil => rw [show ks = [] from h]; rfl
  | cons c body =>
    rcases h with ⟨-, rfl⟩ | ⟨-, -, rfl⟩ | ⟨n, f, kv, kf, -, rfl, h1, h2⟩
    · simp
    · simp
    · have e1 := h1.length_eq
      have e2 := h2.length_eq
      rw [List.length_take] at e1
      rw [List.length_drop] at e2
      simp only [List.length_cons, List.length_append]
      omega

/-- **C80**: what loading any .off file into a mesh does: the vertices and triangles announced are taken over in order up to
the first line that does not fit, which is reported. -/
theorem c80_mesh (T : FloatText α) (input : Bytes) (m : TMesh (Point3D α)) :
    ∃ ks m' r, OffMeans T (offContent (lines input)) ks ∧ loadOffMesh T input m = some (m', r) ∧
      Loaded (.none .InvalidMeshIndices) m ks m' r := by
  obtain ⟨ks, h1, h2⟩ := off_steps T ⟨lines input, false, 0, false, none, 0⟩ rfl rfl rfl
  have hl := OffMeans.length h2
  have hl' := offRest_length false (0 + 1) (lines input)
  obtain ⟨m', r, h3, h4⟩ := forEach_mesh offPush_push h1 m ((lines input).length + 1) (by dsimp only at hl; omega)
  exact ⟨ks, m', r, h2, h3, h4⟩

/-- once the count is known -/
theorem off_points_body (T : FloatText α) (nv nf : Nat) (cs : List (Bytes × Nat)) (s : OffMeshIter) (hs : s.isDone = false)
    (hc : s.counts = some (nv, nf)) (hn : s.nVerticesAdded ≤ nv) (hcs : offRest s.offSeen (s.iLine + 1) s.lines = cs) :
    ∃ kv, Steps (fun s => some (offPointsNext T s)) s kv ∧ List.Forall₂ (OffVertexLine T) (cs.take (nv - s.nVerticesAdded)) kv := by
  induction cs generalizing s with
  | nil =>
    refine ⟨[], .done (s' := (offPointsNext T s).2) ?_, by simp⟩
    have := (offPointsLoop_content T s.lines s).1 hcs
    simp only [offPointsNext, hs, Bool.false_eq_true, if_false]
    rw [← this]
  | cons c cs ih =>
    obtain ⟨l, i⟩ := c
    obtain ⟨s', e1, e2, e3, e4, e5, e6⟩ := (offPointsLoop_content T s.lines s).2 l i cs hcs
    have hnext : offPointsNext T s = offPointsLine T l s' := by simp only [offPointsNext, hs, Bool.false_eq_true, if_false]; exact e6
    have hline : offPointsLine T l s' = if s'.nVerticesAdded < nv then
        match offFetchVertex T l with
        | .ok p => (some (.ok (.data p)), { s' with nVerticesAdded := s'.nVerticesAdded + 1 })
        | .error e => (some (.error (.line s'.iLine l e)), { s' with nVerticesAdded := s'.nVerticesAdded + 1, isDone := true })
      else (none, { s' with isDone := true }) := by
      unfold offPointsLine
      rw [e1, hc]
      rfl
    by_cases hlt : s'.nVerticesAdded < nv
    · rw [if_pos hlt] at hline
      have ht : nv - s.nVerticesAdded = (nv - (s.nVerticesAdded + 1)) + 1 := by omega
      obtain ⟨kv, h1, h2⟩ := ih { s' with nVerticesAdded := s'.nVerticesAdded + 1 } (e3.trans hs) (e1.trans hc) (by dsimp only; omega)
        (by dsimp only; rw [e4]; exact e5)
      dsimp only at h2
      rw [e2] at h2
      rcases offVertex_cases T l i with ⟨p, hp, hf⟩ | ⟨hp, hf⟩
      · rw [hf] at hline
        refine ⟨.vertex p :: kv, .vertex (by rw [hnext, hline]) h1, ?_⟩
        rw [ht, List.take_succ_cons]; exact .cons hp h2
      · rw [hf, e4] at hline
        refine ⟨.malformed (.line i l .Vertex) :: kv, .malformed (by rw [hnext, hline]), ?_⟩
        rw [ht, List.take_succ_cons]; exact .cons hp h2
    · rw [if_neg hlt] at hline
      have ht : nv - s.nVerticesAdded = 0 := by omega
      refine ⟨[], .done (by rw [hnext, hline]), ?_⟩
      rw [ht]; simp

/-- **C80**: what loading any .off file as points does -/
theorem c80_points (T : FloatText α) (input : Bytes) : ∃ ks pts r, OffPointsMeans T (offContent (lines input)) ks ∧
    loadOffPoints T input = some (pts, r) ∧ LoadedPoints ks pts r := by
  have key : ∃ ks, Steps (fun s => some (offPointsNext T s)) ⟨lines input, false, 0, false, none, 0⟩ ks ∧
      OffPointsMeans T (offContent (lines input)) ks ∧ ks.length ≤ (offContent (lines input)).length := by
    have e0 : offContent (lines input) = offRest false (0 + 1) (lines input) := rfl
    rw [e0]
    have hloop := offPointsLoop_content T (lines input) ⟨lines input, false, 0, false, none, 0⟩
    cases hcs : offRest false (0 + 1) (lines input) with
    | nil =>
      have := hloop.1 hcs
      refine ⟨[], .done (s' := (offPointsNext T ⟨lines input, false, 0, false, none, 0⟩).2) ?_, rfl, by simp⟩
      simp only [offPointsNext, Bool.false_eq_true, if_false]
      rw [← this]
    | cons c cs =>
      obtain ⟨l, i⟩ := c
      obtain ⟨s', e1, e2, e3, e4, e5, e6⟩ := hloop.2 l i cs hcs
      have hnext : offPointsNext T ⟨lines input, false, 0, false, none, 0⟩ = offPointsLine T l s' := by
        simp only [offPointsNext, Bool.false_eq_true, if_false]; exact e6
      unfold offPointsLine at hnext
      rw [e1] at hnext
      dsimp only at hnext
      cases h0 : nthNum parseNat (toWords l) 0 with
      | none =>
        rw [h0, e4] at hnext
        refine ⟨[.malformed (.line i l .VertexCount)], .malformed (by rw [hnext]), .inl ⟨fun ⟨n, h⟩ => ?_, rfl⟩, by simp⟩
        rw [countWord_iff.2 h] at h0; cases h0
      | some v =>
        rw [h0] at hnext
        dsimp only at hnext
        obtain ⟨kv, h2, h3⟩ := off_points_body T v 0 cs { s' with counts := some (v, 0) } e3 rfl (by dsimp only at e2 ⊢; omega)
          (by dsimp only; rw [e4]; exact e5)
        dsimp only at h3
        rw [e2] at h3
        refine ⟨.nothing :: kv, .reserve (by rw [hnext]) h2, .inr ⟨v, kv, countWord_iff.1 h0, rfl, h3⟩, ?_⟩
        have := h3.length_eq
        rw [List.length_take] at this
        simp only [List.length_cons]
        omega
  obtain ⟨ks, h1, h2, h3⟩ := key
  have hl' := offRest_length false (0 + 1) (lines input)
  obtain ⟨pts, r, h4, h5⟩ := forEach_points h1 [] ((lines input).length + 1) (by
    have e0 : offContent (lines input) = offRest false (0 + 1) (lines input) := rfl
    rw [e0] at h3; omega)
  exact ⟨ks, pts, r, h2, h4, h5⟩

/-- a comment, an empty line, two triangles -/
example : loadOffMesh natText b!"OFF\n# c\n4 2 0\n\n0 0 0\n1 0 0\n0 1 0\n0 0 1\n3 0 1 2\n3 0 1 3\n" ⟨[], []⟩ =
    some (⟨[⟨0, 0, 0⟩, ⟨1, 0, 0⟩, ⟨0, 1, 0⟩, ⟨0, 0, 1⟩], [⟨0, 1, 2⟩, ⟨0, 1, 3⟩]⟩, .ok ()) := by decide +kernel

/-! ### meshes written as .off files -/

/-- the usual way to write a mesh -/
def Spec.offText (T : FloatText α) (m : TMesh (Point3D α)) : List Bytes :=
  b!"OFF" :: (fmtNat m.verts.length ++ b!" " ++ fmtNat m.faces.length ++ b!" 0") ::
  ((m.verts.map fun p => T.fmt p.x ++ b!" " ++ T.fmt p.y ++ b!" " ++ T.fmt p.z) ++
  m.faces.map fun f => b!"3 " ++ fmtNat f.a ++ b!" " ++ fmtNat f.b ++ b!" " ++ fmtNat f.c)

theorem offText_lines (T : FloatText α) (ok : α → Prop) (hT : T.Lawful ok) (m : TMesh (Point3D α))
    (hok : ∀ p ∈ m.verts, ok p.x ∧ ok p.y ∧ ok p.z) : lines ((offText T m).flatMap nl) = offText T m := by
  have hn : ∀ n, (10 : UInt8) ∉ fmtNat n := fun n h => (fmtNat_byte h).2.1 rfl
  apply lines_text
  · intro l hl
    simp only [offText, List.mem_cons] at hl
    rcases hl with rfl | rfl | hl
    · decide
    · simp only [List.mem_append, not_or]
      exact ⟨⟨⟨hn _, by decide⟩, hn _⟩, by decide⟩
    rcases List.mem_append.1 hl with hl | hl
    · obtain ⟨p, hp, rfl⟩ := List.mem_map.1 hl
      obtain ⟨ox, oy, oz⟩ := hok p hp
      have hh : ∀ {x}, ok x → (10 : UInt8) ∉ T.fmt x := fun hx => (fmt_props hT hx (d := 32) (by decide)).2.2.2.2
      simp only [List.mem_append, not_or]
      exact ⟨⟨⟨⟨hh ox, by decide⟩, hh oy⟩, by decide⟩, hh oz⟩
    · obtain ⟨f, -, rfl⟩ := List.mem_map.1 hl
      simp only [List.mem_append, not_or]
      exact ⟨⟨⟨⟨⟨by decide, hn _⟩, by decide⟩, hn _⟩, by decide⟩, hn _⟩
  · intro l hl b hb
    simp only [offText, List.mem_cons] at hl
    rcases hl with rfl | rfl | hl
    · cases hb; decide
    · rw [List.getLast?_append_of_ne_nil _ (by decide)] at hb
      cases hb; decide
    rcases List.mem_append.1 hl with hl | hl
    · obtain ⟨p, hp, rfl⟩ := List.mem_map.1 hl
      exact getLast?_not_ws hT (hok p hp).2.2 _ b hb
    · obtain ⟨f, -, rfl⟩ := List.mem_map.1 hl
      rw [List.getLast?_append_of_ne_nil _ (fmtNat_digits _).1] at hb
      exact (fmtNat_byte (List.mem_of_getLast? hb)).2.2.2

/-- a line that starts with a byte that is neither `#` nor a blank is content -/
theorem offRest_all (i : Nat) (ls : List Bytes) (h : ∀ l ∈ ls, ∃ b r, l = b :: r ∧ b ≠ 35) : offRest true i ls = ls.zipIdx i := by
  induction ls generalizing i with
  | nil => rfl
  | cons l ls ih =>
    obtain ⟨b, r, rfl, hb⟩ := h l (by simp)
    rw [offRest_cons, List.zipIdx_cons, ih (i + 1) (fun l hl => h l (by simp [hl]))]
    have : startsWith (b :: r) b!"#" = false := by
      simp only [startsWith, List.isPrefixOf, Bool.and_true, beq_eq_false_iff_ne]
      exact fun h => hb h.symm
    simp [this]

theorem head_of {s : Bytes} (hs : s ≠ []) (t : Bytes) (h : ∀ b ∈ s, b ≠ 35) : ∃ b r, s ++ t = b :: r ∧ b ≠ 35 := by
  cases s with
  | nil => exact absurd rfl hs
  | cons b s => exact ⟨b, s ++ t, rfl, h b (by simp)⟩

theorem numByte_ne {b : UInt8} (h : isNumByte b = true) : b ≠ 35 := by
  rintro rfl
  revert h
  decide

theorem fmtNat_ne35 (n : Nat) : ∀ b ∈ fmtNat n, b ≠ 35 := by
  rintro b hb rfl
  have := (fmtNat_digits n).2 35 hb
  revert this
  decide

theorem forall₂_det {β γ : Type} {R : β → γ → Prop} {f : β → γ} {l : List β} {ks : List γ} (h : List.Forall₂ R l ks)
    (hf : ∀ x ∈ l, ∀ k, R x k → k = f x) : ks = l.map f := by
  induction h with
  | nil => rfl
  | cons h _ ih =>
    rw [List.map_cons, hf _ (by simp) _ h, ih fun x hx => hf x (by simp [hx])]

theorem wordsOf_unique {p : UInt8 → Bool} {l : Bytes} {ws ws' : List Bytes} (h : WordsOf p l ws) (h' : WordsOf p l ws') : ws = ws' := by
  rw [← words_of h, ← words_of h']

/-- **C80**: a mesh written in the usual way is loaded again, with the same vertices and faces in the same order. -/
theorem c80_roundtrip (T : FloatText α) (ok : α → Prop) (hT : T.Lawful ok) (m : TMesh (Point3D α))
    (hok : ∀ p ∈ m.verts, ok p.x ∧ ok p.y ∧ ok p.z) (hm : m.WellFormed) (hn : m.verts.length < 2 ^ 64) (hf : m.faces.length < 2 ^ 64) :
    loadOffMesh T ((offText T m).flatMap nl) ⟨[], []⟩ = some (m, .ok ()) := by
  have hb : ∀ n, fmtNat n ≠ [] ∧ ∀ x ∈ fmtNat n, blank x = false := fun n => ⟨(fmtNat_digits n).1, fun x hx => (fmtNat_byte hx).1⟩
  obtain ⟨ks, m', r, hks, hl, hload⟩ := c80_mesh T ((offText T m).flatMap nl) ⟨[], []⟩
  rw [hl]
  rw [offText_lines T ok hT m hok] at hks
  have e0 : offContent (offText T m) = (offText T m).tail.zipIdx 2 := by
    change offRest false 1 (offText T m) = _
    rw [offText, offRest_cons, if_pos (by decide)]
    apply offRest_all
    intro l hl
    rw [List.mem_cons, List.mem_append] at hl
    rcases hl with rfl | hl | hl
    · rw [List.append_assoc, List.append_assoc]
      exact head_of (fmtNat_digits _).1 _ (fmtNat_ne35 _)
    · obtain ⟨p, hp, rfl⟩ := List.mem_map.1 hl
      obtain ⟨ox, -⟩ := hok p hp
      simp only [List.append_assoc]
      exact head_of (hT.fmt_ne _ ox) _ fun b hb => numByte_ne (hT.fmt_bytes _ ox b hb)
    · obtain ⟨f, -, rfl⟩ := List.mem_map.1 hl
      exact ⟨51, _, rfl, by decide⟩
  rw [e0] at hks
  simp only [offText, List.tail_cons, List.zipIdx_cons, List.zipIdx_append, List.length_map] at hks
  have hcw : WordsOf blank (fmtNat m.verts.length ++ b!" " ++ fmtNat m.faces.length ++ b!" 0")
      [fmtNat m.verts.length, fmtNat m.faces.length, b!"0"] := by
    have := wordsOf_three (hb m.verts.length) (hb m.faces.length) (c := b!"0") ⟨by decide, by decide⟩
    simpa [List.append_assoc] using this
  have hcount : CountWords (fmtNat m.verts.length ++ b!" " ++ fmtNat m.faces.length ++ b!" 0") m.verts.length m.faces.length :=
    ⟨_, _, _, hcw, by rw [c72_decimal, if_pos hn], by rw [c72_decimal, if_pos hf]⟩
  rcases hks with ⟨h, -⟩ | ⟨-, h, -⟩ | ⟨n, f, kv, kf, hc, rfl, hkv, hkf⟩
  · obtain ⟨v, w, ws, h1, h2, h3⟩ := hcount
    exact absurd ⟨_, v, _, h1, h2⟩ h
  · exact absurd ⟨_, _, hcount⟩ h
  obtain ⟨h0, -⟩ := countWords_iff.2 hc
  rw [(countWords_iff.2 hcount).1] at h0
  cases h0
  rw [List.take_left' (by simp)] at hkv
  rw [List.drop_left' (by simp)] at hkf
  -- the meaning of the lines is determined
  have ekv : kv = m.verts.map Says.vertex := by
    clear hload hkf
    generalize 2 + 1 = i at hkv
    generalize hvs : m.verts = vs at hkv hok
    clear hvs
    induction vs generalizing kv i with
    | nil => cases hkv; rfl
    | cons p vs ih =>
      rw [List.map_cons, List.zipIdx_cons] at hkv
      cases hkv with
      | cons h1 h2 =>
        rename_i k kv
        rw [ih _ _ h2 (fun q hq => hok q (by simp [hq])), List.map_cons]
        congr 1
        obtain ⟨ox, oy, oz⟩ := hok p (by simp)
        have hw := wordsOf_three ⟨hT.fmt_ne _ ox, fmt_blank hT ox⟩ ⟨hT.fmt_ne _ oy, fmt_blank hT oy⟩ ⟨hT.fmt_ne _ oz, fmt_blank hT oz⟩
        have hvw : VertexWords T (T.fmt p.x ++ b!" " ++ T.fmt p.y ++ b!" " ++ T.fmt p.z) p :=
          ⟨_, _, _, _, hw, hT.fromAscii _ ox, hT.fromAscii _ oy, hT.fromAscii _ oz⟩
        cases k with
        | vertex q =>
          have a1 := (vertexWords_iff (e := ())).2 h1
          have a2 := (vertexWords_iff (e := ())).2 hvw
          rw [a1] at a2
          cases a2; rfl
        | malformed e => exact absurd ⟨p, hvw⟩ h1.1
        | nothing => exact h1.elim
        | face a b c => exact h1.elim
  have ekf : kf = m.faces.map fun f => Says.face f.a f.b f.c := by
    clear hload hkv
    have hidx : ∀ f ∈ m.faces, f.a < 2 ^ 64 ∧ f.b < 2 ^ 64 ∧ f.c < 2 ^ 64 := fun f hf => by
      obtain ⟨h1, h2, h3, -⟩ := hm f hf
      exact ⟨by omega, by omega, by omega⟩
    generalize 2 + 1 + m.verts.length = i at hkf
    generalize hfs : m.faces = fs at hkf hidx
    clear hfs hcount hcw hf hc
    induction fs generalizing kf i with
    | nil => cases hkf; rfl
    | cons g fs ih =>
      rw [List.map_cons, List.zipIdx_cons] at hkf
      cases hkf with
      | cons h1 h2 =>
        rename_i k kf
        rw [ih _ _ h2 (fun q hq => hidx q (by simp [hq])), List.map_cons]
        congr 1
        have hw : WordsOf blank (b!"3 " ++ fmtNat g.a ++ b!" " ++ fmtNat g.b ++ b!" " ++ fmtNat g.c)
            [b!"3", fmtNat g.a, fmtNat g.b, fmtNat g.c] := by
          have := wordsOf_next (p := blank) (w := b!"3") (sep := b!" ") (by decide) (by decide) (by decide) (by decide)
            (wordsOf_three (hb g.a) (hb g.b) (hb g.c))
          simpa [List.append_assoc] using this
        obtain ⟨ia, ib, ic⟩ := hidx g (by simp)
        have pa : fromAscii parseNat (fmtNat g.a) = some g.a := by rw [c72_decimal, if_pos ia]
        have pb : fromAscii parseNat (fmtNat g.b) = some g.b := by rw [c72_decimal, if_pos ib]
        have pc : fromAscii parseNat (fmtNat g.c) = some g.c := by rw [c72_decimal, if_pos ic]
        cases k with
        | face a b c =>
          obtain ⟨wa, wb, wc, ws, w1, w2, w3, w4⟩ := h1
          have := wordsOf_unique hw w1
          simp only [List.cons.injEq, true_and] at this
          obtain ⟨rfl, rfl, rfl, -⟩ := this
          rw [pa] at w2; rw [pb] at w3; rw [pc] at w4
          cases w2; cases w3; cases w4; rfl
        | malformed e =>
          rcases h1 with ⟨h1, -⟩ | ⟨-, h1, -⟩
          · exact absurd ⟨_, hw⟩ h1
          · exact absurd ⟨_, _, _, _, _, _, _, hw, pa, pb, pc⟩ h1
        | nothing => exact h1.elim
        | vertex p => exact h1.elim
  subst ekv ekf
  have hvert : ∀ (ps : List (Point3D α)) (ks : List (Says (Point3D α) (LineInfo OffError))), verticesOf (ps.map Says.vertex ++ ks) = ps ++ verticesOf ks := by
    intro ps ks
    induction ps with
    | nil => rfl
    | cons p ps ih => simp [verticesOf, ih]
  have hface : ∀ (ps : List (Point3D α)) (ks : List (Says (Point3D α) (LineInfo OffError))), facesOf 0 (ps.map Says.vertex ++ ks) = facesOf 0 ks := by
    intro ps ks
    induction ps with
    | nil => rfl
    | cons p ps ih => simp [facesOf, ih]
  have hvf : ∀ fs : List Face3, verticesOf (fs.map fun f => (Says.face f.a f.b f.c : Says (Point3D α) (LineInfo OffError))) = [] := by
    intro fs
    induction fs with
    | nil => rfl
    | cons p ps ih => simp [verticesOf, ih]
  have hff : ∀ fs : List Face3, facesOf 0 (fs.map fun f => (Says.face f.a f.b f.c : Says (Point3D α) (LineInfo OffError))) = fs := by
    intro fs
    induction fs with
    | nil => rfl
    | cons p ps ih => simp [facesOf, ih]
  obtain ⟨good, rest, e, -, rfl, h⟩ := hload
  rcases h with ⟨rfl, rfl⟩ | ⟨bad, rest', rfl, hbad, -⟩
  · rw [List.append_nil] at e
    rw [← e]
    simp only [verticesOf, facesOf, hvert, hface, hvf, hff, List.append_nil, List.nil_append]
  · exfalso
    apply hbad
    cases good with
    | nil => simp only [List.nil_append, List.cons.injEq] at e; rw [← e.1]; trivial
    | cons k0 good =>
      simp only [List.cons_append, List.cons.injEq] at e
      obtain ⟨rfl, e⟩ := e
      have hwf : ∀ f ∈ m.faces, ∀ n, m.verts.length ≤ n → Fits 0 n (Says.face f.a f.b f.c : Says (Point3D α) (LineInfo OffError)) := by
        intro f hf n hn
        obtain ⟨h1, h2, h3, h4, h5, h6⟩ := hm f hf
        refine ⟨?_, ?_, ?_, ?_, ?_, ?_⟩ <;> omega
      simp only [List.nil_append, verticesOf]
      rcases List.append_eq_append_iff.1 e with ⟨as, ea, eb⟩ | ⟨bs, ea, eb⟩
      · have hkf : bad ∈ m.faces.map fun f => (Says.face f.a f.b f.c : Says (Point3D α) (LineInfo OffError)) := by rw [eb]; simp
        obtain ⟨f, hf, rfl⟩ := List.mem_map.1 hkf
        apply hwf f hf
        rw [ea, hvert, List.length_append]
        omega
      · cases bs with
        | nil =>
          have hkf : bad ∈ m.faces.map fun f => (Says.face f.a f.b f.c : Says (Point3D α) (LineInfo OffError)) := by
            rw [← List.nil_append (m.faces.map _), ← eb]; simp
          obtain ⟨f, hf, rfl⟩ := List.mem_map.1 hkf
          apply hwf f hf
          rw [List.append_nil] at ea
          rw [← ea]
          have := hvert m.verts []
          rw [List.append_nil] at this
          rw [this]
          simp [verticesOf]
        | cons b bs =>
          simp only [List.cons_append, List.cons.injEq] at eb
          obtain ⟨rfl, -⟩ := eb
          have : bad ∈ m.verts.map Says.vertex := by rw [ea]; simp
          obtain ⟨p, -, rfl⟩ := List.mem_map.1 this
          trivial

/-- C80 fails: a file that ends in the vertex part is loaded without an error -/
theorem c80_violated_truncated : ∃ file : Bytes, file = b!"OFF\n4 2 0\n0 0 0\n1 0 0\n" ∧
    loadOffMesh natText file ⟨[], []⟩ = some (⟨[⟨0, 0, 0⟩, ⟨1, 0, 0⟩], []⟩, .ok ()) ∧
    loadOffPoints natText file = some ([⟨0, 0, 0⟩, ⟨1, 0, 0⟩], .ok ()) := by
  refine ⟨_, rfl, ?_, ?_⟩ <;> decide +kernel

/-- C80 fails: faces beyond the announced number are loaded -/
theorem c80_violated_count : ∃ file : Bytes, file = b!"OFF\n3 1 0\n0 0 0\n1 0 0\n0 1 0\n3 0 1 2\n3 2 1 0\n" ∧
    loadOffMesh natText file ⟨[], []⟩ = some (⟨[⟨0, 0, 0⟩, ⟨1, 0, 0⟩, ⟨0, 1, 0⟩], [⟨0, 1, 2⟩, ⟨2, 1, 0⟩]⟩, .ok ()) := by
  refine ⟨_, rfl, ?_⟩; decide +kernel

/-! ### .pts -/

/-- the lines that are not empty, with their numbers -/
def Spec.ptsContent (ls : List Bytes) : List (Bytes × Nat) := (ls.zipIdx 1).filter fun x => !x.1.isEmpty

/-- What the content says when `n` more points belong to the current block: points while there are some left, otherwise
the size of the next block. -/
inductive Spec.PtsMeans (T : FloatText α) : Nat → List (Bytes × Nat) → List (Says (Point3D α) (LineInfo PtsError)) → Prop
  | done {n} : PtsMeans T n [] []
  | vertex {n p l i cs ks} : VertexWords T l p → PtsMeans T n cs ks → PtsMeans T (n + 1) ((l, i) :: cs) (.vertex p :: ks)
  | noVertex {n l i cs} : (¬∃ p, VertexWords T l p) → PtsMeans T (n + 1) ((l, i) :: cs) [.malformed (.line i l .Vertex)]
  | block {n l i cs ks} : CountWord l n → PtsMeans T n cs ks → PtsMeans T 0 ((l, i) :: cs) (.nothing :: ks)
  | noBlock {l i cs} : (¬∃ n, CountWord l n) → PtsMeans T 0 ((l, i) :: cs) [.malformed (.line i l .VertexCount)]

/-- the content that is left at a line -/
def ptsRest (i : Nat) (ls : List Bytes) : List (Bytes × Nat) := (ls.zipIdx i).filter fun x => !x.1.isEmpty

theorem ptsRest_cons (i : Nat) (l : Bytes) (ls : List Bytes) : ptsRest i (l :: ls) =
    if l.isEmpty then ptsRest (i + 1) ls else (l, i) :: ptsRest (i + 1) ls := by
  unfold ptsRest
  cases h : l.isEmpty <;> simp_all [List.zipIdx_cons, List.filter_cons]

theorem ptsLoop_content (T : FloatText α) (ls : List Bytes) (s : PtsIter) :
    (ptsRest (s.iLine + 1) ls = [] → (ptsLoop T ls s).1 = none) ∧
    ∀ l i cs, ptsRest (s.iLine + 1) ls = (l, i) :: cs → ∃ s', s'.nVertices = s.nVertices ∧ s'.nVerticesAdded = s.nVerticesAdded ∧
      s'.isDone = s.isDone ∧ s'.iLine = i ∧ ptsRest (i + 1) s'.lines = cs ∧ ptsLoop T ls s = ptsLine T l s' := by
  induction ls generalizing s with
  | nil => exact ⟨fun _ => by simp [ptsLoop], fun l i cs h => by simp [ptsRest] at h⟩
  | cons l ls ih =>
    rw [ptsRest_cons, ptsLoop]
    split_ifs with h1
    · exact ih { s with lines := ls, iLine := s.iLine + 1 }
    · refine ⟨fun h => by simp at h, fun l' i cs h => ?_⟩
      simp only [List.cons.injEq, Prod.mk.injEq] at h
      obtain ⟨⟨rfl, rfl⟩, rfl⟩ := h
      exact ⟨{ s with lines := ls, iLine := s.iLine + 1 }, rfl, rfl, rfl, rfl, rfl, rfl⟩

theorem pts_steps (T : FloatText α) (cs : List (Bytes × Nat)) (s : PtsIter) (hs : s.isDone = false)
    (hn : s.nVertices = none → s.nVerticesAdded = 0) (hcs : ptsRest (s.iLine + 1) s.lines = cs) :
    ∃ ks, Steps (fun s => some (ptsNext T s)) s ks ∧ PtsMeans T (s.nVertices.getD 0 - s.nVerticesAdded) cs ks ∧ ks.length ≤ cs.length := by
  induction cs generalizing s with
  | nil =>
    refine ⟨[], .done (s' := (ptsNext T s).2) ?_, .done, by simp⟩
    have := (ptsLoop_content T s.lines s).1 hcs
    simp only [ptsNext, hs, Bool.false_eq_true, if_false]
    rw [← this]
  | cons c cs ih =>
    obtain ⟨l, i⟩ := c
    obtain ⟨s', e1, e2, e3, e4, e5, e6⟩ := (ptsLoop_content T s.lines s).2 l i cs hcs
    obtain ⟨ls', d', i', nv', na'⟩ := s'
    dsimp only at e1 e2 e3 e4 e5
    subst e1 e2 e3 e4
    have hnext : ptsNext T s = ptsLine T l ⟨ls', s.isDone, i', s.nVertices, s.nVerticesAdded⟩ := by
      rw [← e6]; unfold ptsNext; rw [if_neg (by rw [hs]; simp)]
    -- the start of a block
    have hblock : s.nVertices.getD 0 - s.nVerticesAdded = 0 → (∀ v : Option Nat, ptsNext T s = (match nthNum parseNat (toWords l) 0 with
          | some n => (some (.ok (.reserve n 0)), ⟨ls', s.isDone, i', some n, 0⟩)
          | none => (some (.error (.line i' l .VertexCount)), ⟨ls', true, i', v, 0⟩)) →
        ∃ ks, Steps (fun s => some (ptsNext T s)) s ks ∧ PtsMeans T (s.nVertices.getD 0 - s.nVerticesAdded) ((l, i') :: cs) ks ∧
          ks.length ≤ ((l, i') :: cs).length) := by
      intro hz v hst
      rw [hz]
      cases h0 : nthNum parseNat (toWords l) 0 with
      | none =>
        rw [h0] at hst
        refine ⟨_, .malformed (ks := []) (by rw [hst]), .noBlock fun ⟨n, h⟩ => ?_, by simp⟩
        rw [countWord_iff.2 h] at h0; cases h0
      | some n =>
        rw [h0] at hst
        obtain ⟨ks, h1, h2, h3⟩ := ih ⟨ls', s.isDone, i', some n, 0⟩ hs (fun h => by cases h) e5
        exact ⟨.nothing :: ks, .reserve (by rw [hst]) h1, .block (countWord_iff.1 h0) h2, by simp; exact h3⟩
    unfold ptsLine at hnext
    dsimp only at hnext
    cases hv : s.nVertices with
    | none =>
      have hz := hn hv
      rw [hv, hz] at hnext
      have := hblock (by rw [hv]; simp) none hnext
      rwa [hv] at this
    | some n =>
      rw [hv] at hnext
      dsimp only at hnext
      by_cases hlt : s.nVerticesAdded < n
      · rw [if_pos hlt] at hnext
        have ht : (some n).getD 0 - s.nVerticesAdded = (n - (s.nVerticesAdded + 1)) + 1 := by
          rw [Option.getD_some]; omega
        rw [ht]
        cases hp : vertexOf T PtsError.Vertex (toWords l) with
        | ok p =>
          rw [hp] at hnext
          obtain ⟨ks, h1, h2, h3⟩ := ih ⟨ls', s.isDone, i', some n, s.nVerticesAdded + 1⟩ hs (fun h => by cases h) e5
          exact ⟨.vertex p :: ks, .vertex (by rw [hnext]) h1, .vertex (vertexWords_iff.1 hp) h2, by simp; exact h3⟩
        | error e =>
          have he := vertexOf_error hp
          subst he
          rw [hp] at hnext
          refine ⟨_, .malformed (ks := []) (by rw [hnext]), .noVertex fun ⟨p, h⟩ => ?_, by simp⟩
          rw [(vertexWords_iff (e := PtsError.Vertex)).2 h] at hp; cases hp
      · rw [if_neg hlt] at hnext
        have := hblock (by rw [hv, Option.getD_some]; omega) (some n) hnext
        rwa [hv] at this

/-- **C81**: what loading any .pts file does: blocks of a count and that many points; the points before the first malformed
line are loaded and that line is reported. -/
theorem c81_pts (T : FloatText α) (input : Bytes) : ∃ ks pts r, PtsMeans T 0 (ptsContent (lines input)) ks ∧
    loadPts T input = some (pts, r) ∧ LoadedPoints ks pts r := by
  obtain ⟨ks, h1, h2, h3⟩ := pts_steps T _ ⟨lines input, false, 0, none, 0⟩ rfl (fun _ => rfl) rfl
  have : (ptsRest (0 + 1) (lines input)).length ≤ (lines input).length := by
    unfold ptsRest
    refine (List.length_filter_le _ _).trans ?_
    rw [List.length_zipIdx]
  obtain ⟨pts, r, h4, h5⟩ := forEach_points h1 [] ((lines input).length + 1) (by dsimp only at h3; omega)
  exact ⟨ks, pts, r, h2, h4, h5⟩

/-- two blocks -/
example : loadPts natText b!"2\n1 2 3\n4 5 6 77\n\n1\n7 8 9\n" = some ([⟨1, 2, 3⟩, ⟨4, 5, 6⟩, ⟨7, 8, 9⟩], .ok ()) := by decide +kernel

/-- C81 fails: a block with fewer points than announced is not reported at the end of the file -/
theorem c81_violated : ∃ file : Bytes, file = b!"3\n1 2 3\n4 5 6\n" ∧
    loadPts natText file = some ([⟨1, 2, 3⟩, ⟨4, 5, 6⟩], .ok ()) := by
  refine ⟨_, rfl, ?_⟩; decide +kernel

/-- the hypotheses of `c80_roundtrip` are met -/
example : let m : TMesh (Point3D Nat) := ⟨[⟨1, 2, 3⟩, ⟨4, 5, 6⟩, ⟨7, 8, 9⟩], [⟨0, 1, 2⟩]⟩
    natText.Lawful (fun n => n < 2 ^ 64) ∧ (∀ p ∈ m.verts, p.x < 2 ^ 64 ∧ p.y < 2 ^ 64 ∧ p.z < 2 ^ 64) ∧ m.WellFormed ∧
    m.verts.length < 2 ^ 64 ∧ m.faces.length < 2 ^ 64 := by
  refine ⟨natText_lawful, by simp, ?_, by simp, by simp⟩
  simp [TMesh.WellFormed]

end R3D

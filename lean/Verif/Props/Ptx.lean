import Verif.Props.Off
import Verif.Props.AABBTree
import Verif.Lemmas.Scalar
/-!
C82: loading .ptx files.
-/
namespace R3D
open Spec Scalar

variable {α : Type}

/-! ### specification -/

/-- the line starts with four numbers -/
def Spec.RowWords (T : FloatText α) (line : Bytes) (r : Fin 4 → α) : Prop :=
  ∃ w0 w1 w2 w3 ws, WordsOf blank line (w0 :: w1 :: w2 :: w3 :: ws) ∧
    fromAscii T.parse w0 = some (r 0) ∧ fromAscii T.parse w1 = some (r 1) ∧ fromAscii T.parse w2 = some (r 2) ∧
    fromAscii T.parse w3 = some (r 3)

/-- the lines of one scan: columns, rows, four lines about the scanner, the matrix, then one line per point -/
def Spec.PtxScan (T : FloatText α) (ls : List Bytes) (m : Matrix4 α) (ps : List (Point3D α)) : Prop :=
  ∃ lc lr s1 s2 s3 s4 m1 m2 m3 m4 body columns rows,
    ls = lc :: lr :: s1 :: s2 :: s3 :: s4 :: m1 :: m2 :: m3 :: m4 :: body ∧
    fromAscii parseNat lc = some columns ∧ fromAscii parseNat lr = some rows ∧
    RowWords T m1 (m.data 0) ∧ RowWords T m2 (m.data 1) ∧ RowWords T m3 (m.data 2) ∧ RowWords T m4 (m.data 3) ∧
    body.length = rows * columns ∧ rows * columns < 2 ^ 64 ∧ List.Forall₂ (VertexWords T) body ps

/-- what happens to the points of a scan -/
def Spec.placed [Scalar α] (m : Matrix4 α) (p : Point3D α) : Point3D α :=
  if ∀ i j, (m.data i j ==. (Matrix4.identity : Matrix4 α).data i j) = true then p else p.transformed m

/-! ### proofs -/

theorem readMatrixRow_of {T : FloatText α} {line : Bytes} {r : Fin 4 → α} (h : RowWords T line r) : readMatrixRow T line = some r := by
  obtain ⟨w0, w1, w2, w3, ws, h0, h1, h2, h3, h4⟩ := h
  unfold readMatrixRow
  rw [toWords_iff.2 h0]
  simp only [nthNum, List.getElem?_cons_zero, List.getElem?_cons_succ, Option.bind_some, h1, h2, h3, h4]
  congr 1
  funext i
  fin_cases i <;> rfl

theorem readMatrixRow_iff {T : FloatText α} {line : Bytes} {r : Fin 4 → α} : readMatrixRow T line = some r ↔ RowWords T line r := by
  refine ⟨fun h => ?_, readMatrixRow_of⟩
  unfold readMatrixRow at h
  obtain ⟨ws, hws⟩ := wordsOf_exists blank line
  rw [toWords_iff.2 hws] at h
  match ws, hws, h with
  | [], _, h => simp [nthNum] at h
  | [_], _, h => simp [nthNum] at h
  | [_, _], _, h => simp [nthNum] at h
  | [_, _, _], _, h => simp [nthNum] at h
  | w0 :: w1 :: w2 :: w3 :: ws, hws, h =>
    simp only [nthNum, List.getElem?_cons_zero, List.getElem?_cons_succ, Option.bind_some] at h
    split at h
    · rename_i a b c d h0 h1 h2 h3
      cases h
      exact ⟨w0, w1, w2, w3, ws, hws, h0, h1, h2, h3⟩
    · cases h

theorem Matrix4.beq_iff [Scalar α] (a b : Matrix4 α) : a.beq b = true ↔ ∀ i j, (a.data i j ==. b.data i j) = true := by
  simp only [Matrix4.beq, List.all_eq_true, List.mem_finRange, true_implies]

theorem ptxFetchOne_ok [Scalar α] {T : FloatText α} {line : Bytes} {p : Point3D α} (m : Matrix4 α) (h : VertexWords T line p) :
    ptxFetchOne T line (!(m.beq Matrix4.identity)) m = .ok (placed m p) := by
  unfold ptxFetchOne
  rw [(vertexWords_iff (e := PtxError.Point)).2 h]
  dsimp only
  congr 1
  unfold placed
  by_cases hb : m.beq Matrix4.identity = true
  · rw [hb, if_pos ((Matrix4.beq_iff _ _).1 hb)]; simp
  · rw [if_neg (fun h => hb ((Matrix4.beq_iff _ _).2 h))]
    simp [hb]

/-- the points of a scan, all of them or as many as there are -/
theorem ptx_body_steps [Scalar α] (T : FloatText α) (m : Matrix4 α) (body rest : List Bytes) (ps : List (Point3D α))
    (hps : List.Forall₂ (VertexWords T) body ps) (i n : Nat) (ks : List (Says (Point3D α) (LineInfo PtxError)))
    (h : Steps (ptxNext T) ⟨rest, false, i + body.length, n, !(m.beq Matrix4.identity), m⟩ ks) :
    Steps (ptxNext T) ⟨body ++ rest, false, i, body.length + n, !(m.beq Matrix4.identity), m⟩
      (ps.map (fun p => Says.vertex (placed m p)) ++ ks) := by
  induction hps generalizing i with
  | nil => simpa using h
  | @cons l p body ps hp _ ih =>
    refine .vertex (s' := ⟨body ++ rest, false, i + 1, body.length + n, !(m.beq Matrix4.identity), m⟩) ?_ (ih (i + 1) ?_)
    · unfold ptxNext
      rw [if_neg (by simp), if_neg (by simp only [List.length_cons]; omega)]
      dsimp only [List.cons_append]
      rw [ptxFetchOne_ok m hp]
      have : (l :: body).length + n - 1 = body.length + n := by simp only [List.length_cons]; omega
      rw [this]
    · rw [List.length_cons] at h
      rwa [show i + 1 + body.length = i + (body.length + 1) by omega]

theorem ptxHeader_ok {T : FloatText α} {lr s1 s2 s3 s4 m1 m2 m3 m4 : Bytes} {rest : List Bytes} {rows : Nat} {m : Matrix4 α}
    (hr : fromAscii parseNat lr = some rows) (h1 : RowWords T m1 (m.data 0)) (h2 : RowWords T m2 (m.data 1))
    (h3 : RowWords T m3 (m.data 2)) (h4 : RowWords T m4 (m.data 3)) (i : Nat) :
    ptxHeader T (lr :: s1 :: s2 :: s3 :: s4 :: m1 :: m2 :: m3 :: m4 :: rest) i = .ok (rows, m, rest) := by
  have e : (⟨![m.data 0, m.data 1, m.data 2, m.data 3]⟩ : Matrix4 α) = m := by
    obtain ⟨d⟩ := m
    congr 1
    funext k
    fin_cases k <;> rfl
  simp [ptxHeader, ptxRows, ptxSkip, ptxRow, hr, readMatrixRow_of h1, readMatrixRow_of h2, readMatrixRow_of h3, readMatrixRow_of h4,
    bind, Except.bind, pure, Except.pure, e]

/-- the first line of a scan leads to its points -/
theorem ptx_scan_head [Scalar α] (T : FloatText α) {lc lr s1 s2 s3 s4 m1 m2 m3 m4 : Bytes} {rest : List Bytes} {columns rows : Nat}
    {m : Matrix4 α} (hc : fromAscii parseNat lc = some columns) (hr : fromAscii parseNat lr = some rows)
    (h1 : RowWords T m1 (m.data 0)) (h2 : RowWords T m2 (m.data 1)) (h3 : RowWords T m3 (m.data 2)) (h4 : RowWords T m4 (m.data 3))
    (hlt : rows * columns < 2 ^ 64) (i : Nat) (mt : Bool) (m0 : Matrix4 α) :
    ptxNext T ⟨lc :: lr :: s1 :: s2 :: s3 :: s4 :: m1 :: m2 :: m3 :: m4 :: rest, false, i, 0, mt, m0⟩ =
      some (some (.ok (.reserve (rows * columns) 0)), ⟨rest, false, i + 10, rows * columns, !(m.beq Matrix4.identity), m⟩) := by
  unfold ptxNext
  simp only [Bool.false_eq_true, if_false, if_true, hc, ptxHeader_ok hr h1 h2 h3 h4, if_pos hlt]

theorem ptx_scan_steps [Scalar α] (T : FloatText α) (ls rest : List Bytes) (m : Matrix4 α) (ps : List (Point3D α))
    (h : PtxScan T ls m ps) (ks : List (Says (Point3D α) (LineInfo PtxError)))
    (hk : ∀ mt m0, Steps (ptxNext T) ⟨rest, false, i + ls.length, 0, mt, m0⟩ ks) (mt : Bool) (m0 : Matrix4 α) :
    Steps (ptxNext T) ⟨ls ++ rest, false, i, 0, mt, m0⟩ (.nothing :: (ps.map (fun p => Says.vertex (placed m p)) ++ ks)) := by
  obtain ⟨lc, lr, s1, s2, s3, s4, m1, m2, m3, m4, body, columns, rows, rfl, hc, hr, h1, h2, h3, h4, hlen, hlt, hps⟩ := h
  refine .reserve (ptx_scan_head T hc hr h1 h2 h3 h4 hlt i mt m0) ?_
  have := ptx_body_steps T m body rest ps hps (i + 10) 0 ks (by
    have := hk (!(m.beq Matrix4.identity)) m
    simp only [List.length_cons] at this
    rwa [show i + 10 + body.length = i + (body.length + 1 + 1 + 1 + 1 + 1 + 1 + 1 + 1 + 1 + 1) by omega])
  rw [Nat.add_zero, hlen] at this
  exact this

/-- several scans -/
theorem ptx_scans_steps [Scalar α] (T : FloatText α) (scans : List (List Bytes × Matrix4 α × List (Point3D α)))
    (h : ∀ s ∈ scans, PtxScan T s.1 s.2.1 s.2.2) (rest : List Bytes) (ks : List (Says (Point3D α) (LineInfo PtxError))) (i : Nat)
    (hk : ∀ mt m0, Steps (ptxNext T) ⟨rest, false, i + (scans.flatMap (·.1)).length, 0, mt, m0⟩ ks) (mt : Bool) (m0 : Matrix4 α) :
    Steps (ptxNext T) ⟨scans.flatMap (·.1) ++ rest, false, i, 0, mt, m0⟩
      (scans.flatMap (fun s => .nothing :: s.2.2.map fun p => Says.vertex (placed s.2.1 p)) ++ ks) := by
  induction scans generalizing i mt m0 with
  | nil => simpa using hk mt m0
  | cons s scans ih =>
    have := ptx_scan_steps T s.1 (scans.flatMap (·.1) ++ rest) s.2.1 s.2.2 (h s (by simp))
      (scans.flatMap (fun s => .nothing :: s.2.2.map fun p => Says.vertex (placed s.2.1 p)) ++ ks)
      (i := i) (fun mt m0 => ih (fun t ht => h t (by simp [ht])) (i + s.1.length) (fun mt m0 => by
        have := hk mt m0
        rw [List.flatMap_cons, List.length_append] at this
        rwa [Nat.add_assoc]) mt m0) mt m0
    rw [List.flatMap_cons, List.flatMap_cons]
    simpa [List.append_assoc] using this

theorem verticesOf_append {P ε : Type} (a b : List (Says P ε)) : verticesOf (a ++ b) = verticesOf a ++ verticesOf b := by
  induction a with
  | nil => rfl
  | cons k a ih => cases k <;> simp [verticesOf, ih]

theorem verticesOf_map {P ε β : Type} (l : List β) (f : β → P) : verticesOf (l.map fun p => (Says.vertex (f p) : Says P ε)) = l.map f := by
  induction l with
  | nil => rfl
  | cons k a ih => simp [verticesOf, ih]

theorem verticesOf_scans [Scalar α] (scans : List (List Bytes × Matrix4 α × List (Point3D α))) :
    verticesOf (scans.flatMap (fun s => (.nothing : Says (Point3D α) (LineInfo PtxError)) :: s.2.2.map fun p => Says.vertex (placed s.2.1 p))) =
      scans.flatMap fun s => s.2.2.map (placed s.2.1) := by
  induction scans with
  | nil => rfl
  | cons s scans ih =>
    rw [List.flatMap_cons, List.flatMap_cons, verticesOf_append, ih]
    congr 1
    exact verticesOf_map _ _

theorem ptx_scans_length [Scalar α] (T : FloatText α) (scans : List (List Bytes × Matrix4 α × List (Point3D α)))
    (h : ∀ s ∈ scans, PtxScan T s.1 s.2.1 s.2.2) :
    (scans.flatMap (fun s => (.nothing : Says (Point3D α) (LineInfo PtxError)) :: s.2.2.map fun p => Says.vertex (placed s.2.1 p))).length ≤
      (scans.flatMap (·.1)).length := by
  induction scans with
  | nil => simp
  | cons s scans ih =>
    have h1 := ih fun t ht => h t (by simp [ht])
    obtain ⟨lc, lr, s1, s2, s3, s4, m1, m2, m3, m4, body, columns, rows, e, -, -, -, -, -, -, -, -, hps⟩ := h s (by simp)
    have h2 := hps.length_eq
    rw [List.flatMap_cons, List.flatMap_cons, List.length_append, List.length_append, e]
    simp only [List.length_cons, List.length_map]
    omega

theorem no_malformed_scans [Scalar α] (scans : List (List Bytes × Matrix4 α × List (Point3D α))) :
    ∀ k ∈ scans.flatMap (fun s => (.nothing : Says (Point3D α) (LineInfo PtxError)) :: s.2.2.map fun p => Says.vertex (placed s.2.1 p)),
      ∀ e, k ≠ .malformed e := by
  intro k hk e
  obtain ⟨s, -, hk⟩ := List.mem_flatMap.1 hk
  rcases List.mem_cons.1 hk with rfl | hk
  · simp
  · obtain ⟨p, -, rfl⟩ := List.mem_map.1 hk
    simp

/-- what is loaded is determined by the meaning of the lines -/
theorem loadedPoints_split {P ε : Type} {good : List (Says P ε)} (hg : ∀ k ∈ good, ∀ e, k ≠ .malformed e) {pts : List P}
    {r : Except ε Unit} :
    (LoadedPoints good pts r → pts = verticesOf good ∧ r = .ok ()) ∧
    (∀ e ks, LoadedPoints (good ++ .malformed e :: ks) pts r → pts = verticesOf good ∧ r = .error e) := by
  constructor
  · rintro ⟨g, rest, rfl, -, rfl, ⟨rfl, h⟩ | ⟨e, rest', rfl, h⟩⟩
    · exact ⟨by simp, h⟩
    · exact absurd rfl (hg (.malformed e) (by simp) e)
  · rintro e ks ⟨g, rest, he, hg', rfl, h⟩
    rcases List.append_eq_append_iff.1 he with ⟨a, e1, e2⟩ | ⟨a, e1, e2⟩
    · cases a with
      | nil =>
        rw [List.append_nil] at e1
        rw [List.nil_append] at e2
        subst e1
        rcases h with ⟨rfl, -⟩ | ⟨e', rest', rfl, h⟩
        · simp at e2
        · simp only [List.cons.injEq, Says.malformed.injEq] at e2
          rw [h, e2.1]; exact ⟨rfl, rfl⟩
      | cons x a =>
        simp only [List.cons_append, List.cons.injEq] at e2
        exact absurd e2.1.symm (hg' x (by rw [e1]; simp) e)
    · cases a with
      | nil =>
        rw [List.append_nil] at e1
        rw [List.nil_append] at e2
        subst e1
        rcases h with ⟨rfl, -⟩ | ⟨e', rest', rfl, h⟩
        · simp at e2
        · simp only [List.cons.injEq, Says.malformed.injEq] at e2
          rw [h, ← e2.1]; exact ⟨rfl, rfl⟩
      | cons x a =>
        exfalso
        rcases h with ⟨rfl, -⟩ | ⟨e', rest', rfl, -⟩
        · simp at e2
        · simp only [List.cons_append, List.cons.injEq] at e2
          exact hg x (by rw [e1]; simp) e' e2.1.symm

/-- **C82**: from a file made of complete scans all points are loaded, placed by the matrix of their scan. -/
theorem c82_scans [Scalar α] (T : FloatText α) (input : Bytes) (scans : List (List Bytes × Matrix4 α × List (Point3D α)))
    (hl : lines input = scans.flatMap (·.1)) (h : ∀ s ∈ scans, PtxScan T s.1 s.2.1 s.2.2) :
    loadPtx T input = some (scans.flatMap (fun s => s.2.2.map (placed s.2.1)), .ok ()) := by
  have hs := ptx_scans_steps T scans h [] [] 0 (fun mt m0 => .done (s' := ⟨[], true, 0 + (scans.flatMap (·.1)).length, 0, mt, m0⟩) (by simp [ptxNext])) false Matrix4.identity
  simp only [List.append_nil] at hs
  have hlen := ptx_scans_length T scans h
  obtain ⟨pts, r, h1, h2⟩ := forEach_points hs [] ((lines input).length + 1) (by rw [hl]; omega)
  obtain ⟨rfl, rfl⟩ := (loadedPoints_split (no_malformed_scans scans)).1 h2
  rw [verticesOf_scans] at h1
  rw [loadPtx, PtxIter.new, ← hl] at *
  rw [hl] at h1 ⊢
  simpa using h1

/-- **C82**: if the file ends in the middle of a scan, an error is reported and the points before the end have been loaded. -/
theorem c82_truncated [Scalar α] (T : FloatText α) (input : Bytes) (scans : List (List Bytes × Matrix4 α × List (Point3D α)))
    (cut more : List Bytes) (m : Matrix4 α) (ps : List (Point3D α))
    (hl : lines input = scans.flatMap (·.1) ++ cut) (h : ∀ s ∈ scans, PtxScan T s.1 s.2.1 s.2.2)
    (hcut : PtxScan T (cut ++ more) m ps) (hc : cut ≠ []) (hm : more ≠ []) :
    ∃ i, loadPtx T input = some (scans.flatMap (fun s => s.2.2.map (placed s.2.1)) ++ (ps.take (cut.length - 10)).map (placed m),
      .error (.index i .LoadFileEndReached)) := by
  -- what the cut scan says
  have key : ∀ i, ∃ ks j, (∀ mt m0, Steps (ptxNext T) ⟨cut, false, i, 0, mt, m0⟩ (ks ++ [.malformed (.index j .LoadFileEndReached)])) ∧
      (∀ k ∈ ks, ∀ e, k ≠ .malformed e) ∧ verticesOf ks = (ps.take (cut.length - 10)).map (placed m) ∧ ks.length < cut.length := by
    intro i
    obtain ⟨lc, lr, s1, s2, s3, s4, m1, m2, m3, m4, body, columns, rows, e, hcn, hr, h1, h2, h3, h4, hlen, hlt, hps⟩ := hcut
    by_cases h10 : 10 ≤ cut.length
    · obtain ⟨b1, rfl⟩ : ∃ b1, cut = lc :: lr :: s1 :: s2 :: s3 :: s4 :: m1 :: m2 :: m3 :: m4 :: b1 := by
        match cut, h10, e with
        | a1 :: a2 :: a3 :: a4 :: a5 :: a6 :: a7 :: a8 :: a9 :: a10 :: b1, _, e =>
          simp only [List.cons_append, List.cons.injEq] at e
          obtain ⟨rfl, rfl, rfl, rfl, rfl, rfl, rfl, rfl, rfl, rfl, -⟩ := e
          exact ⟨b1, rfl⟩
      simp only [List.cons_append, List.cons.injEq, true_and] at e
      subst e
      have hps1 : List.Forall₂ (VertexWords T) b1 (ps.take b1.length) := by
        have := List.forall₂_take b1.length hps
        rwa [List.take_left' rfl] at this
      have hmore : 0 < more.length := List.length_pos_iff.2 hm
      rw [List.length_append] at hlen
      refine ⟨.nothing :: (ps.take b1.length).map (fun p => Says.vertex (placed m p)), i + 10 + b1.length, fun mt m0 => ?_, ?_, ?_, ?_⟩
      · refine .reserve (ptx_scan_head T hcn hr h1 h2 h3 h4 hlt i mt m0) ?_
        have := ptx_body_steps T m b1 [] _ hps1 (i + 10) more.length [.malformed (.index (i + 10 + b1.length) .LoadFileEndReached)]
          (.malformed (s' := ⟨[], true, i + 10 + b1.length, more.length - 1, !(m.beq Matrix4.identity), m⟩) (by
            unfold ptxNext
            rw [if_neg (by simp), if_neg (by simp only; omega)]))
        rw [List.append_nil, hlen] at this
        exact this
      · intro k hk e
        rcases List.mem_cons.1 hk with rfl | hk
        · simp
        · obtain ⟨p, -, rfl⟩ := List.mem_map.1 hk
          simp
      · simp only [verticesOf, List.length_cons]
        rw [verticesOf_map]
        congr 2
      · simp only [List.length_cons, List.length_map, List.length_take]
        omega
    · have hz : cut.length - 10 = 0 := by omega
      have hhead : ∃ j, ∀ mt m0, ∃ s', ptxNext T ⟨cut, false, i, 0, mt, m0⟩ = some (some (.error (.index j .LoadFileEndReached)), s') := by
        rw [not_le] at h10
        match cut, hc, h10, e with
        | [a1], _, _, e =>
          simp only [List.cons_append, List.cons.injEq] at e
          obtain ⟨rfl, -⟩ := e
          exact ⟨_, fun mt m0 => ⟨_, by simp only [ptxNext, Bool.false_eq_true, if_false, if_true, hcn]; simp only [ptxHeader, ptxRows, bind, Except.bind]; rfl⟩⟩
        | [a1, a2], _, _, e =>
          simp only [List.cons_append, List.cons.injEq] at e
          obtain ⟨rfl, rfl, -⟩ := e
          exact ⟨_, fun mt m0 => ⟨_, by simp only [ptxNext, Bool.false_eq_true, if_false, if_true, hcn]; simp only [ptxHeader, ptxRows, ptxSkip, hr, bind, Except.bind]; rfl⟩⟩
        | [a1, a2, a3], _, _, e =>
          simp only [List.cons_append, List.cons.injEq] at e
          obtain ⟨rfl, rfl, rfl, -⟩ := e
          exact ⟨_, fun mt m0 => ⟨_, by simp only [ptxNext, Bool.false_eq_true, if_false, if_true, hcn]; simp only [ptxHeader, ptxRows, ptxSkip, hr, bind, Except.bind]; rfl⟩⟩
        | [a1, a2, a3, a4], _, _, e =>
          simp only [List.cons_append, List.cons.injEq] at e
          obtain ⟨rfl, rfl, rfl, rfl, -⟩ := e
          exact ⟨_, fun mt m0 => ⟨_, by simp only [ptxNext, Bool.false_eq_true, if_false, if_true, hcn]; simp only [ptxHeader, ptxRows, ptxSkip, hr, bind, Except.bind]; rfl⟩⟩
        | [a1, a2, a3, a4, a5], _, _, e =>
          simp only [List.cons_append, List.cons.injEq] at e
          obtain ⟨rfl, rfl, rfl, rfl, rfl, -⟩ := e
          exact ⟨_, fun mt m0 => ⟨_, by simp only [ptxNext, Bool.false_eq_true, if_false, if_true, hcn]; simp only [ptxHeader, ptxRows, ptxSkip, hr, bind, Except.bind]; rfl⟩⟩
        | [a1, a2, a3, a4, a5, a6], _, _, e =>
          simp only [List.cons_append, List.cons.injEq] at e
          obtain ⟨rfl, rfl, rfl, rfl, rfl, rfl, -⟩ := e
          exact ⟨_, fun mt m0 => ⟨_, by simp only [ptxNext, Bool.false_eq_true, if_false, if_true, hcn]; simp only [ptxHeader, ptxRows, ptxSkip, ptxRow, hr, bind, Except.bind]; rfl⟩⟩
        | [a1, a2, a3, a4, a5, a6, a7], _, _, e =>
          simp only [List.cons_append, List.cons.injEq] at e
          obtain ⟨rfl, rfl, rfl, rfl, rfl, rfl, rfl, -⟩ := e
          exact ⟨_, fun mt m0 => ⟨_, by simp only [ptxNext, Bool.false_eq_true, if_false, if_true, hcn]; simp only [ptxHeader, ptxRows, ptxSkip, ptxRow, readMatrixRow_of h1, hr, bind, Except.bind]; rfl⟩⟩
        | [a1, a2, a3, a4, a5, a6, a7, a8], _, _, e =>
          simp only [List.cons_append, List.cons.injEq] at e
          obtain ⟨rfl, rfl, rfl, rfl, rfl, rfl, rfl, rfl, -⟩ := e
          exact ⟨_, fun mt m0 => ⟨_, by simp only [ptxNext, Bool.false_eq_true, if_false, if_true, hcn]; simp only [ptxHeader, ptxRows, ptxSkip, ptxRow, readMatrixRow_of h1, readMatrixRow_of h2, hr, bind, Except.bind]; rfl⟩⟩
        | [a1, a2, a3, a4, a5, a6, a7, a8, a9], _, _, e =>
          simp only [List.cons_append, List.cons.injEq] at e
          obtain ⟨rfl, rfl, rfl, rfl, rfl, rfl, rfl, rfl, rfl, -⟩ := e
          exact ⟨_, fun mt m0 => ⟨_, by simp only [ptxNext, Bool.false_eq_true, if_false, if_true, hcn]; simp only [ptxHeader, ptxRows, ptxSkip, ptxRow, readMatrixRow_of h1, readMatrixRow_of h2, readMatrixRow_of h3, hr, bind, Except.bind]; rfl⟩⟩
      obtain ⟨j, hj⟩ := hhead
      refine ⟨[], j, fun mt m0 => ?_, by simp, by rw [hz]; rfl, List.length_pos_iff.2 hc⟩
      obtain ⟨s', hs'⟩ := hj mt m0
      exact .malformed hs'
  obtain ⟨ks, j, hk, hg, hv, hkl⟩ := key (0 + (scans.flatMap (·.1)).length)
  have hs := ptx_scans_steps T scans h cut _ 0 hk false Matrix4.identity
  have hlen := ptx_scans_length T scans h
  obtain ⟨pts, r, h1, h2⟩ := forEach_points hs [] ((lines input).length + 1) (by
    rw [hl]
    simp only [List.length_append, List.length_cons, List.length_nil]
    omega)
  rw [← List.append_assoc] at h2
  obtain ⟨rfl, rfl⟩ := (loadedPoints_split (good := scans.flatMap (fun s => .nothing :: s.2.2.map fun p => Says.vertex (placed s.2.1 p)) ++ ks) (by
    intro k hk
    rcases List.mem_append.1 hk with hk | hk
    · exact no_malformed_scans scans k hk
    · exact hg k hk)).2 _ _ h2
  rw [verticesOf_append, verticesOf_scans, hv] at h1
  refine ⟨j, ?_⟩
  rw [loadPtx, PtxIter.new]
  rw [hl] at h1 ⊢
  simpa using h1

/-- C82: skipping the identity matrix makes no difference in exact arithmetic -/
theorem c82_placed (m : Matrix4 ℝ) (p : Point3D ℝ) : placed m p = p.transformed m := by
  unfold placed
  split_ifs with h
  · have e : ∀ i j, m.data i j = (Matrix4.identity : Matrix4 ℝ).data i j := fun i j => by simpa using h i j
    simp [Point3D.transformed, e, Matrix4.identity]
  · rfl

/-- **C82**: a line of a scan which is no point is reported with its number and text, after the points before it. -/
theorem c82_malformed [Scalar α] (T : FloatText α) (input : Bytes) (scans : List (List Bytes × Matrix4 α × List (Point3D α)))
    (before : List Bytes) (bad good : Bytes) (more after : List Bytes) (m : Matrix4 α) (ps : List (Point3D α))
    (hl : lines input = scans.flatMap (·.1) ++ before ++ bad :: after) (h : ∀ s ∈ scans, PtxScan T s.1 s.2.1 s.2.2)
    (hscan : PtxScan T (before ++ good :: more) m ps) (hb : 10 ≤ before.length) (hbad : ∀ p, ¬ VertexWords T bad p) :
    loadPtx T input = some (scans.flatMap (fun s => s.2.2.map (placed s.2.1)) ++ (ps.take (before.length - 10)).map (placed m),
      .error (.line ((scans.flatMap (·.1)).length + before.length + 1) bad .Point)) := by
  obtain ⟨lc, lr, s1, s2, s3, s4, m1, m2, m3, m4, body, columns, rows, e, hcn, hr, h1, h2, h3, h4, hlen, hlt, hps⟩ := hscan
  obtain ⟨b1, rfl⟩ : ∃ b1, before = lc :: lr :: s1 :: s2 :: s3 :: s4 :: m1 :: m2 :: m3 :: m4 :: b1 := by
    match before, hb, e with
    | a1 :: a2 :: a3 :: a4 :: a5 :: a6 :: a7 :: a8 :: a9 :: a10 :: b1, _, e =>
      simp only [List.cons_append, List.cons.injEq] at e
      obtain ⟨rfl, rfl, rfl, rfl, rfl, rfl, rfl, rfl, rfl, rfl, -⟩ := e
      exact ⟨b1, rfl⟩
  simp only [List.cons_append, List.cons.injEq, true_and] at e
  subst e
  have hps1 : List.Forall₂ (VertexWords T) b1 (ps.take b1.length) := by
    have := List.forall₂_take b1.length hps
    rwa [List.take_left' rfl] at this
  rw [List.length_append, List.length_cons] at hlen
  have hf : ∀ mt m0, ptxFetchOne T bad mt m0 = .error .Point := by
    intro mt m0
    unfold ptxFetchOne
    cases hv : vertexOf T PtxError.Point (toWords bad) with
    | ok p => exact absurd ((vertexWords_iff (e := PtxError.Point)).1 hv) (hbad p)
    | error e => rw [vertexOf_error hv]
  let i := 0 + (scans.flatMap (·.1)).length
  have hk : ∀ mt m0, Steps (ptxNext T) ⟨(lc :: lr :: s1 :: s2 :: s3 :: s4 :: m1 :: m2 :: m3 :: m4 :: b1) ++ bad :: after, false, i, 0, mt, m0⟩
      ((.nothing :: (ps.take b1.length).map (fun p => Says.vertex (placed m p))) ++ [.malformed (.line (i + 10 + b1.length + 1) bad .Point)]) := by
    intro mt m0
    refine .reserve (ptx_scan_head T hcn hr h1 h2 h3 h4 hlt i mt m0) ?_
    have := ptx_body_steps T m b1 (bad :: after) _ hps1 (i + 10) (more.length + 1) [.malformed (.line (i + 10 + b1.length + 1) bad .Point)]
      (.malformed (s' := ⟨after, false, i + 10 + b1.length + 1, more.length, !(m.beq Matrix4.identity), m⟩) (by
        unfold ptxNext
        rw [if_neg (by simp), if_neg (by simp)]
        dsimp only
        rw [hf]
        rfl))
    rw [hlen] at this
    exact this
  have hs := ptx_scans_steps T scans h _ _ 0 hk false Matrix4.identity
  have hlen' := ptx_scans_length T scans h
  obtain ⟨pts, r, h5, h6⟩ := forEach_points hs [] ((lines input).length + 1) (by
    rw [hl]
    simp only [List.length_append, List.length_cons, List.length_nil, List.length_map, List.length_take]
    omega)
  rw [← List.append_assoc] at h6
  obtain ⟨rfl, rfl⟩ := (loadedPoints_split (good := scans.flatMap (fun s => .nothing :: s.2.2.map fun p => Says.vertex (placed s.2.1 p)) ++
      (.nothing :: (ps.take b1.length).map (fun p => Says.vertex (placed m p)))) (by
    intro k hk e
    rcases List.mem_append.1 hk with hk | hk
    · exact no_malformed_scans scans k hk e
    · rcases List.mem_cons.1 hk with rfl | hk
      · simp
      · obtain ⟨p, -, rfl⟩ := List.mem_map.1 hk
        simp)).2 _ _ h6
  have hv : ∀ l : List (Point3D α), verticesOf ((.nothing : Says (Point3D α) (LineInfo PtxError)) :: l.map fun p => Says.vertex (placed m p)) =
      l.map (placed m) := fun l => verticesOf_map l _
  rw [verticesOf_append, verticesOf_scans, hv] at h5
  rw [loadPtx, PtxIter.new]
  rw [hl] at h5 ⊢
  have e2 : (scans.flatMap (·.1)).length + (lc :: lr :: s1 :: s2 :: s3 :: s4 :: m1 :: m2 :: m3 :: m4 :: b1).length + 1 = i + 10 + b1.length + 1 := by
    simp only [List.length_cons, i]; omega
  rw [e2]
  simpa using h5

/-- whole numbers as coordinates, for the examples -/
def natF64 : FloatText F64 := ⟨fun _ => b!"0", fun b => (parseNat b).map fun n => F64.ofRat n⟩

/-- one scan of two points, moved by 10 along x -/
def exampleScan : Bytes := b!"2\n1\n0 0 0\n1 0 0\n0 1 0\n0 0 1\n1 0 0 10\n0 1 0 0\n0 0 1 0\n0 0 0 1\n1 2 3 50\n4 5 6 50\n"

/-- the matrix of `exampleScan` -/
def exampleScanMatrix : Matrix4 F64 :=
  ⟨![![f 1, f 0, f 0, f 10], ![f 0, f 1, f 0, f 0], ![f 0, f 0, f 1, f 0], ![f 0, f 0, f 0, f 1]]⟩

/-- C82 example: the file is one scan in the sense of the specification ... -/
example : PtxScan natF64 (lines exampleScan) exampleScanMatrix [⟨f 1, f 2, f 3⟩, ⟨f 4, f 5, f 6⟩] := by
  refine ⟨b!"2", b!"1", b!"0 0 0", b!"1 0 0", b!"0 1 0", b!"0 0 1", b!"1 0 0 10", b!"0 1 0 0", b!"0 0 1 0", b!"0 0 0 1",
    [b!"1 2 3 50", b!"4 5 6 50"], 2, 1, by decide, by decide, by decide, readMatrixRow_iff.1 ?_, readMatrixRow_iff.1 ?_, readMatrixRow_iff.1 ?_, readMatrixRow_iff.1 ?_, by decide, by decide,
    .cons ((vertexWords_iff (e := ())).1 ?_) (.cons ((vertexWords_iff (e := ())).1 ?_) .nil)⟩
  all_goals decide +kernel

/-- ... and its points are moved -/
example : loadPtx natF64 exampleScan = some ([⟨f 11, f 2, f 3⟩, ⟨f 14, f 5, f 6⟩], .ok ()) := by decide +kernel

/-- C82 is violated for users of the iterator: after an error it goes on with further items. -/
theorem c82_violated_fused : ∃ s : PtxIter F64, ∃ e p s' s'', ptxNext natF64 s = some (some (.error e), s') ∧
    ptxNext natF64 s' = some (some (.ok (.data p)), s'') :=
  ⟨⟨[b!"oops", b!"1 2 3"], false, 10, 2, false, Matrix4.identity⟩, _, _, _, _, rfl, rfl⟩

end R3D

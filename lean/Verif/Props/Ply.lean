import Verif.Props.PlyBody
/-!
C61 and C62: what is loaded from .ply files.
-/
namespace R3D
open Spec

/-! ### specification -/

/-- a .ply file: the header `text` of the lines `ls` with the declaration `d` -/
structure Spec.PlyText (d : PlyDecl) (ls : List Bytes) (text : Bytes) : Prop where
  distinct : d.vertex.Distinct
  header : d.Header ls
  text : TextOf text ls

/-- The points of a .ply file: each coordinate on the axis it is declared for, read with the type it is declared with. -/
def Spec.PlyPoints (T : FloatText F64) (d : PlyDecl) (body : Bytes) (ps : List PlyPoint) : Prop :=
  ps.length = d.nVertices ∧
  match d.format with
  | .Ascii => ∃ vls rest, lines body = vls ++ rest ∧
      List.Forall₂ (fun l p => ∃ v1 v2 v3, AsciiCoords T d.vertex l v1 v2 v3 ∧ p = d.vertex.point v1 v2 v3) vls ps
  | .Binary e => ∃ recs rest, body = recs.flatten ++ rest ∧
      List.Forall₂ (fun rec p => ∃ v1 v2 v3, BinaryCoords e d.vertex d.vertex.t1 d.vertex.t2 d.vertex.t3 rec v1 v2 v3 ∧
        p = d.vertex.point v1 v2 v3) recs ps

/-- **C61** in full: the points of the file are loaded. -/
def C61Statement (T : FloatText F64) : Prop :=
  ∀ d ls text, PlyText d ls text → ∀ body ps, PlyPoints T d body ps → ∀ ip, loadPlyPoints T (text ++ body) ip = some (ip ++ ps, .ok ())

/-- the types of the coordinates are those of x, y and z in this order -/
def Spec.VertexDecl.Plain (d : VertexDecl) : Prop := d.t1 = d.typeOf .X ∧ d.t2 = d.typeOf .Y ∧ d.t3 = d.typeOf .Z

/-- fewer data than announced -/
def Spec.PlyShort (d : PlyDecl) (body : Bytes) : Prop :=
  let (nf, sf) := match d.face with
    | none => (0, 0)
    | some (n, fd) => (n, fd.before.sum + (intSize fd.tCount).1 + 3 * (intSize fd.tIndex).1 + fd.after.sum)
  match d.format with
  | .Ascii => (lines body).length < d.nVertices + nf
  | .Binary _ => body.length < d.nVertices * vertexSize d.vertex d.vertex.t1 d.vertex.t2 d.vertex.t3 + nf * sf

/-- **C62** in full: fewer data than announced is an error. -/
def C62Statement (T : FloatText F64) : Prop :=
  ∀ d ls text, PlyText d ls text → d.face.isSome → ∀ body, PlyShort d body → ∀ m, ∃ m' e, loadPlyMesh T (text ++ body) m = some (m', .error e)

/-! ### the loaders -/

/-- **C61**, **C62**: what `load_ply_mesh` makes of any data behind a header with faces. -/
theorem ply_mesh_of (T : FloatText F64) {d : PlyDecl} {ls : List Bytes} {text : Bytes} (h : PlyText d ls text) (hf : d.face.isSome)
    {body : Bytes} {ks : List PlySays} (hks : PlyData T d d.face ls.length body ks) (m : TMesh PlyPoint) :
    ∃ m' r, loadPlyMesh T (text ++ body) m = some (m', r) ∧ Loaded (.none .InvalidMeshIndices) m ks m' r := by
  obtain ⟨hdr, h1, h2⟩ := ply_header d h.distinct h.header h.text body
  obtain ⟨⟨n, fd⟩, hfd⟩ := Option.isSome_iff_exists.1 hf
  obtain ⟨f, hf'⟩ : ∃ f, hdr.face = some f := by
    have := h2.2.2.2.2.2.2.2.2.2.2
    rw [this, hfd]; exact ⟨_, rfl⟩
  have hs := plyMesh_steps h2 hfd hf' hks
  have hl := plyData_length hks
  have hs' := hs.map (next' := fun s => some (plyMeshNext T s)) (fun c => (⟨hdr.format, hdr.vertex, f, c, none⟩ : PlyMeshIter))
    (fun s x s' he => by
      simp only [Option.some.injEq] at he ⊢
      simp only [plyMeshNext, he])
  obtain ⟨m', r, h3, h4⟩ := forEach_mesh plyPush_push hs' m ((text ++ body).length + 2) (by rw [List.length_append]; omega)
  refine ⟨m', r, ?_, h4⟩
  rw [← h3]
  simp only [loadPlyMesh, PlyMeshIter.new, h1, hf']
  rfl

theorem ply_points_of (T : FloatText F64) {d : PlyDecl} {ls : List Bytes} {text : Bytes} (h : PlyText d ls text)
    {body : Bytes} {ks : List PlySays} (hks : PlyData T d none ls.length body ks) (ip : List PlyPoint) :
    ∃ pts r, loadPlyPoints T (text ++ body) ip = some (ip ++ pts, r) ∧ LoadedPoints ks pts r := by
  obtain ⟨hdr, h1, h2⟩ := ply_header d h.distinct h.header h.text body
  have hs := plyPoints_steps h2 hks
  have hl := plyData_length hks
  have hs' := hs.map (next' := fun s => some (plyPointsNext T s)) (fun c => (⟨hdr.format, hdr.vertex, c, none⟩ : PlyPointsIter))
    (fun s x s' he => by
      simp only [Option.some.injEq, Prod.mk.injEq] at he ⊢
      simp only [plyPointsNext, ← he.1, ← he.2, and_self])
  obtain ⟨m', r, h3, h4⟩ := forEach_points hs' ip ((text ++ body).length + 2) (by rw [List.length_append]; omega)
  refine ⟨m', r, ?_, h4⟩
  rw [← h3]
  simp only [loadPlyPoints, PlyPointsIter.new, h1]
  rfl

theorem ply_either_mesh_of (T : FloatText F64) {d : PlyDecl} {ls : List Bytes} {text : Bytes} (h : PlyText d ls text) (hf : d.face.isSome)
    {body : Bytes} {ks : List PlySays} (hks : PlyData T d d.face ls.length body ks) (m : TMesh PlyPoint) (ip : List PlyPoint) :
    ∃ m' r, loadPlyEither T (text ++ body) m ip = some (m', ip, r.map fun _ => .Mesh) ∧ Loaded (.none .InvalidMeshIndices) m ks m' r := by
  obtain ⟨hdr, h1, h2⟩ := ply_header d h.distinct h.header h.text body
  obtain ⟨⟨n, fd⟩, hfd⟩ := Option.isSome_iff_exists.1 hf
  obtain ⟨f, hf'⟩ : ∃ f, hdr.face = some f := by
    have := h2.2.2.2.2.2.2.2.2.2.2
    rw [this, hfd]; exact ⟨_, rfl⟩
  have hs := plyMesh_steps h2 hfd hf' hks
  have hl := plyData_length hks
  obtain ⟨m', r, h3, h4⟩ := forEach_mesh plyPush_push hs m ((text ++ body).length + 3) (by rw [List.length_append]; omega)
  refine ⟨m', r, ?_, h4⟩
  simp only [loadPlyEither, h1, hf', h3]
  rfl

theorem ply_either_points_of (T : FloatText F64) {d : PlyDecl} {ls : List Bytes} {text : Bytes} (h : PlyText d ls text) (hf : d.face = none)
    {body : Bytes} {ks : List PlySays} (hks : PlyData T d none ls.length body ks) (m : TMesh PlyPoint) (ip : List PlyPoint) :
    ∃ pts r, loadPlyEither T (text ++ body) m ip = some (m, ip ++ pts, r.map fun _ => .Points) ∧ LoadedPoints ks pts r := by
  obtain ⟨hdr, h1, h2⟩ := ply_header d h.distinct h.header h.text body
  have hf' : hdr.face = none := by rw [h2.2.2.2.2.2.2.2.2.2.2, hf]; rfl
  have hs := plyPoints_steps h2 hks
  have hl := plyData_length hks
  obtain ⟨m', r, h3, h4⟩ := forEach_points hs ip ((text ++ body).length + 3) (by rw [List.length_append]; omega)
  refine ⟨m', r, ?_, h4⟩
  simp only [loadPlyEither, h1, hf', h3]
  rfl

/-- **C61**, **C62**: what loading any .ply file with a header of the known form does: the vertices and faces that the data
say are taken over in order up to the first that does not fit, which is reported; without faces the mesh loader fails. -/
theorem c62_load (T : FloatText F64) {d : PlyDecl} {ls : List Bytes} {text : Bytes} (h : PlyText d ls text) (body : Bytes) :
    (∃ ks, PlyData T d none ls.length body ks ∧
      (∀ ip, ∃ pts r, loadPlyPoints T (text ++ body) ip = some (ip ++ pts, r) ∧ LoadedPoints ks pts r) ∧
      (d.face = none → ∀ m ip, ∃ pts r, loadPlyEither T (text ++ body) m ip = some (m, ip ++ pts, r.map fun _ => .Points) ∧
        LoadedPoints ks pts r)) ∧
    (d.face.isSome → ∃ ks, PlyData T d d.face ls.length body ks ∧
      (∀ m, ∃ m' r, loadPlyMesh T (text ++ body) m = some (m', r) ∧ Loaded (.none .InvalidMeshIndices) m ks m' r) ∧
      ∀ m ip, ∃ m' r, loadPlyEither T (text ++ body) m ip = some (m', ip, r.map fun _ => .Mesh) ∧
        Loaded (.none .InvalidMeshIndices) m ks m' r) ∧
    (d.face = none → ∀ m, loadPlyMesh T (text ++ body) m = some (m, .error (.none .LoadHeaderInvalid))) := by
  refine ⟨?_, ?_, ?_⟩
  · obtain ⟨ks, hks⟩ := plyData_exists T d none ls.length body
    exact ⟨ks, hks, ply_points_of T h hks, fun hf m ip => ply_either_points_of T h hf hks m ip⟩
  · intro hf
    obtain ⟨ks, hks⟩ := plyData_exists T d d.face ls.length body
    exact ⟨ks, hks, ply_mesh_of T h hf hks, ply_either_mesh_of T h hf hks⟩
  · intro hf m
    obtain ⟨hdr, h1, h2⟩ := ply_header d h.distinct h.header h.text body
    have hf' : hdr.face = none := by rw [h2.2.2.2.2.2.2.2.2.2.2, hf]; rfl
    simp only [loadPlyMesh, PlyMeshIter.new, h1, hf']

/-! ### data that are complete -/

theorem vertexLines_of {V : Bytes → PlyPoint → Prop} {F : Nat → List Bytes → List PlySays → Prop} {vls : List Bytes} {ps : List PlyPoint}
    (h : List.Forall₂ V vls ps) (i : Nat) (ls : List Bytes) (ks : List PlySays) (hF : F (i + ps.length) ls ks) :
    VertexLines V F i ps.length (vls ++ ls) (ps.map .vertex ++ ks) := by
  induction h generalizing i with
  | nil => exact .none hF
  | cons h _ ih =>
    refine .vertex h (ih (i + 1) ?_)
    rw [List.length_cons] at hF
    rwa [Nat.add_assoc, Nat.add_comm 1]

theorem vertexRecords_of {V : Bytes → PlyPoint → Prop} {size : Nat} {F : Bytes → List PlySays → Prop} {recs : List Bytes} {ps : List PlyPoint}
    (h : List.Forall₂ V recs ps) {rest : Bytes} {ks : List PlySays} (hF : F rest ks) :
    VertexRecords V size F ps.length (recs.flatten ++ rest) (ps.map .vertex ++ ks) := by
  induction h with
  | nil => exact .none hF
  | cons h _ ih =>
    rw [List.flatten_cons, List.append_assoc]
    exact .vertex h ih

theorem faceLines_of {fls : List Bytes} {fs : List Face3} (h : List.Forall₂ (fun l f => TriangleWords l f.a f.b f.c) fls fs) (i : Nat)
    (n : Nat) (hn : n = fs.length ∨ fs.length < n) :
    FaceLines i n fls (fs.map fun f => .face f.a f.b f.c) := by
  induction h generalizing i n with
  | nil =>
    cases n with
    | zero => exact .none
    | succ n => exact .missing
  | cons h _ ih =>
    rw [List.length_cons] at hn
    obtain ⟨n, rfl⟩ := Nat.exists_eq_succ_of_ne_zero (n := n) (by omega)
    exact .face h (ih (i + 1) n (by omega))

theorem faceRecords_of {e : Endian} {d : FaceDecl} {recs : List Bytes} {fs : List Face3}
    (h : List.Forall₂ (fun rec f => FaceRecord e d rec f.a f.b f.c) recs fs) (rest : Bytes) :
    FaceRecords e d fs.length (recs.flatten ++ rest) (fs.map fun f => .face f.a f.b f.c) := by
  induction h with
  | nil => exact .none
  | cons h _ ih =>
    rw [List.flatten_cons, List.append_assoc]
    exact .face h ih

theorem loaded_eq_point {d : VertexDecl} (hc : ¬d.Cyclic) (v1 v2 v3 : F64) : d.loaded v1 v2 v3 = d.point v1 v2 v3 := by
  unfold VertexDecl.loaded
  unfold VertexDecl.Cyclic at hc
  split <;> first | rfl | (exact absurd (by simp_all) hc)

/-- complete vertices are loaded as points, then what follows is read -/
theorem plyPoints_data {T : FloatText F64} {d : PlyDecl} {g : PlyPoint → PlyPoint}
    (hc : ∀ v1 v2 v3, d.vertex.loaded v1 v2 v3 = g (d.vertex.point v1 v2 v3)) (hp : d.format ≠ .Ascii → d.vertex.Plain) {body : Bytes}
    {ps : List PlyPoint} (h : PlyPoints T d body ps) (faces : Option (Nat × FaceDecl)) (k : Nat) :
    ∃ ks, PlyData T d faces k body ((ps.map g).map .vertex ++ ks) ∧ (faces = none → ks = []) ∧ verticesOf ks = [] := by
  obtain ⟨hl, h⟩ := h
  rw [← List.length_map (f := g)] at hl
  have hvf : ∀ {i n ls ks}, FaceLines i n ls ks → verticesOf ks = [] := by
    intro i n ls ks h
    induction h with
    | none => rfl
    | missing => rfl
    | face _ _ ih => exact ih
    | bad => rfl
  have hvr : ∀ {e fd n s ks}, FaceRecords e fd n s ks → verticesOf ks = [] := by
    intro e fd n s ks h
    induction h with
    | face _ _ ih => exact ih
    | _ => rfl
  unfold PlyData
  cases hfm : d.format with
  | Ascii =>
    rw [hfm] at h
    obtain ⟨vls, rest, e1, h2⟩ := h
    have h2' : List.Forall₂ (AsciiLoaded T d.vertex) vls (ps.map g) := List.forall₂_map_right_iff.2
      (h2.imp fun l p ⟨v1, v2, v3, h, hp⟩ => ⟨v1, v2, v3, h, by rw [hc, hp]⟩)
    dsimp only
    rw [e1, ← hl]
    rcases faces with _ | ⟨n, fd⟩
    · exact ⟨[], vertexLines_of h2' k rest [] rfl, fun _ => rfl, rfl⟩
    · obtain ⟨ks, hks⟩ := faceLines_exists (k + (ps.map g).length) n rest
      exact ⟨ks, vertexLines_of h2' k rest ks hks, (by simp), hvf hks⟩
  | Binary e =>
    rw [hfm] at h
    obtain ⟨recs, rest, e1, h2⟩ := h
    obtain ⟨p1, p2, p3⟩ := hp (by rw [hfm]; simp)
    have h2' : List.Forall₂ (BinaryLoaded e d.vertex) recs (ps.map g) := List.forall₂_map_right_iff.2
      (h2.imp fun l p ⟨v1, v2, v3, h, hp⟩ => ⟨v1, v2, v3, by rw [p1, p2, p3] at h; exact h, by rw [hc, hp]⟩)
    dsimp only
    rw [e1, ← hl]
    rcases faces with _ | ⟨n, fd⟩
    · exact ⟨[], vertexRecords_of h2' rfl, fun _ => rfl, rfl⟩
    · obtain ⟨ks, hks⟩ := faceRecords_exists e fd n rest
      exact ⟨ks, vertexRecords_of h2' hks, (by simp), hvr hks⟩

theorem verticesOf_vertices {ε : Type} (ps : List PlyPoint) (ks : List (Says PlyPoint ε)) : verticesOf (ps.map .vertex ++ ks) = ps ++ verticesOf ks := by
  induction ps with
  | nil => rfl
  | cons p ps ih => simp [verticesOf, ih]

theorem loaded_vertices {ε : Type} {eIdx : ε} {m m' : TMesh PlyPoint} {ps : List PlyPoint} {ks : List (Says PlyPoint ε)} {r : Except ε Unit}
    (h : Loaded eIdx m (ps.map .vertex ++ ks) m' r) (hks : verticesOf ks = []) : m'.verts = m.verts ++ ps := by
  obtain ⟨good, rest, he, -, rfl, hr⟩ := h
  dsimp only
  congr 1
  rcases List.append_eq_append_iff.1 he with ⟨a, e1, e2⟩ | ⟨a, e1, e2⟩
  · rw [e1, verticesOf_vertices]
    have : verticesOf a = [] := by
      rw [e2, verticesOf_append] at hks
      exact (List.append_eq_nil_iff.1 hks).1
    rw [this, List.append_nil]
  · cases a with
    | nil =>
      rw [List.append_nil] at e1
      rw [← e1]
      have := verticesOf_vertices ps ([] : List (Says PlyPoint ε))
      simpa [verticesOf] using this
    | cons x a =>
      obtain ⟨p, hp⟩ : ∃ p, x = .vertex p := by
        have : x ∈ ps.map Says.vertex := by rw [e1]; simp
        obtain ⟨p, -, rfl⟩ := List.mem_map.1 this
        exact ⟨p, rfl⟩
      rcases hr with ⟨rfl, -⟩ | ⟨bad, rest', rfl, hbad, -⟩
      · simp at e2
      · simp only [List.cons_append, List.cons.injEq] at e2
        rw [e2.1, hp] at hbad
        exact absurd trivial hbad

/-- points that are all right -/
theorem loadPoints_of (T : FloatText F64) {d : PlyDecl} {ls : List Bytes} {text : Bytes} (h : PlyText d ls text) {body : Bytes}
    {ps : List PlyPoint} (h1 : PlyData T d none ls.length body (ps.map .vertex)) :
    (∀ ip, loadPlyPoints T (text ++ body) ip = some (ip ++ ps, .ok ())) ∧
    (d.face = none → ∀ m ip, loadPlyEither T (text ++ body) m ip = some (m, ip ++ ps, .ok .Points)) := by
  have hv : verticesOf (ps.map .vertex : List PlySays) = ps := by
    have := verticesOf_vertices ps ([] : List PlySays)
    rwa [List.append_nil, show verticesOf ([] : List PlySays) = [] from rfl, List.append_nil] at this
  constructor
  · intro ip
    obtain ⟨pts, r, h3, h4⟩ := ply_points_of T h h1 ip
    obtain ⟨rfl, rfl⟩ := (loadedPoints_split (by simp)).1 h4
    rw [h3, hv]
  · intro hf m ip
    obtain ⟨pts, r, h3, h4⟩ := ply_either_points_of T h hf h1 m ip
    obtain ⟨rfl, rfl⟩ := (loadedPoints_split (by simp)).1 h4
    rw [h3, hv]; rfl

/-- **C61**, for all orders but `y z x` and `z x y` and, in binary files, for types that agree with the order: every coordinate
gets onto the axis it is declared for. The full statement is `C61Statement`; it is violated, see below. -/
theorem c61_partial (T : FloatText F64) {d : PlyDecl} {ls : List Bytes} {text : Bytes} (h : PlyText d ls text) (hc : ¬d.vertex.Cyclic)
    (hp : d.format ≠ .Ascii → d.vertex.Plain) {body : Bytes} {ps : List PlyPoint} (hb : PlyPoints T d body ps) :
    (∀ ip, loadPlyPoints T (text ++ body) ip = some (ip ++ ps, .ok ())) ∧
    (d.face = none → ∀ m ip, loadPlyEither T (text ++ body) m ip = some (m, ip ++ ps, .ok .Points)) ∧
    (d.face.isSome → ∀ m, ∃ m' r, loadPlyMesh T (text ++ body) m = some (m', r) ∧ m'.verts = m.verts ++ ps) := by
  have hg : ∀ v1 v2 v3, d.vertex.loaded v1 v2 v3 = id (d.vertex.point v1 v2 v3) := loaded_eq_point hc
  obtain ⟨ks, h1, h2, -⟩ := plyPoints_data hg hp hb none ls.length
  rw [h2 rfl, List.append_nil, List.map_id] at h1
  obtain ⟨a1, a2⟩ := loadPoints_of T h h1
  refine ⟨a1, a2, ?_⟩
  intro hf m
  obtain ⟨ks, h1, -, h2⟩ := plyPoints_data hg hp hb d.face ls.length
  rw [List.map_id] at h1
  obtain ⟨m', r, h3, h4⟩ := ply_mesh_of T h hf h1 m
  exact ⟨m', r, h3, loaded_vertices h4 h2⟩

/-- **C61** is violated: with the coordinates in the order `y z x` or `z x y`, every point is rotated: of the order `y z x` the
declared z gets onto x, x onto y and y onto z. -/
theorem c61_violated_order (T : FloatText F64) {d : PlyDecl} {ls : List Bytes} {text : Bytes} (h : PlyText d ls text) (hc : d.vertex.Cyclic)
    (hp : d.format ≠ .Ascii → d.vertex.Plain) {body : Bytes} {ps : List PlyPoint} (hb : PlyPoints T d body ps) :
    ∀ ip, loadPlyPoints T (text ++ body) ip =
      some (ip ++ ps.map (fun p => if d.vertex.a1 = .Y then ⟨p.z, p.x, p.y⟩ else ⟨p.y, p.z, p.x⟩), .ok ()) := by
  let g : PlyPoint → PlyPoint := fun p => if d.vertex.a1 = .Y then ⟨p.z, p.x, p.y⟩ else ⟨p.y, p.z, p.x⟩
  have hg : ∀ v1 v2 v3, d.vertex.loaded v1 v2 v3 = g (d.vertex.point v1 v2 v3) := by
    intro v1 v2 v3
    rcases hc with ⟨e1, e2, e3⟩ | ⟨e1, e2, e3⟩ <;> simp [g, VertexDecl.loaded, VertexDecl.point, e1, e2, e3]
  obtain ⟨ks, h1, h2, -⟩ := plyPoints_data (g := g) hg hp hb none ls.length
  rw [h2 rfl, List.append_nil] at h1
  exact (loadPoints_of T h h1).1

/-! ### witnesses -/

/-- a header with three coordinates and no other properties -/
def Witness.decl (format : PlyFormat) (n : Nat) (a1 a2 a3 : PlyAxis) (t1 t2 t3 : VertexType) (face : Option (Nat × FaceDecl)) : PlyDecl :=
  ⟨format, n, ⟨[], a1, t1, [], a2, t2, [], a3, t3, []⟩, face⟩

/-- its lines -/
def Witness.lines (format : PlyFormat) (n x y z : Bytes) (face : List Bytes) : List Bytes :=
  [b!"ply", formatLine format, b!"comment hello", b!"element vertex " ++ n, b!"property " ++ x, b!"property " ++ y, b!"property " ++ z] ++
    face ++ [b!"end_header"]

theorem textOf_self {ls : List Bytes} (h1 : ∀ l ∈ ls, (10 : UInt8) ∉ l) (h2 : ∀ l ∈ ls, ∀ b, l.getLast? = some b → b ∉ wsBytes) :
    TextOf (ls.flatMap nl) ls :=
  ⟨ls, rfl, List.forall₂_same.2 fun l hl => ⟨h1 l hl, trimmed_self (h2 l hl)⟩⟩

theorem textOf_decide {ls : List Bytes} (h : ls.all (fun l => !l.contains 10 && match l.getLast? with | none => true | some b => !wsBytes.contains b) = true) :
    TextOf (ls.flatMap nl) ls := by
  simp only [List.all_eq_true, Bool.and_eq_true, Bool.not_eq_true'] at h
  refine textOf_self (fun l hl => by simpa using (h l hl).1) (fun l hl b hb => ?_)
  have := (h l hl).2
  rw [hb] at this
  simpa using this

theorem coordLine_decide {l ty : Bytes} {a : PlyAxis} {t : VertexType} (h1 : startsWith l b!"property" = true)
    (h2 : toWords l = [b!"property", ty, axisName a]) (h3 : (ty, t) ∈ coordTypes) : CoordLine l a t :=
  ⟨ty, ⟨startsWith_iff.1 h1, b!"property", [], toWords_iff.1 h2⟩, h3⟩

/-- one vertex, the coordinates in the order y, z, x, little endian floats -/
def Witness.cyclic : PlyDecl := Witness.decl (.Binary .little) 1 .Y .Z .X .Float .Float .Float none

theorem Witness.cyclic_text : PlyText Witness.cyclic (Witness.lines (.Binary .little) b!"1" b!"float y" b!"float z" b!"float x" [])
    ((Witness.lines (.Binary .little) b!"1" b!"float y" b!"float z" b!"float x" []).flatMap nl) where
  distinct := by unfold VertexDecl.Distinct; decide
  header := ⟨_, b!"element vertex 1", [b!"property float y", b!"property float z", b!"property float x"], [], rfl, by decide,
    ⟨⟨b!" 1", rfl⟩, b!"element", b!"vertex", b!"1", [], toWords_iff.1 (by decide), by decide⟩,
    ⟨[], _, [], _, [], _, [], rfl, .nil, coordLine_decide (ty := b!"float") (by decide) (by decide) (by decide), .nil,
      coordLine_decide (ty := b!"float") (by decide) (by decide) (by decide), .nil,
      coordLine_decide (ty := b!"float") (by decide) (by decide) (by decide), .nil⟩, rfl⟩
  text := textOf_decide (by decide)

/-- its vertex (1, 2, 3): 2, 3, 1 -/
def Witness.cyclicBody : Bytes := [0, 0, 0, 64] ++ [0, 0, 64, 64] ++ [0, 0, 128, 63]

theorem Witness.cyclic_points (T : FloatText F64) : PlyPoints T Witness.cyclic Witness.cyclicBody [⟨.fin false 1, .fin false 2, .fin false 3⟩] :=
  ⟨rfl, [Witness.cyclicBody], [], rfl, .cons ⟨.fin false 2, .fin false 3, .fin false 1,
    ⟨[], [0, 0, 0, 64], [], [0, 0, 64, 64], [], [0, 0, 128, 63], [], rfl, rfl, rfl, rfl, rfl,
      ⟨rfl, by decide +kernel⟩, ⟨rfl, by decide +kernel⟩, ⟨rfl, by decide +kernel⟩⟩, rfl⟩ .nil⟩

/-- `c61_violated_order` applies -/
example : Witness.cyclic.vertex.Cyclic ∧ Witness.cyclic.vertex.Plain :=
  ⟨.inl ⟨rfl, rfl, rfl⟩, by unfold VertexDecl.Plain; decide⟩

/-- **C61** is violated for every number format: the vertex (1, 2, 3) in the order y, z, x is loaded as (3, 1, 2). -/
theorem c61_violated (T : FloatText F64) : ¬C61Statement T := by
  intro h
  have h1 := h _ _ _ Witness.cyclic_text _ _ (Witness.cyclic_points T) []
  rw [c61_violated_order T Witness.cyclic_text (.inl ⟨rfl, rfl, rfl⟩) (fun _ => by unfold VertexDecl.Plain; decide) (Witness.cyclic_points T) []] at h1
  revert h1
  decide +kernel

/-- one vertex, float y, double x, float z -/
def Witness.mixed : PlyDecl := Witness.decl (.Binary .little) 1 .Y .X .Z .Float .Double .Float none

theorem Witness.mixed_text : PlyText Witness.mixed (Witness.lines (.Binary .little) b!"1" b!"float y" b!"double x" b!"float z" [])
    ((Witness.lines (.Binary .little) b!"1" b!"float y" b!"double x" b!"float z" []).flatMap nl) where
  distinct := by unfold VertexDecl.Distinct; decide
  header := ⟨_, b!"element vertex 1", [b!"property float y", b!"property double x", b!"property float z"], [], rfl, by decide,
    ⟨⟨b!" 1", rfl⟩, b!"element", b!"vertex", b!"1", [], toWords_iff.1 (by decide), by decide⟩,
    ⟨[], _, [], _, [], _, [], rfl, .nil, coordLine_decide (ty := b!"float") (by decide) (by decide) (by decide), .nil,
      coordLine_decide (ty := b!"double") (by decide) (by decide) (by decide), .nil,
      coordLine_decide (ty := b!"float") (by decide) (by decide) (by decide), .nil⟩, rfl⟩
  text := textOf_decide (by decide)

/-- its vertex (1, 2, 3): 2, 1, 3 -/
def Witness.mixedBody : Bytes := [0, 0, 0, 64] ++ [0, 0, 0, 0, 0, 0, 240, 63] ++ [0, 0, 64, 64]

theorem Witness.mixed_points (T : FloatText F64) : PlyPoints T Witness.mixed Witness.mixedBody [⟨.fin false 1, .fin false 2, .fin false 3⟩] :=
  ⟨rfl, [Witness.mixedBody], [], rfl, .cons ⟨.fin false 2, .fin false 1, .fin false 3,
    ⟨[], [0, 0, 0, 64], [], [0, 0, 0, 0, 0, 0, 240, 63], [], [0, 0, 64, 64], [], rfl, rfl, rfl, rfl, rfl,
      ⟨rfl, by decide +kernel⟩, ⟨rfl, by decide +kernel⟩, ⟨rfl, by decide +kernel⟩⟩, rfl⟩ .nil⟩

/-- **C61** is violated for an order that is not cyclic, too: the first coordinate is read with the type of x wherever x stands,
so a vertex with float y, double x, float z is misread without any error. -/
theorem c61_violated_types (T : FloatText F64) : ¬Witness.mixed.vertex.Cyclic ∧ ∃ p : PlyPoint, p.x ≠ .fin false 1 ∧ p.y ≠ .fin false 2 ∧
    loadPlyPoints T ((Witness.lines (.Binary .little) b!"1" b!"float y" b!"double x" b!"float z" []).flatMap nl ++ Witness.mixedBody) [] =
      some ([p], .ok ()) := by
  refine ⟨by unfold VertexDecl.Cyclic; decide, ⟨F64.ofBytes32 .little [0, 0, 240, 63],
    F64.ofBytes64 .little [0, 0, 0, 64, 0, 0, 0, 0], .fin false 3⟩, by decide +kernel, by decide +kernel, ?_⟩
  refine (loadPoints_of T Witness.mixed_text (ps := [_]) ?_).1 []
  have hv : BinaryLoaded .little Witness.mixed.vertex Witness.mixedBody ⟨F64.ofBytes32 .little [0, 0, 240, 63],
      F64.ofBytes64 .little [0, 0, 0, 64, 0, 0, 0, 0], .fin false 3⟩ :=
    ⟨_, _, _, ⟨[], [0, 0, 0, 64, 0, 0, 0, 0], [], [0, 0, 240, 63], [], [0, 0, 64, 64], [], rfl, rfl, rfl, rfl, rfl,
      ⟨rfl, rfl⟩, ⟨rfl, rfl⟩, ⟨rfl, (by decide +kernel : F64.fin false 3 = _)⟩⟩, rfl⟩
  exact vertexRecords_of (recs := [Witness.mixedBody]) (ps := [_]) (.cons hv .nil) (rest := []) (ks := []) rfl

/-- A header that declares a fourth coordinate, as in `x y z x`, makes all loaders panic. -/
theorem c61_violated_panic (T : FloatText F64) : ∃ file, ∀ m ip,
    loadPlyMesh T file m = none ∧ loadPlyPoints T file ip = none ∧ loadPlyEither T file m ip = none := by
  obtain ⟨file, h⟩ : ∃ file, plyLoadHeader file = none := ⟨b!"ply\nformat ascii 1.0\nelement vertex 0\nproperty float x\nproperty float y\nproperty float z\n" ++
      b!"property float x\nend_header\n", by decide +kernel⟩
  exact ⟨file, fun m ip => ⟨by simp only [loadPlyMesh, PlyMeshIter.new, h], by simp only [loadPlyPoints, PlyPointsIter.new, h],
    by simp only [loadPlyEither, h]⟩⟩

/-! ### C62 -/

theorem typeOf_perm {d : VertexDecl} (hd : d.Distinct) (f : VertexType → Nat) :
    f (d.typeOf .X) + f (d.typeOf .Y) + f (d.typeOf .Z) = f d.t1 + f d.t2 + f d.t3 := by
  rcases d with ⟨b, a1, t1, m1, a2, t2, m2, a3, t3, af⟩
  obtain ⟨h1, h2, h3⟩ := hd
  cases a1 <;> cases a2 <;> cases a3 <;> simp [VertexDecl.typeOf] at h1 h2 h3 ⊢ <;> omega

theorem vertexSize_perm {d : VertexDecl} (hd : d.Distinct) :
    vertexSize d (d.typeOf .X) (d.typeOf .Y) (d.typeOf .Z) = vertexSize d d.t1 d.t2 d.t3 := by
  have := typeOf_perm hd coordSize
  unfold vertexSize
  omega

theorem vertexLines_short {V : Bytes → PlyPoint → Prop} {F : Nat → List Bytes → List PlySays → Prop} {i n : Nat} {ls : List Bytes}
    {ks : List PlySays} (h : VertexLines V F i n ls ks) (hn : ls.length + 2 ≤ n) : ∃ e, .malformed e ∈ ks := by
  induction h with
  | none => omega
  | vertex _ _ ih =>
    rw [List.length_cons] at hn
    obtain ⟨e, he⟩ := ih (by omega)
    exact ⟨e, by simp [he]⟩
  | bad => exact ⟨_, List.mem_singleton.2 rfl⟩
  | missing => exact ⟨_, List.mem_singleton.2 rfl⟩
  | missingOne => simp at hn

theorem faceRecord_length {e : Endian} {d : FaceDecl} {rec : Bytes} {a b c : Nat} (h : FaceRecord e d rec a b c) :
    rec.length = d.before.sum + (intSize d.tCount).1 + 3 * (intSize d.tIndex).1 + d.after.sum := by
  obtain ⟨pb, n, ca, cb, cc, pa, rfl, h1, h2, h3, h4, h5, h6, -⟩ := h
  simp only [List.length_append]
  omega

theorem faceRecords_short {e : Endian} {d : FaceDecl} {n : Nat} {s : Bytes} {ks : List PlySays} (h : FaceRecords e d n s ks)
    (hn : s.length < n * (d.before.sum + (intSize d.tCount).1 + 3 * (intSize d.tIndex).1 + d.after.sum)) : ∃ e, .malformed e ∈ ks := by
  have hr := @faceRecord_length e d
  generalize d.before.sum + (intSize d.tCount).1 + 3 * (intSize d.tIndex).1 + d.after.sum = size at hn hr
  induction h with
  | none => simp at hn
  | face h _ ih =>
    rw [List.length_append, hr h, Nat.succ_mul] at hn
    obtain ⟨e, he⟩ := ih (by omega)
    exact ⟨e, by simp [he]⟩
  | notThree => exact ⟨_, List.mem_singleton.2 rfl⟩
  | short => exact ⟨_, List.mem_singleton.2 rfl⟩
  | shortIndices => exact ⟨_, List.mem_singleton.2 rfl⟩

theorem vertexRecords_short {V : Bytes → PlyPoint → Prop} {size more : Nat} {F : Bytes → List PlySays → Prop}
    (hF : ∀ s ks, F s ks → s.length < more → ∃ e, .malformed e ∈ ks) (hV : ∀ rec p, V rec p → rec.length = size) {n : Nat} {s : Bytes}
    {ks : List PlySays} (h : VertexRecords V size F n s ks) (hn : s.length < n * size + more) : ∃ e, .malformed e ∈ ks := by
  induction h with
  | none h => exact hF _ _ h (by omega)
  | vertex h _ ih =>
    rw [List.length_append, hV _ _ h, Nat.succ_mul] at hn
    obtain ⟨e, he⟩ := ih (by omega)
    exact ⟨e, by simp [he]⟩
  | short => exact ⟨_, List.mem_singleton.2 rfl⟩

theorem loaded_malformed {ε : Type} {eIdx : ε} {m m' : TMesh PlyPoint} {ks : List (Says PlyPoint ε)} {r : Except ε Unit}
    (h : Loaded eIdx m ks m' r) (hk : ∃ e, .malformed e ∈ ks) : ∃ e, r = .error e := by
  obtain ⟨good, rest, rfl, hg, -, ⟨rfl, -⟩ | ⟨bad, rest', -, -, hr⟩⟩ := h
  · obtain ⟨e, he⟩ := hk
    rw [List.append_nil] at he
    obtain ⟨a, b, rfl⟩ := List.append_of_mem he
    exact absurd (hg a _ b rfl) id
  · exact ⟨_, hr⟩

theorem loadedPoints_malformed {ε : Type} {pts : List PlyPoint} {ks : List (Says PlyPoint ε)} {r : Except ε Unit}
    (h : LoadedPoints ks pts r) (hk : ∃ e, .malformed e ∈ ks) : ∃ e, r = .error e := by
  obtain ⟨good, rest, rfl, hg, -, ⟨rfl, -⟩ | ⟨e, rest', -, hr⟩⟩ := h
  · obtain ⟨e, he⟩ := hk
    rw [List.append_nil] at he
    exact absurd rfl (hg _ he e)
  · exact ⟨_, hr⟩

/-- **C62**, in text files if at least two vertices are missing, in binary files for any missing byte: fewer data than announced
is an error. The full statement is `C62Statement`; it is violated, see below. -/
theorem c62_partial (T : FloatText F64) {d : PlyDecl} {ls : List Bytes} {text : Bytes} (h : PlyText d ls text) {body : Bytes}
    (hs : match d.format with
      | .Ascii => (lines body).length + 2 ≤ d.nVertices
      | .Binary _ => PlyShort d body) :
    (d.face.isSome → ∀ m, ∃ m' e, loadPlyMesh T (text ++ body) m = some (m', .error e)) ∧
    (d.face = none → ∀ ip, ∃ pts e, loadPlyPoints T (text ++ body) ip = some (pts, .error e)) := by
  have hV : ∀ e rec p, BinaryLoaded e d.vertex rec p → rec.length = vertexSize d.vertex d.vertex.t1 d.vertex.t2 d.vertex.t3 := by
    rintro e rec p ⟨v1, v2, v3, h', -⟩
    rw [binaryCoords_length h', vertexSize_perm h.distinct]
  have key : ∀ ks, PlyData T d d.face ls.length body ks → ∃ e, .malformed e ∈ ks := by
    intro ks hks
    unfold PlyData at hks
    cases hfm : d.format with
    | Ascii =>
      rw [hfm] at hks hs
      exact vertexLines_short hks hs
    | Binary e =>
      rw [hfm] at hks hs
      rw [vertexSize_perm h.distinct] at hks
      unfold PlyShort at hs
      rw [hfm] at hs
      rcases hf : d.face with _ | ⟨n, fd⟩
      · rw [hf] at hks hs
        refine vertexRecords_short (more := 0) (fun s ks _ h => by omega) (hV e) hks (by simpa using hs)
      · rw [hf] at hks hs
        exact vertexRecords_short (fun s ks h hs => faceRecords_short h hs) (hV e) hks hs
  constructor
  · intro hf m
    obtain ⟨ks, hks, h1, -⟩ := (c62_load T h body).2.1 hf
    obtain ⟨m', r, h2, h3⟩ := h1 m
    obtain ⟨e, rfl⟩ := loaded_malformed h3 (key ks hks)
    exact ⟨m', e, h2⟩
  · intro hf ip
    obtain ⟨ks, hks, h1, -⟩ := (c62_load T h body).1
    obtain ⟨m', r, h2, h3⟩ := h1 ip
    obtain ⟨e, rfl⟩ := loadedPoints_malformed h3 (key ks (by rw [hf]; exact hks))
    exact ⟨_, e, h2⟩

/-- loading data that all fit -/
theorem loaded_all {ε : Type} {eIdx : ε} {m m' : TMesh PlyPoint} {ks : List (Says PlyPoint ε)} {r : Except ε Unit}
    (h : Loaded eIdx m ks m' r) (hk : AllFit 0 m.verts.length ks) : m' = ⟨m.verts ++ verticesOf ks, m.faces ++ facesOf 0 ks⟩ ∧ r = .ok () := by
  obtain ⟨good, rest, rfl, hg, rfl, ⟨rfl, hr⟩ | ⟨bad, rest', rfl, hb, -⟩⟩ := h
  · rw [List.append_nil]; exact ⟨rfl, hr⟩
  · have := hk good bad rest' rfl
    simp only [List.length_append] at hb
    exact absurd this hb

theorem says_mesh {ε : Type} (ps : List PlyPoint) (fs : List Face3) :
    verticesOf (ps.map .vertex ++ fs.map (fun f => .face f.a f.b f.c) : List (Says PlyPoint ε)) = ps ∧
    facesOf 0 (ps.map .vertex ++ fs.map (fun f => .face f.a f.b f.c) : List (Says PlyPoint ε)) = fs ∧
    ∀ n, (∀ f ∈ fs, Fits 0 (n + ps.length) (.face f.a f.b f.c : Says PlyPoint ε)) →
      AllFit 0 n (ps.map .vertex ++ fs.map (fun f => .face f.a f.b f.c) : List (Says PlyPoint ε)) := by
  induction ps with
  | nil =>
    simp only [List.map_nil, List.nil_append]
    induction fs with
    | nil => exact ⟨rfl, rfl, fun _ _ => allFit_nil⟩
    | cons f fs ih =>
      obtain ⟨h1, h2, h3⟩ := ih
      refine ⟨h1, by simp only [List.map_cons, facesOf, h2]; rfl, fun n hn => ?_⟩
      rw [List.map_cons, allFit_cons]
      exact ⟨hn f (by simp), h3 n fun g hg => hn g (by simp [hg])⟩
  | cons p ps ih =>
    obtain ⟨h1, h2, h3⟩ := ih
    refine ⟨by simp only [List.map_cons, List.cons_append, verticesOf, h1], by simp only [List.map_cons, List.cons_append, facesOf, h2], fun n hn => ?_⟩
    rw [List.map_cons, List.cons_append, allFit_cons]
    refine ⟨trivial, h3 _ fun f hf => ?_⟩
    have := hn f hf
    simp only [verticesOf, List.length_cons, List.length_nil] at this ⊢
    rwa [show n + (0 + 1) + ps.length = n + (ps.length + 1) by omega]

/-- **C62** is violated: in a text file any number of faces may be missing, and the last vertex (with all faces) may be missing,
without an error. -/
theorem c62_violated_missing (T : FloatText F64) {d : PlyDecl} {ls : List Bytes} {text : Bytes} (h : PlyText d ls text)
    (ha : d.format = .Ascii) {nf : Nat} {fd : FaceDecl} (hf : d.face = some (nf, fd)) {body : Bytes} {vls fls : List Bytes} (hb : lines body = vls ++ fls)
    {ps : List PlyPoint} (hv : List.Forall₂ (AsciiLoaded T d.vertex) vls ps) {fs : List Face3}
    (hfs : List.Forall₂ (fun l f => TriangleWords l f.a f.b f.c) fls fs) (m : TMesh PlyPoint) :
    (ps.length = d.nVertices → fs.length ≤ nf → (∀ f ∈ fs, Fits 0 (m.verts.length + ps.length) (.face f.a f.b f.c : PlySays)) →
      loadPlyMesh T (text ++ body) m = some (⟨m.verts ++ ps, m.faces ++ fs⟩, .ok ())) ∧
    (ps.length + 1 = d.nVertices → fs = [] → loadPlyMesh T (text ++ body) m = some (⟨m.verts ++ ps, m.faces⟩, .ok ())) := by
  have main : ∀ fs : List Face3, (∀ f ∈ fs, Fits 0 (m.verts.length + ps.length) (.face f.a f.b f.c : PlySays)) →
      PlyData T d d.face ls.length body (ps.map .vertex ++ fs.map fun f => .face f.a f.b f.c) →
      loadPlyMesh T (text ++ body) m = some (⟨m.verts ++ ps, m.faces ++ fs⟩, .ok ()) := by
    intro fs hfit hks
    obtain ⟨m', r, h2, h3⟩ := ply_mesh_of T h (by rw [hf]; rfl) hks m
    obtain ⟨a1, a2, a3⟩ := says_mesh (ε := LineInfo PlyError) ps fs
    obtain ⟨rfl, rfl⟩ := loaded_all h3 (a3 _ hfit)
    rw [h2, a1, a2]
  constructor
  · intro hn hl hfit
    refine main fs hfit ?_
    unfold PlyData
    rw [ha, hf]
    dsimp only
    rw [hb, ← hn]
    exact vertexLines_of hv _ _ _ (faceLines_of hfs _ _ (by omega))
  · rintro hn rfl
    have := main [] (by simp) (by
      unfold PlyData
      rw [ha, hf]
      dsimp only
      cases hfs
      rw [hb, ← hn, List.map_nil, List.append_nil, List.append_nil]
      clear h hb hn main
      generalize ls.length = i
      induction hv generalizing i with
      | nil =>
        refine .missingOne ?_
        cases nf with
        | zero => exact .none
        | succ n => exact .missing
      | cons h _ ih => exact .vertex h (ih (i + 1)))
    simpa using this

/-- a text file with `n` vertices and `k` faces -/
def Witness.short : PlyDecl := Witness.decl .Ascii 1 .X .Y .Z .Float .Float .Float (some (1, ⟨[], .UChar, .Int, []⟩))

theorem Witness.short_text : PlyText Witness.short
    (Witness.lines .Ascii b!"1" b!"float x" b!"float y" b!"float z" [b!"element face 1", b!"property list uchar int vertex_indices"])
    ((Witness.lines .Ascii b!"1" b!"float x" b!"float y" b!"float z" [b!"element face 1", b!"property list uchar int vertex_indices"]).flatMap nl) where
  distinct := by unfold VertexDecl.Distinct; decide
  header := ⟨_, b!"element vertex 1", [b!"property float x", b!"property float y", b!"property float z"],
    [b!"element face 1", b!"property list uchar int vertex_indices"], rfl, by decide,
    ⟨⟨b!" 1", rfl⟩, b!"element", b!"vertex", b!"1", [], toWords_iff.1 (by decide), by decide⟩,
    ⟨[], _, [], _, [], _, [], rfl, .nil, coordLine_decide (ty := b!"float") (by decide) (by decide) (by decide), .nil,
      coordLine_decide (ty := b!"float") (by decide) (by decide) (by decide), .nil,
      coordLine_decide (ty := b!"float") (by decide) (by decide) (by decide), .nil⟩,
    _, _, rfl, ⟨⟨b!" 1", rfl⟩, b!"element", b!"face", b!"1", [], toWords_iff.1 (by decide), by decide⟩,
    [], _, [], rfl, .nil, ⟨⟨_, rfl⟩, ⟨b!"property list uchar int ", [], .inl rfl⟩, b!"property", b!"list", b!"uchar", b!"int", [b!"vertex_indices"],
      toWords_iff.1 (by decide), by decide, by decide⟩, .nil⟩
  text := textOf_decide (by decide)

/-- **C62** is violated: a header that announces a vertex and a face, and no data, is loaded as the empty mesh. -/
theorem c62_violated (T : FloatText F64) : ¬C62Statement T := by
  intro h
  obtain ⟨m', e, h1⟩ := h _ _ _ Witness.short_text rfl [] (show (lines []).length < 1 + 1 by decide) ⟨[], []⟩
  have h2 := (c62_violated_missing T Witness.short_text rfl rfl (body := []) (vls := []) (fls := []) rfl (ps := []) .nil (fs := []) .nil ⟨[], []⟩).2 rfl rfl
  rw [h2] at h1
  cases h1

/-- a text file with mixed types and further properties -/
def Witness.rich (n : Nat) : PlyDecl := ⟨.Ascii, n, ⟨[1], .Y, .Float, [], .X, .Double, [4, 8], .Z, .Float, [2]⟩, none⟩

/-- its lines -/
def Witness.richLines : List Bytes :=
  [b!"ply", b!"obj_info x", b!"format ascii 1.0", b!"element vertex 3", b!"property uchar quality", b!"comment y", b!"property float32 y", b!"property double x",
   b!"property int id", b!"property float64 weight", b!"property float z", b!"property short s", b!"end_header"]

theorem otherLine_decide {l ty name : Bytes} {n : Nat} (h1 : startsWith l b!"property" = true) (h2 : toWords l = [b!"property", ty, name])
    (h3 : (ty, n) ∈ plyTypes) (h4 : name ≠ b!"x" ∧ name ≠ b!"y" ∧ name ≠ b!"z") : OtherLine l n :=
  ⟨ty, name, ⟨startsWith_iff.1 h1, b!"property", [], toWords_iff.1 h2⟩, h3, fun a => by cases a <;> simp [axisName, h4]⟩

theorem Witness.rich_text : PlyText (Witness.rich 3) Witness.richLines (Witness.richLines.flatMap nl) where
  distinct := by unfold VertexDecl.Distinct; decide
  header := ⟨Witness.richLines.dropLast, b!"element vertex 3", [b!"property uchar quality", b!"property float32 y", b!"property double x", b!"property int id",
      b!"property float64 weight", b!"property float z", b!"property short s"], [], rfl, by decide,
    ⟨⟨b!" 3", rfl⟩, b!"element", b!"vertex", b!"3", [], toWords_iff.1 (by decide), by decide⟩,
    ⟨[_], _, [], _, [_, _], _, [_], rfl, .cons (otherLine_decide (ty := b!"uchar") (name := b!"quality") (by decide) (by decide) (by decide) (by decide)) .nil,
      coordLine_decide (ty := b!"float32") (by decide) (by decide) (by decide), .nil,
      coordLine_decide (ty := b!"double") (by decide) (by decide) (by decide),
      .cons (otherLine_decide (ty := b!"int") (name := b!"id") (by decide) (by decide) (by decide) (by decide))
        (.cons (otherLine_decide (ty := b!"float64") (name := b!"weight") (by decide) (by decide) (by decide) (by decide)) .nil),
      coordLine_decide (ty := b!"float") (by decide) (by decide) (by decide),
      .cons (otherLine_decide (ty := b!"short") (name := b!"s") (by decide) (by decide) (by decide) (by decide)) .nil⟩, rfl⟩
  text := textOf_decide (by decide)

/-- `c61_partial`: the header above with three lines -/
example : ¬(Witness.rich 3).vertex.Cyclic ∧ ∃ body ps, PlyPoints natF64 (Witness.rich 3) body ps ∧
    ps = [⟨.fin false 2, .fin false 1, .fin false 3⟩, ⟨.fin false 5, .fin false 4, .fin false 6⟩, ⟨.fin false 8, .fin false 7, .fin false 9⟩] := by
  refine ⟨by unfold VertexDecl.Cyclic; decide, b!"0 1 2 0 0 3 0\n0 4  5 0 0 6 0\n0 7 8 0 0 9\n", _, ⟨rfl, _, [], by rw [List.append_nil], ?_⟩, rfl⟩
  rw [show lines b!"0 1 2 0 0 3 0\n0 4  5 0 0 6 0\n0 7 8 0 0 9\n" = [b!"0 1 2 0 0 3 0", b!"0 4  5 0 0 6 0", b!"0 7 8 0 0 9"] by decide]
  refine .cons ⟨_, _, _, ⟨[b!"0"], b!"1", [], b!"2", [b!"0", b!"0"], b!"3", [b!"0"], toWords_iff.1 (by decide), rfl, rfl, rfl,
    (by decide +kernel : _ = some (.fin false 1)), (by decide +kernel : _ = some (.fin false 2)), (by decide +kernel : _ = some (.fin false 3))⟩, rfl⟩ ?_
  refine .cons ⟨_, _, _, ⟨[b!"0"], b!"4", [], b!"5", [b!"0", b!"0"], b!"6", [b!"0"], toWords_iff.1 (by decide), rfl, rfl, rfl,
    (by decide +kernel : _ = some (.fin false 4)), (by decide +kernel : _ = some (.fin false 5)), (by decide +kernel : _ = some (.fin false 6))⟩, rfl⟩ ?_
  refine .cons ⟨_, _, _, ⟨[b!"0"], b!"7", [], b!"8", [b!"0", b!"0"], b!"9", [], toWords_iff.1 (by decide), rfl, rfl, rfl,
    (by decide +kernel : _ = some (.fin false 7)), (by decide +kernel : _ = some (.fin false 8)), (by decide +kernel : _ = some (.fin false 9))⟩, rfl⟩ .nil

/-- `c62_partial`: the header above with one line -/
example : (lines b!"0 1 2 0 0 3 0\n").length + 2 ≤ (Witness.rich 3).nVertices := by decide

end R3D

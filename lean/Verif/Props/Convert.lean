import Verif.Props.Agree
import Verif.Props.FloatText
/-!
# C121: loaded meshes are sound and survive the conversion into another format

Whatever bytes are loaded, every face refers to three different vertices that exist, and every coordinate is a double. So what has
been loaded can be saved, and loading that yields it again.
-/
namespace R3D
open Spec

variable {σ ε : Type}

/-! ### specification -/

/-- every face refers to three different vertices that exist, every coordinate is a double -/
def Spec.Sound (m : TMesh (Point3D F64)) : Prop :=
  (∀ f ∈ m.faces, f.a < m.verts.length ∧ f.b < m.verts.length ∧ f.c < m.verts.length ∧ f.a ≠ f.b ∧ f.a ≠ f.c ∧ f.b ≠ f.c) ∧
  ∀ p ∈ m.verts, p.Double

/-- texts are read as doubles -/
def Spec.ReadsDoubles (T : FloatText F64) : Prop := ∀ b x, T.parse b = some x → F64.Rep x

/-! ### doubles -/

theorem displayText_doubles : ReadsDoubles displayText := by
  intro b x h
  simp only [displayText, parseF64] at h
  split at h
  · cases h; trivial
  · split at h
    · cases h; trivial
    · simp only [Option.map_eq_some_iff] at h
      obtain ⟨⟨m, e⟩, _, rfl⟩ := h
      exact F64.round_rep _ _

theorem lowerExpText_doubles : ReadsDoubles lowerExpText := displayText_doubles

theorem repFmt_wider {x : F64} (h : F64.RepFmt 23 8 x) (h0 : ∀ s q, x = .fin s q → 0 ≤ q) : F64.Rep x := by
  refine (F64.rep_iff_repFmt x).2 ⟨?_, h0⟩
  cases x with
  | nan => trivial
  | inf s => trivial
  | fin s q =>
    obtain ⟨h1, m, e, h2, h3, h4⟩ := h
    refine ⟨h1.trans ?_, m, e, h2.trans ?_, le_trans ?_ h3, h4⟩
    · exact zpow_lt_zpow_right₀ (by norm_num) (by norm_num)
    · norm_num
    · simp [F64.emin]

theorem ofBytes32_double (e : Endian) (bs : Bytes) : F64.Rep (F64.ofBytes32 e bs) := by
  obtain ⟨h1, h2⟩ := F64.ofBits_rep (mw := 23) (ew := 8) (by decide) (natOfBytes e bs)
  exact repFmt_wider h1 h2

theorem ofBytes64_double (e : Endian) (bs : Bytes) : F64.Rep (F64.ofBytes64 e bs) :=
  (F64.rep_iff_repFmt _).2 (F64.ofBits_rep (by decide) _)

theorem nthNum_double {T : FloatText F64} (hT : ReadsDoubles T) {ws : List Bytes} {n : Nat} {x : F64} (h : nthNum T.parse ws n = some x) : F64.Rep x := by
  unfold nthNum at h
  obtain ⟨w, _, h⟩ := Option.bind_eq_some_iff.1 h
  unfold fromAscii at h
  split at h
  · exact hT _ _ h
  · cases h

theorem vertexOf_double {ε' : Type} {T : FloatText F64} (hT : ReadsDoubles T) {e : ε'} {ws : List Bytes} {p : Point3D F64}
    (h : vertexOf T e ws = .ok p) : p.Double := by
  unfold vertexOf at h
  split at h
  · rename_i hx hy hz
    cases h
    exact ⟨nthNum_double hT hx, nthNum_double hT hy, nthNum_double hT hz⟩
  · cases h

/-! ### the loop -/

theorem forEach_inv {α μ : Type} {next : σ → Panics (Option (Except ε α) × σ)} {push : μ → α → μ × Except ε Unit} {I : μ → Prop} {Q : α → Prop}
    (hnext : ∀ s x s', next s = some (some (.ok x), s') → Q x) (hpush : ∀ m x, I m → Q x → I (push m x).1) :
    ∀ (n : Nat) (s : σ) (m : μ) x, I m → forEach next push n s m = some x → I x.1
  | 0, _, _, _, _, h => by cases h
  | n + 1, s, m, x, hm, h => by
    unfold forEach at h
    rcases hn : next s with _ | ⟨_ | e | a, s'⟩
    · rw [hn] at h; cases h
    · rw [hn] at h; cases h; exact hm
    · rw [hn] at h; cases h; exact hm
    · rw [hn] at h
      have hp := hpush m a hm (hnext s a s' hn)
      rcases hpu : push m a with ⟨m', e | u⟩
      · simp only [hpu] at h
        cases h
        rw [hpu] at hp
        exact hp
      · simp only [hpu] at h
        rw [hpu] at hp
        exact forEach_inv hnext hpush n s' m' x hp h

/-- what an iterator may deliver -/
def GoodItem : Item (Point3D F64) → Prop
  | .data p => p.Double
  | _ => True

theorem sound_push {push : TMesh (Point3D F64) → Item (Point3D F64) → TMesh (Point3D F64) × Except ε Unit} {eIdx : ε} (hp : MeshPush push eIdx)
    (m : TMesh (Point3D F64)) (x : Item (Point3D F64)) (hm : Sound m) (hx : GoodItem x) : Sound (push m x).1 := by
  cases x with
  | data p =>
    rw [hp.data]
    refine ⟨fun f hf => ?_, fun q hq => ?_⟩
    · have := hm.1 f hf
      simp only [List.length_append, List.length_singleton]
      omega
    · rcases List.mem_append.1 hq with h | h
      · exact hm.2 q h
      · rw [List.mem_singleton.1 h]; exact hx
  | face a b c =>
    by_cases hf : Fits 0 m.verts.length (Says.face a b c : Says (Point3D F64) ε)
    · rw [hp.face m a b c hf]
      refine ⟨fun f hf' => ?_, hm.2⟩
      rcases List.mem_append.1 hf' with h | h
      · exact hm.1 f h
      · rw [List.mem_singleton.1 h]
        unfold Fits at hf
        dsimp only
        omega
    · rw [hp.bad m a b c hf]
      exact hm
  | reserve n k => rw [hp.reserve]; exact hm

/-! ### the formats -/

theorem objMeshLoop_double {T : FloatText F64} (hT : ReadsDoubles T) : ∀ (ls : List Bytes) (i : Nat) x s',
    objMeshLoop T ls i = some (some (.ok x), s') → GoodItem x
  | [], i, x, s', h => by cases h
  | l :: ls, i, x, s', h => by
    unfold objMeshLoop at h
    split at h
    · split at h
      · rename_i p hp
        cases h
        unfold objFetchVertex at hp
        split at hp
        · cases hp
        · exact vertexOf_double hT hp
      · cases h
    · split at h
      · split at h
        · cases h
        · cases h; trivial
        · cases h
      · exact objMeshLoop_double hT ls (i + 1) x s' h

/-- **C121** for .obj, whether loading ends with an error or not -/
theorem c121_obj (T : FloatText F64) (hT : ReadsDoubles T) (file : Bytes) (m : TMesh (Point3D F64)) (hm : Sound m) (x)
    (hx : loadObjMesh T file m = some x) : Sound x.1 := by
  refine forEach_inv (Q := GoodItem) ?_ (sound_push objPush_push) _ _ _ _ hm hx
  intro s x s' h
  unfold objMeshNext at h
  split at h
  · cases h
  · exact objMeshLoop_double hT _ _ _ _ h

theorem offMeshLoop_double {T : FloatText F64} (hT : ReadsDoubles T) : ∀ (ls : List Bytes) (s : OffMeshIter) x s',
    offMeshLoop T ls s = (some (.ok x), s') → GoodItem x
  | [], s, x, s', h => by cases h
  | l :: ls, s, x, s', h => by
    unfold offMeshLoop at h
    dsimp only at h
    split at h
    · exact offMeshLoop_double hT ls _ x s' h
    · split at h
      · exact offMeshLoop_double hT ls _ x s' h
      · unfold offMeshLine at h
        split at h
        · split at h
          · cases h; trivial
          · cases h
        · split at h
          · split at h
            · rename_i hp
              cases h
              exact vertexOf_double hT hp
            · cases h
          · split at h
            · cases h; trivial
            · cases h

/-- **C121** for .off -/
theorem c121_off (T : FloatText F64) (hT : ReadsDoubles T) (file : Bytes) (m : TMesh (Point3D F64)) (hm : Sound m) (x)
    (hx : loadOffMesh T file m = some x) : Sound x.1 := by
  refine forEach_inv (Q := GoodItem) ?_ (sound_push offPush_push) _ _ _ _ hm hx
  intro s x s' h
  simp only [Option.some.injEq] at h
  unfold offMeshNext at h
  split at h
  · cases h
  · exact offMeshLoop_double hT _ _ _ _ h

theorem readVertexType_double {e : Endian} {t : VertexType} {s s' : Bytes} {x : F64} (h : readVertexType e t s = some (x, s')) : F64.Rep x := by
  cases t with
  | Float =>
    simp only [readVertexType, readF32] at h
    split at h
    · cases h
    · cases h; exact ofBytes32_double _ _
  | Double =>
    simp only [readVertexType, readF64] at h
    split at h
    · cases h
    · cases h; exact ofBytes64_double _ _

theorem pointWithOrder_double {a b c : F64} (ha : F64.Rep a) (hb : F64.Rep b) (hc : F64.Rep c) (o : VertexOrder) : (pointWithOrder a b c o).Double := by
  cases o
  · exact ⟨ha, hb, hc⟩
  · exact ⟨ha, hc, hb⟩
  · exact ⟨hb, ha, hc⟩
  · exact ⟨hb, hc, ha⟩
  · exact ⟨hc, ha, hb⟩
  · exact ⟨hc, hb, ha⟩

theorem plyPointsInner_double {T : FloatText F64} (hT : ReadsDoubles T) {f : PlyFormat} {h : PlyVertexData} {s s' : PlyCursor} {p : PlyPoint}
    (he : plyPointsInner T f h s = (some (.ok p), s')) : Point3D.Double p := by
  cases f with
  | Ascii =>
    simp only [plyPointsInner, plyAsciiPointsNext] at he
    split at he
    · cases he
    · split at he
      · split at he
        · split at he
          · rename_i hv
            cases he
            unfold plyAsciiVertex at hv
            dsimp only at hv
            split at hv
            · cases hv
            · rename_i h1
              split at hv
              · cases hv
              · rename_i h2
                split at hv
                · cases hv
                · rename_i h3
                  cases hv
                  exact pointWithOrder_double (nthNum_double hT h1) (nthNum_double hT h2) (nthNum_double hT h3) _
          · cases he
        · unfold plyAsciiPointsEnd at he
          split at he <;> cases he
      · unfold plyAsciiPointsEnd at he
        split at he <;> cases he
  | Binary e =>
    simp only [plyPointsInner, plyBinaryPointsNext] at he
    split at he
    · cases he
    · split at he
      · split at he
        · cases he
        · rename_i hv
          simp only [plySimple] at he
          cases he
          simp only [plyBinaryVertex, Option.bind_eq_bind, Option.bind_eq_some_iff, Option.pure_def, Option.some.injEq, Prod.mk.injEq] at hv
          obtain ⟨_, _, ⟨x, _⟩, h1, _, _, ⟨y, _⟩, h2, _, _, ⟨z, _⟩, h3, _, _, rfl, _⟩ := hv
          exact pointWithOrder_double (readVertexType_double h1) (readVertexType_double h2) (readVertexType_double h3) _
      · cases he

theorem plyMeshInner_double {T : FloatText F64} (hT : ReadsDoubles T) {f : PlyFormat} {h : PlyVertexData} {hf : PlyFaceData} {s s' : PlyMeshCursor}
    {x : Item PlyPoint} (he : plyMeshInner T f h hf s = (some (.ok x), s')) : GoodItem x := by
  have hfaces : ∀ c, plyMeshFaces f hf c = (some (.ok x), s') → GoodItem x := by
    intro c he
    unfold plyMeshFaces at he
    split at he
    · cases he
    · cases he
    · cases he; trivial
  unfold plyMeshInner at he
  split at he
  · split at he
    · rename_i hp
      cases he
      exact plyPointsInner_double hT hp
    · cases he
    · exact hfaces _ he
  · exact hfaces _ he

/-- **C121** for .ply, also with the loader that finds out whether there are faces -/
theorem c121_ply (T : FloatText F64) (hT : ReadsDoubles T) (file : Bytes) (m : TMesh PlyPoint) (hm : Sound m) :
    (∀ x, loadPlyMesh T file m = some x → Sound x.1) ∧ ∀ ip x, loadPlyEither T file m ip = some x → Sound x.1 := by
  constructor
  · intro x hx
    unfold loadPlyMesh at hx
    split at hx
    · cases hx
    · cases hx; exact hm
    · refine forEach_inv (Q := GoodItem) ?_ (sound_push plyPush_push) _ _ _ _ hm hx
      intro s x s' h
      simp only [Option.some.injEq] at h
      unfold plyMeshNext at h
      split at h
      · cases h; trivial
      · simp only [Prod.mk.injEq] at h
        rcases hi : plyMeshInner T s.format s.vertex s.face s.inner with ⟨y, c⟩
        rw [hi] at h
        obtain ⟨h1, -⟩ := h
        dsimp only at h1
        rw [h1] at hi
        exact plyMeshInner_double hT hi
  · intro ip x hx
    unfold loadPlyEither at hx
    split at hx
    · cases hx
    · cases hx; exact hm
    · split at hx
      · simp only [Option.map_eq_some_iff] at hx
        obtain ⟨r, hr, rfl⟩ := hx
        refine forEach_inv (Q := GoodItem) ?_ (sound_push plyPush_push) _ _ _ _ hm hr
        intro s x s' h
        simp only [Option.some.injEq] at h
        exact plyMeshInner_double hT h
      · simp only [Option.map_eq_some_iff] at hx
        obtain ⟨r, hr, rfl⟩ := hx
        exact hm

theorem stlNumbers_double {T : FloatText F64} (hT : ReadsDoubles T) {ws : List Bytes} {n : Nat} {p : StlPoint} (h : stlNumbers T ws n = some p) :
    Point3D.Double p := by
  simp only [stlNumbers, Option.bind_eq_bind, Option.bind_eq_some_iff, Option.pure_def, Option.some.injEq] at h
  obtain ⟨x, h1, y, h2, z, h3, rfl⟩ := h
  exact ⟨nthNum_double hT h1, nthNum_double hT h2, nthNum_double hT h3⟩


theorem stlBind_inv {β γ : Type} {x : StlM β} {f : β → StlM γ} {s s' : Bytes × Nat} {b : γ} (h : (x >>= f) s = (.ok b, s')) :
    ∃ a t, x s = (.ok a, t) ∧ f a t = (.ok b, s') := by
  rcases hx : x s with ⟨e | a, t⟩
  · rw [stlBind_error hx] at h; cases h
  · rw [stlBind_ok hx] at h; exact ⟨a, t, rfl, h⟩

/-- the corners and the normal are doubles -/
def GoodFace (f : StlFace StlPoint) : Prop := Point3D.Double f.a ∧ Point3D.Double f.b ∧ Point3D.Double f.c ∧ Point3D.Double f.n

def GoodStl : StlItem StlPoint → Prop
  | .reserve _ => True
  | .data f => GoodFace f

theorem stlVertexLine_double {T : FloatText F64} (hT : ReadsDoubles T) {s s' : Bytes × Nat} {p : StlPoint} (h : stlVertexLine T s = (.ok p, s')) :
    Point3D.Double p := by
  obtain ⟨l, t, _, h⟩ := stlBind_inv h
  cases hp : readStlVertex T l with
  | none => simp only [hp] at h; cases h
  | some q =>
    simp only [hp] at h
    cases h
    exact stlNumbers_double hT hp

theorem stlFacetLine_double {T : FloatText F64} (hT : ReadsDoubles T) {s s' : Bytes × Nat} {p : StlPoint} (h : stlFacetLine T s = (.ok p, s')) :
    Point3D.Double p := by
  obtain ⟨l, t, _, h⟩ := stlBind_inv h
  dsimp only at h
  split at h
  · cases h
  · split at h
    · cases h
    · cases h
      cases hp : readStlNormal T (trimStart l) with
      | none =>
        have h0 : F64.fin false 0 = F64.ofRat 0 := by decide +kernel
        have h1 : F64.fin false 1 = F64.ofRat 1 := by decide +kernel
        refine ⟨?_, ?_, ?_⟩
        · exact h0 ▸ F64.ofRat_rep 0
        · exact h0 ▸ F64.ofRat_rep 0
        · exact h1 ▸ F64.ofRat_rep 1
      | some n => exact stlNumbers_double hT hp

theorem readStlFacet_double {T : FloatText F64} (hT : ReadsDoubles T) {s s' : Bytes × Nat} {f : StlFace StlPoint} (h : readStlFacet T s = (.ok f, s')) :
    GoodFace f := by
  obtain ⟨n, _, hn, h⟩ := stlBind_inv h
  obtain ⟨_, _, _, h⟩ := stlBind_inv h
  obtain ⟨a, _, ha, h⟩ := stlBind_inv h
  obtain ⟨b, _, hb, h⟩ := stlBind_inv h
  obtain ⟨c, _, hc, h⟩ := stlBind_inv h
  obtain ⟨_, _, _, h⟩ := stlBind_inv h
  obtain ⟨_, _, _, h⟩ := stlBind_inv h
  cases h
  exact ⟨stlVertexLine_double hT ha, stlVertexLine_double hT hb, stlVertexLine_double hT hc, stlFacetLine_double hT hn⟩

theorem fromSlices_all {β : Type} {w : Nat} {dec : Bytes → β} {Q : β → Prop} (hd : ∀ bs, Q (dec bs)) (bs : Bytes) :
    ∀ (n i : Nat) (xs : List β), fromSlices w dec bs i n = some (.ok xs) → ∀ x ∈ xs, Q x
  | 0, i, xs, h => by cases h; simp
  | n + 1, i, xs, h => by
    unfold fromSlices at h
    split at h
    · split at h
      · cases h
      · rename_i x hx
        split at h
        · cases h
        · cases h
        · rename_i ys hy
          cases h
          have : Q x := by
            unfold fromSlice at hx
            split at hx
            · cases hx; exact hd _
            · cases hx
          intro y hm
          rcases List.mem_cons.1 hm with rfl | hm
          · exact this
          · exact fromSlices_all hd bs n (i + 1) ys hy y hm
    · cases h

theorem stlPointFromBytes_double {bs : Bytes} {p : StlPoint} (h : stlPointFromBytes bs = some (.ok p)) : Point3D.Double p := by
  unfold stlPointFromBytes at h
  split at h
  · cases h
  · cases h
  · rename_i xs hx
    unfold arrayFromBytes at hx
    split at hx
    · cases hx
    · have hall := fromSlices_all (Q := F64.Rep) (ofBytes32_double _) _ _ _ _ hx
      simp only [Option.map_eq_some_iff] at h
      obtain ⟨q, hq, he⟩ := h
      cases he
      unfold stlPoint at hq
      split at hq
      · cases hq
        exact ⟨hall _ (by simp), hall _ (by simp), hall _ (by simp)⟩
      · cases hq

theorem readStlTriangle_double {s s' : Bytes} {f : StlFace StlPoint} (h : readStlTriangle s = some (.ok f, s')) : GoodFace f := by
  unfold readStlTriangle at h
  split at h
  · cases h
  · split at h
    · rename_i h1 h2 h3 h4
      cases h
      exact ⟨stlPointFromBytes_double h2, stlPointFromBytes_double h3, stlPointFromBytes_double h4, stlPointFromBytes_double h1⟩
    all_goals cases h

theorem stlNext_double {T : FloatText F64} (hT : ReadsDoubles T) (s : StlIter) (x : StlItem StlPoint) (s' : StlIter)
    (h : stlNext T s = some (some (.ok x), s')) : GoodStl x := by
  cases s with
  | Binary s =>
    simp only [stlNext, Option.map_eq_some_iff] at h
    obtain ⟨r, hr, he⟩ := h
    simp only [Prod.mk.injEq] at he
    obtain ⟨he, -⟩ := he
    obtain ⟨o, s1⟩ := r
    dsimp only at he
    subst he
    unfold stlBinaryNext at hr
    split at hr
    · cases hr
    · split at hr
      · split at hr
        · cases hr
        · split at hr
          · cases hr
          · split at hr
            · cases hr
            · cases hr; trivial
      · split at hr
        · split at hr
          · cases hr
          · cases hr
          · rename_i ht
            cases hr
            exact readStlTriangle_double ht
        · cases hr
  | Ascii s =>
    simp only [stlNext, Option.map_eq_some_iff] at h
    obtain ⟨r, hr, he⟩ := h
    simp only [Prod.mk.injEq] at he
    obtain ⟨he, -⟩ := he
    obtain ⟨o, s1⟩ := r
    dsimp only at he
    subst he
    unfold stlAsciiNext at hr
    split at hr
    · cases hr
    · dsimp only at hr
      split at hr
      · rename_i hf
        cases hr
        exact readStlFacet_double hT hf
      · split at hr <;> cases hr

theorem stlForEach_inv {μ : Type} {T : FloatText F64} (hT : ReadsDoubles T) {push : μ → StlItem StlPoint → μ} {I : μ → Prop}
    (hpush : ∀ m x, I m → GoodStl x → I (push m x)) {file : Bytes} {format : StlFormat} {m : μ} (hm : I m) {x}
    (hx : stlForEach T push file format m = some x) : I x.1 := by
  unfold stlForEach at hx
  split at hx
  · cases hx; exact hm
  · exact forEach_inv (Q := GoodStl) (stlNext_double hT) (fun m x => hpush m x) _ _ _ _ hm hx

/-- a vertex more -/
theorem sound_vertex {m : TMesh (Point3D F64)} (hm : Sound m) {p : Point3D F64} (hp : p.Double) : Sound (m.addVertex p).1 :=
  sound_push offPush_push m (.data p) hm hp

/-- the vertices of the map exist -/
def GoodMap (s : StlUnique) : Prop := ∀ e ∈ s.map, e.2 < s.mesh.verts.length

theorem stlVertexId_sound {same : StlPoint → StlPoint → Bool} {s : StlUnique} {p : StlPoint} (hs : Sound s.mesh ∧ GoodMap s ∧ ∀ n ∈ s.normals, Point3D.Double n)
    (hp : Point3D.Double p) :
    Sound (stlVertexId same s p).1.mesh ∧ GoodMap (stlVertexId same s p).1 ∧ ∀ n ∈ (stlVertexId same s p).1.normals, Point3D.Double n := by
  unfold stlVertexId
  split
  · exact hs
  · refine ⟨sound_vertex hs.1 hp, fun e he => ?_, hs.2.2⟩
    simp only [TMesh.addVertex, List.length_append, List.length_singleton]
    rcases List.mem_append.1 he with h | h
    · have := hs.2.1 e h; omega
    · rw [List.mem_singleton.1 h]
      simp [TMesh.numVertices]

theorem tryAdd_sound {m : TMesh (Point3D F64)} (hm : Sound m) (a b c : Nat) : Sound (m.tryAddConnection a b c).1 ∧
    (m.tryAddConnection a b c).1.verts = m.verts := by
  unfold TMesh.tryAddConnection
  split
  · exact ⟨hm, rfl⟩
  · split
    · exact ⟨hm, rfl⟩
    · refine ⟨⟨fun f hf => ?_, hm.2⟩, rfl⟩
      rcases List.mem_append.1 hf with h | h
      · exact hm.1 f h
      · rw [List.mem_singleton.1 h]
        dsimp only
        omega

/-- **C121** for .stl, whatever is taken for the equality of corners; the normals are doubles, too -/
theorem c121_stl (same : StlPoint → StlPoint → Bool) (T : FloatText F64) (hT : ReadsDoubles T) (file : Bytes) (format : StlFormat) (m : TMesh StlPoint)
    (ns : List StlPoint) (hm : Sound m) (hns : ∀ n ∈ ns, Point3D.Double n) :
    (∀ x, loadStlMeshDuped T file format m ns = some x → Sound x.1.1 ∧ ∀ n ∈ x.1.2, Point3D.Double n) ∧
    ∀ x, loadStlMeshUnique same T file format m ns = some x → Sound x.1.1 ∧ ∀ n ∈ x.1.2, Point3D.Double n := by
  constructor
  · intro x hx
    refine stlForEach_inv hT (I := fun y => Sound y.1 ∧ ∀ n ∈ y.2, Point3D.Double n) ?_ ⟨hm, hns⟩ hx
    rintro ⟨m, ns⟩ (_ | f) ⟨h1, h2⟩ hx
    · exact ⟨h1, h2⟩
    · obtain ⟨ha, hb, hc, hn⟩ := hx
      refine ⟨⟨fun g hg => ?_, fun q hq => ?_⟩, fun n h => ?_⟩
      · simp only [stlPushDuped, TMesh.addFace, List.length_append, List.length_cons, List.length_nil]
        rcases List.mem_append.1 hg with h | h
        · have := h1.1 g h; dsimp only at this; omega
        · rw [List.mem_singleton.1 h]
          dsimp only
          omega
      · rcases List.mem_append.1 hq with h | h
        · exact h1.2 q h
        · simp only [List.mem_cons, List.not_mem_nil, or_false] at h
          rcases h with rfl | rfl | rfl
          exacts [ha, hb, hc]
      · rcases List.mem_append.1 h with h | h
        · exact h2 n h
        · rw [List.mem_singleton.1 h]; exact hn
  · intro x hx
    simp only [loadStlMeshUnique, Option.map_eq_some_iff] at hx
    obtain ⟨r, hr, rfl⟩ := hx
    have := stlForEach_inv hT (I := fun s : StlUnique => Sound s.mesh ∧ GoodMap s ∧ ∀ n ∈ s.normals, Point3D.Double n) ?_
      ⟨hm, (by simp [GoodMap]), hns⟩ hr
    · exact ⟨this.1, this.2.2⟩
    · rintro s (_ | f) hs hx
      · exact hs
      · obtain ⟨ha, hb, hc, hn⟩ := hx
        have h1 := stlVertexId_sound (same := same) hs ha
        rcases e1 : stlVertexId same s f.a with ⟨s1, a⟩
        rw [e1] at h1
        have h2 := stlVertexId_sound (same := same) h1 hb
        rcases e2 : stlVertexId same s1 f.b with ⟨s2, b⟩
        rw [e2] at h2
        have h3 := stlVertexId_sound (same := same) h2 hc
        rcases e3 : stlVertexId same s2 f.c with ⟨s3, c⟩
        rw [e3] at h3
        obtain ⟨g1, g2⟩ := tryAdd_sound h3.1 a b c
        simp only [stlPushUnique, e1, e2, e3]
        rcases e4 : s3.mesh.tryAddConnection a b c with ⟨m', e | _⟩
        · rw [e4] at g1 g2
          refine ⟨g1, fun e he => ?_, h3.2.2⟩
          rw [g2]
          exact h3.2.1 e he
        · rw [e4] at g1 g2
          refine ⟨g1, fun e he => ?_, fun n h => ?_⟩
          · rw [g2]
            exact h3.2.1 e he
          · rcases List.mem_append.1 h with h | h
            · exact h3.2.2 n h
            · rw [List.mem_singleton.1 h]; exact hn


/-! ### points -/

theorem drain_all {α : Type} {next : σ → Option (Except ε α) × σ} {J : σ → Prop} {Q : α → Prop}
    (hnext : ∀ s x s', J s → next s = (some (.ok x), s') → Q x ∧ J s') :
    ∀ (n : Nat) (s : σ) x, J s → drain next n s = some x → ∀ p ∈ x.1, Q p
  | 0, _, _, _, h => by cases h
  | n + 1, s, x, hs, h => by
    unfold drain at h
    rcases hn : next s with ⟨_ | e | a, s'⟩
    · rw [hn] at h; cases h; simp
    · rw [hn] at h; cases h; simp
    · rw [hn] at h
      obtain ⟨ha, hs'⟩ := hnext s a s' hs hn
      simp only [Option.map_eq_some_iff] at h
      obtain ⟨r, hr, rfl⟩ := h
      intro p hp
      rcases List.mem_cons.1 hp with rfl | hp
      · exact ha
      · exact drain_all hnext n s' r hs' hr p hp

theorem pushItem_double (l : List (Point3D F64)) (x : Item (Point3D F64)) (hl : ∀ p ∈ l, p.Double) (hx : GoodItem x) :
    ∀ p ∈ (pushItem (ε := ε) l x).1, p.Double := by
  cases x with
  | data q =>
    intro p hp
    rcases List.mem_append.1 hp with h | h
    · exact hl p h
    · rw [List.mem_singleton.1 h]; exact hx
  | _ => exact hl

/-- **C121** for the points of .xyz, .xy and .obj files -/
theorem c121_xyz (T : FloatText F64) (hT : ReadsDoubles T) (file : Bytes) :
    (∀ x, loadXyz T file = some x → ∀ p ∈ x.1, p.Double) ∧ (∀ x, loadXy T file = some x → ∀ p ∈ x.1, p.Double) ∧
    ∀ x, loadObjPoints T file = some x → ∀ p ∈ x.1, p.Double := by
  refine ⟨fun x hx => ?_, fun x hx => ?_, fun x hx => ?_⟩
  · refine drain_all (J := fun _ => True) (fun s p s' _ h => ⟨?_, trivial⟩) _ _ _ trivial hx
    unfold XyzIter.next at h
    split at h
    · cases h
    · split at h
      · cases h
      · dsimp only at h
        split at h
        · rename_i hf
          cases h
          unfold xyzFetchOne at hf
          dsimp only at hf
          split at hf
          · cases hf
          · simp only [Prod.mk.injEq] at hf
            exact vertexOf_double hT hf.2
        · cases h
  · refine drain_all (J := fun _ => True) (fun s p s' _ h => ⟨?_, trivial⟩) _ _ _ trivial hx
    unfold XyzIter.next at h
    split at h
    · cases h
    · split at h
      · cases h
      · dsimp only at h
        split at h
        · rename_i hf
          cases h
          unfold xyFetchOne at hf
          dsimp only at hf
          split at hf
          · cases hf
          · simp only [Prod.mk.injEq] at hf
            obtain ⟨-, hf⟩ := hf
            split at hf
            · rename_i h1 h2
              cases hf
              exact ⟨nthNum_double hT h1, nthNum_double hT h2⟩
            · cases hf
        · cases h
  · refine drain_all (J := fun _ => True) (fun s p s' _ h => ⟨?_, trivial⟩) _ _ _ trivial hx
    unfold objPointsNext at h
    split at h
    · cases h
    · generalize s.lines = ls at h
      generalize s.iLine = i at h
      induction ls generalizing i with
      | nil => cases h
      | cons l ls ih =>
        unfold objPointsLoop at h
        split at h
        · split at h
          · rename_i hp
            cases h
            unfold objFetchVertex at hp
            split at hp
            · cases hp
            · exact vertexOf_double hT hp
          · cases h
        · exact ih _ h

/-- **C121** for the points of .off and .pts files -/
theorem c121_pts (T : FloatText F64) (hT : ReadsDoubles T) (file : Bytes) :
    (∀ x, loadOffPoints T file = some x → ∀ p ∈ x.1, p.Double) ∧ ∀ x, loadPts T file = some x → ∀ p ∈ x.1, p.Double := by
  refine ⟨fun x hx => ?_, fun x hx => ?_⟩
  · refine forEach_inv (Q := GoodItem) (I := fun l : List (Point3D F64) => ∀ p ∈ l, p.Double) (fun s p s' h => ?_) pushItem_double _ _ _ _ (by simp) hx
    simp only [Option.some.injEq] at h
    unfold offPointsNext at h
    split at h
    · cases h
    · generalize s.lines = ls at h
      induction ls generalizing s with
      | nil => cases h
      | cons l ls ih =>
        unfold offPointsLoop at h
        dsimp only at h
        split at h
        · exact ih _ ‹_› h
        · split at h
          · exact ih _ ‹_› h
          · unfold offPointsLine at h
            split at h
            · split at h
              · cases h; trivial
              · cases h
            · split at h
              · split at h
                · rename_i hp
                  cases h
                  exact vertexOf_double hT hp
                · cases h
              · cases h
  · refine forEach_inv (Q := GoodItem) (I := fun l : List (Point3D F64) => ∀ p ∈ l, p.Double) (fun s p s' h => ?_) pushItem_double _ _ _ _ (by simp) hx
    simp only [Option.some.injEq] at h
    unfold ptsNext at h
    split at h
    · cases h
    · generalize s.lines = ls at h
      induction ls generalizing s with
      | nil => cases h
      | cons l ls ih =>
        unfold ptsLoop at h
        dsimp only at h
        split at h
        · exact ih _ ‹_› h
        · unfold ptsLine at h
          split at h
          · split at h
            · cases h; trivial
            · cases h
          · split at h
            · split at h
              · rename_i hp
                cases h
                exact vertexOf_double hT hp
              · cases h
            · split at h
              · cases h; trivial
              · cases h

theorem gcodeCommandLoop_double {T : FloatText F64} (hT : ReadsDoubles T) : ∀ (ws : List Bytes) (n : Nat) (x y z : Option F64) r,
    (∀ v ∈ x, F64.Rep v) → (∀ v ∈ y, F64.Rep v) → (∀ v ∈ z, F64.Rep v) → gcodeCommandLoop T ws n x y z = some r →
    (∀ v ∈ r.1, F64.Rep v) ∧ (∀ v ∈ r.2.1, F64.Rep v) ∧ ∀ v ∈ r.2.2, F64.Rep v
  | [], n, x, y, z, r, hx, hy, hz, h => by cases h; exact ⟨hx, hy, hz⟩
  | w :: ws, n, x, y, z, r, hx, hy, hz, h => by
    have hv : ∀ {arg v}, fromAscii T.parse arg = some v → ∀ u ∈ some v, F64.Rep u := by
      intro arg v h u hu
      cases hu
      unfold fromAscii at h
      split at h
      · exact hT _ _ h
      · cases h
    unfold gcodeCommandLoop at h
    split at h
    · cases h; exact ⟨hx, hy, hz⟩
    · split at h
      · exact gcodeCommandLoop_double hT ws _ _ _ _ _ hx hy hz h
      · split at h
        · cases h; exact ⟨hx, hy, hz⟩
        · split at h
          · exact gcodeCommandLoop_double hT ws _ _ _ _ _ hx hy hz h
          · split at h
            · split at h
              · cases h
              · rename_i hp
                exact gcodeCommandLoop_double hT ws _ _ _ _ _ (hv hp) hy hz h
            · split at h
              · split at h
                · cases h
                · rename_i hp
                  exact gcodeCommandLoop_double hT ws _ _ _ _ _ hx (hv hp) hz h
              · split at h
                · split at h
                  · cases h
                  · rename_i hp
                    exact gcodeCommandLoop_double hT ws _ _ _ _ _ hx hy (hv hp) h
                · exact gcodeCommandLoop_double hT ws _ _ _ _ _ hx hy hz h

theorem gcodeCommand_double {T : FloatText F64} (hT : ReadsDoubles T) {l : Bytes} {r} (h : gcodeCommand T l = some r) :
    (∀ v ∈ r.1, F64.Rep v) ∧ (∀ v ∈ r.2.1, F64.Rep v) ∧ ∀ v ∈ r.2.2, F64.Rep v :=
  gcodeCommandLoop_double hT _ _ _ _ _ _ (by simp) (by simp) (by simp) h

theorem gcodeMove_double {b : Bool} {c : F64} {o : Option F64} (hc : F64.Rep c) (ho : ∀ v ∈ o, F64.Rep v) : F64.Rep (gcodeMove b c o) := by
  unfold gcodeMove
  split
  · exact hc
  · split
    · exact F64.add_rep _ _
    · exact ho _ rfl

theorem getD_double {c : F64} {o : Option F64} (hc : F64.Rep c) (ho : ∀ v ∈ o, F64.Rep v) : F64.Rep (o.getD c) := by
  cases o with
  | none => exact hc
  | some v => exact ho _ rfl

theorem gcodeLoop_double {T : FloatText F64} (hT : ReadsDoubles T) : ∀ (ls : List Bytes) (s : GcodeIter F64) p s', s.pos.Double →
    gcodeLoop T ls s = (some (.ok p), s') → p.Double ∧ s'.pos.Double
  | [], s, p, s', _, h => by cases h
  | l :: ls, s, p, s', hs, h => by
    unfold gcodeLoop at h
    dsimp only at h
    split at h
    · split at h
      · split at h
        · split at h
          · cases h
          · rename_i hc
            obtain ⟨h1, h2, h3⟩ := gcodeCommand_double hT hc
            have hp : Point3D.Double ⟨_, _, _⟩ := ⟨gcodeMove_double (b := s.relative) hs.1 h1, gcodeMove_double (b := s.relative) hs.2.1 h2,
              gcodeMove_double (b := s.relative) hs.2.2 h3⟩
            split at h
            · cases h
              exact ⟨hp, hp⟩
            · exact gcodeLoop_double hT ls _ p s' (by exact hs) h
        · split at h
          · split at h
            · exact gcodeLoop_double hT ls _ p s' (by exact hs) h
            · split at h
              · exact gcodeLoop_double hT ls _ p s' (by exact hs) h
              · split at h
                · split at h
                  · cases h
                  · rename_i hc
                    obtain ⟨h1, h2, h3⟩ := gcodeCommand_double hT hc
                    have hp : Point3D.Double ⟨_, _, _⟩ := ⟨getD_double hs.1 h1, getD_double hs.2.1 h2, getD_double hs.2.2 h3⟩
                    split at h
                    · cases h
                      exact ⟨hp, hp⟩
                    · exact gcodeLoop_double hT ls _ p s' (by exact hs) h
                · exact gcodeLoop_double hT ls _ p s' (by exact hs) h
          · exact gcodeLoop_double hT ls _ p s' (by exact hs) h
      · exact gcodeLoop_double hT ls _ p s' (by exact hs) h
    · exact gcodeLoop_double hT ls _ p s' (by exact hs) h

/-- **C121** for .gcode -/
theorem c121_gcode (T : FloatText F64) (hT : ReadsDoubles T) (file : Bytes) :
    ∀ x, loadGcode T (F64.ofRat 0) file = some x → ∀ p ∈ x.1, p.Double := by
  intro x hx
  refine drain_all (J := fun s : GcodeIter F64 => s.pos.Double) (fun s p s' hs h => ?_) _ _ _ ⟨F64.ofRat_rep 0, F64.ofRat_rep 0, F64.ofRat_rep 0⟩ hx
  unfold gcodeNext at h
  split at h
  · cases h
  · exact gcodeLoop_double hT _ _ _ _ hs h

theorem plyPoints_double (T : FloatText F64) (hT : ReadsDoubles T) (file : Bytes) (ip : List PlyPoint) (hip : ∀ p ∈ ip, Point3D.Double p) :
    ∀ x, loadPlyPoints T file ip = some x → ∀ p ∈ x.1, Point3D.Double p := by
  intro x hx
  unfold loadPlyPoints at hx
  split at hx
  · cases hx
  · cases hx; exact hip
  · refine forEach_inv (Q := GoodItem) (I := fun l : List (Point3D F64) => ∀ p ∈ l, p.Double) (fun s p s' h => ?_) pushItem_double _ _ _ _ hip hx
    simp only [Option.some.injEq] at h
    unfold plyPointsNext at h
    split at h
    · cases h; trivial
    · dsimp only at h
      rcases hi : plyPointsInner T s.format s.vertex s.inner with ⟨y, c⟩
      rw [hi] at h
      simp only [Prod.mk.injEq] at h
      obtain ⟨h1, -⟩ := h
      rcases y with _ | e | q
      · cases h1
      · cases h1
      · cases h1
        exact plyPointsInner_double hT hi

/-- **C121** for the points of binary files -/
theorem c121_binary (T : FloatText F64) (hT : ReadsDoubles T) (file : Bytes) :
    (∀ x, loadPlyPoints T file [] = some x → ∀ p ∈ x.1, Point3D.Double p) ∧
    (∀ x, loadLas file = some x → ∀ p ∈ x.1, p.Double) ∧ ∀ x, loadPsl file = some x → ∀ p ∈ x.1, p.Double := by
  refine ⟨plyPoints_double T hT file [] (by simp), fun x hx => ?_, fun x hx => ?_⟩
  · refine forEach_inv (Q := GoodItem) (I := fun l : List (Point3D F64) => ∀ p ∈ l, p.Double) (fun s p s' h => ?_)
      (fun l x hl hx => ?_) _ _ _ _ (by simp) hx
    · unfold lasNext at h
      split at h
      · cases h
      · split at h
        · split at h
          · cases h
          · cases h
          · cases h; trivial
        · split at h
          · split at h
            · cases h
            · cases h
            · rename_i hp
              cases h
              unfold lasFetchOne at hp
              split at hp
              · cases hp
              · simp only [Option.bind_eq_bind, Option.bind_eq_some_iff, Option.pure_def, Option.some.injEq, Prod.mk.injEq, Except.ok.injEq] at hp
                obtain ⟨_, _, _, _, _, _, _, _, rfl, _⟩ := hp
                exact ⟨F64.add_rep _ _, F64.add_rep _ _, F64.add_rep _ _⟩
          · cases h
    · cases x with
      | data q =>
        intro p hp
        rcases List.mem_append.1 hp with h | h
        · exact hl p h
        · rw [List.mem_singleton.1 h]; exact hx
      | _ => exact hl
  · refine drain_all (J := fun _ => True) (fun s p s' _ h => ⟨?_, trivial⟩) _ _ _ trivial hx
    have key : ∀ s, pslNextPoint s = (some (.ok p), s') → p.Double := by
      intro s h
      unfold pslNextPoint at h
      split at h
      · cases h
      · split at h
        · cases h
        · dsimp only at h
          split at h
          · cases h
          · rename_i hp
            cases h
            have hr : ∀ {s s' : Bytes} {v : F64}, readF32 .little s = some (v, s') → F64.Rep v := by
              intro s s' v h
              unfold readF32 at h
              split at h
              · cases h
              · cases h; exact ofBytes32_double _ _
            simp only [pslPoint, Option.bind_eq_bind, Option.bind_eq_some_iff, Option.pure_def, Option.some.injEq, Prod.mk.injEq] at hp
            obtain ⟨⟨x, _⟩, h1, ⟨y, _⟩, h2, ⟨z, _⟩, h3, rfl, _⟩ := hp
            exact ⟨hr h1, hr h2, hr h3⟩
    unfold pslNext at h
    split at h
    · cases h
    · split at h
      · split at h
        · cases h
        · exact key _ h
      · exact key _ h

theorem transformed_double (p : Point3D F64) (m : Matrix4 F64) : (p.transformed m).Double := ⟨F64.add_rep _ _, F64.add_rep _ _, F64.add_rep _ _⟩

/-- **C121** for .ptx -/
theorem c121_ptx (T : FloatText F64) (hT : ReadsDoubles T) (file : Bytes) : ∀ x, loadPtx T file = some x → ∀ p ∈ x.1, p.Double := by
  intro x hx
  refine forEach_inv (Q := GoodItem) (I := fun l : List (Point3D F64) => ∀ p ∈ l, p.Double) (fun s p s' h => ?_) pushItem_double _ _ _ _ (by simp) hx
  unfold ptxNext at h
  split at h
  · cases h
  · split at h
    · split at h
      · cases h
      · split at h
        · cases h
        · split at h
          · cases h
          · split at h
            · cases h; trivial
            · cases h
    · split at h
      · cases h
      · dsimp only at h
        split at h
        · rename_i hp
          cases h
          unfold ptxFetchOne at hp
          split at hp
          · rename_i hv
            cases hp
            show Point3D.Double _
            split
            · exact transformed_double _ _
            · exact vertexOf_double hT hv
          · cases hp
        · cases h

/-! ### conversion -/

/-- **C121**: a mesh that has been loaded, whatever from, is what is loaded again once it has been saved, in any of the four formats -/
theorem c121_convert (T : FloatText F64) (m : TMesh (Point3D F64)) (hm : Sound m) (hn : m.verts.length < 2 ^ 32) (hf : m.faces.length < 2 ^ 64) :
    LoadsAs displayText (savePlyAscii displayText m) m ∧ LoadsAs T (savePlyBinary m .P64) m ∧
    loadObjMesh displayText ((objText displayText m).flatMap nl) ⟨[], []⟩ = some (m, .ok ()) ∧
    loadOffMesh displayText ((offText displayText m).flatMap nl) ⟨[], []⟩ = some (m, .ok ()) :=
  ⟨c59_ascii_f64 m hm.2 hm.1 (by omega) hf, (c60_binary T m hm.2 hm.1 hn hf).1, c67_roundtrip_f64 m hm.2 hm.1 (by omega),
    c80_roundtrip_f64 m hm.2 hm.1 (by omega) hf⟩

/-- and points that have been loaded, whatever from, are what is loaded again once they have been saved as .xyz, with any valid delimiters, or .xy -/
theorem c121_convert_points (ps : List (Point3D F64)) (qs : List (Point2D F64)) (hp : ∀ p ∈ ps, p.Double) (hq : ∀ p ∈ qs, p.Double)
    (d : UInt8) (dc dp : Bytes) (hdc : DelimCoord d dc) (hdp : DelimPos dp) :
    loadXyz displayText (saveXyz displayText ps dc dp) = some (ps, .ok ()) ∧ loadXy displayText (saveXy displayText qs dc dp) = some (qs, .ok ()) :=
  ⟨c57_xyz_f64 ps hp d dc dp hdc hdp, c57_xy_f64 qs hq d dc dp hdc hdp⟩

/-- for example: any .stl file that has been loaded can be saved as .obj and loaded from that -/
example (file : Bytes) (format : StlFormat) (x) (hx : loadStlMeshUnique sameBits lowerExpText file format ⟨[], []⟩ [] = some x)
    (hn : x.1.1.verts.length < 2 ^ 32) (hf : x.1.1.faces.length < 2 ^ 64) :
    loadObjMesh displayText ((objText displayText x.1.1).flatMap nl) ⟨[], []⟩ = some (x.1.1, .ok ()) :=
  (c121_convert displayText _ ((c121_stl sameBits lowerExpText lowerExpText_doubles file format ⟨[], []⟩ [] (by simp [Sound]) (by simp)).2 x hx).1 hn hf).2.2.1

/-- the hypotheses are met by a file with an invalid face, loading which stops there with an error; what has been loaded is a sound mesh -/
example : ReadsDoubles displayText ∧ loadOffMesh displayText b!"OFF\n3 2\n0 0 0.5\n1 0 0\n0 -1e1 0\n3 0 1 2\n3 0 1 7\n" ⟨[], []⟩ =
    some (⟨[⟨F64.ofRat 0, F64.ofRat 0, F64.ofRat (1 / 2)⟩, ⟨F64.ofRat 1, F64.ofRat 0, F64.ofRat 0⟩, ⟨F64.ofRat 0, F64.ofRat (-10), F64.ofRat 0⟩], [⟨0, 1, 2⟩]⟩,
      .error (.none .InvalidMeshIndices)) :=
  ⟨displayText_doubles, by decide +kernel⟩

example : Sound ⟨[⟨F64.ofRat 0, F64.ofRat 0, F64.ofRat (1 / 2)⟩, ⟨F64.ofRat 1, .nan, F64.ofRat 0⟩, ⟨F64.ofRat 0, F64.ofRat (-10), .inf true⟩], [⟨0, 1, 2⟩]⟩ := by
  refine ⟨by decide, ?_⟩
  simp only [List.mem_cons, List.not_mem_nil, or_false, forall_eq_or_imp, forall_eq]
  have h : ∀ q, F64.Rep (F64.ofRat q) := F64.ofRat_rep
  exact ⟨⟨h 0, h 0, h (1 / 2)⟩, ⟨h 1, True.intro, h 0⟩, ⟨h 0, h (-10), True.intro⟩⟩

/-- saving with `f32` is not lossless: 0.1 is another number afterwards -/
theorem c121_single : ∃ m : TMesh PlyPoint, m = ⟨[⟨F64.ofRat (1 / 10), F64.ofRat 0, F64.ofRat 0⟩], []⟩ ∧ ∃ x,
    loadPlyMesh natF64 (savePlyBinary m .P32) ⟨[], []⟩ = some (x, .ok ()) ∧ x ≠ m := by
  refine ⟨_, rfl, ⟨[⟨F64.toF32 (F64.ofRat (1 / 10)), F64.ofRat 0, F64.ofRat 0⟩], []⟩, ?_, ?_⟩ <;> decide +kernel

end R3D

import Verif.Lemmas.Mesh
/-
C03, C04, C05: `Mesh3D` over every index container that stores the used ids faithfully.
-/
namespace R3D.MeshSpec

/-- The public editing calls. -/
inductive Op (P : Type) where
  | addVertex (p : P) | addFace (p q r : P) | tryAdd (a b c : Nat)
  | changeVertex (v : Nat) (p : P) | reserveFaces (n : Nat) | reserveVertices (n : Nat)
deriving DecidableEq, Repr

variable {P IC : Type} [IndexContainer IC]

/-- One call on the library's mesh (results are dropped, errors change nothing or not as the
code does). -/
def step (m : Mesh3D P IC) : Op P → Mesh3D P IC
  | .addVertex p => (m.addVertex p).1
  | .addFace p q r => (m.addFace p q r).1
  | .tryAdd a b c => (m.tryAddConnection a b c).1
  | .changeVertex v p => (m.changeVertex v p).1
  | .reserveFaces n => m.reserveFaces n
  | .reserveVertices n => m.reserveVertices n

def run (m : Mesh3D P IC) (ops : List (Op P)) : Mesh3D P IC := ops.foldl step m

/-- The call `op` does not rewrite vertex `v`. -/
def Op.spares (v : Nat) : Op P → Prop
  | .changeVertex w _ => w ≠ v
  | _ => True

end R3D.MeshSpec

namespace R3D
open IndexContainer LawfulIndexContainer MeshSpec

variable {P IC : Type} [IndexContainer IC] [LawfulIndexContainer IC]

private def tstep (t : TMesh P) : Op P → TMesh P
  | .addVertex p => (t.addVertex p).1
  | .addFace p q r => (t.addFace p q r).1
  | .tryAdd a b c => (t.tryAddConnection a b c).1
  | .changeVertex v p => (t.changeVertex v p).1
  | .reserveFaces _ => t
  | .reserveVertices _ => t

private theorem step_numVertices_le (m : Mesh3D P IC) (op : Op P) :
    m.numVertices ≤ (step m op).numVertices := by
  cases op <;> simp [step, Mesh3D.numVertices, Mesh3D.addVertex, Mesh3D.addFace,
    Mesh3D.reserveFaces, Mesh3D.reserveVertices]
  · rename_i a b c; unfold Mesh3D.tryAddConnection; split <;> (try split) <;> simp
  · rename_i v p; unfold Mesh3D.changeVertex; split <;> simp

private theorem run_numVertices_le (ops : List (Op P)) (m : Mesh3D P IC) :
    m.numVertices ≤ (run m ops).numVertices := by
  induction ops generalizing m with
  | nil => exact Nat.le_refl _
  | cons op ops ih => exact Nat.le_trans (step_numVertices_le m op) (ih (step m op))

private theorem step_shows {m : Mesh3D P IC} {t : TMesh P} (h : m.Shows t) (op : Op P)
    (hf : ∀ i < (step m op).numVertices, fits IC i) : (step m op).Shows (tstep t op) := by
  have hf' : ∀ i < t.verts.length, fits IC i := fun i hi => hf i
    (Nat.lt_of_lt_of_le (by simpa [Mesh3D.numVertices, h.1] using hi) (step_numVertices_le m op))
  cases op with
  | addVertex p => exact (Mesh3D.shows_addVertex h p).1
  | addFace p q r =>
    refine (Mesh3D.shows_addFace h p q r (fun i hi => hf i ?_)).1
    simp [step, Mesh3D.numVertices, Mesh3D.addFace, Mesh3D.addVertex, h.1]; omega
  | tryAdd a b c => exact (Mesh3D.shows_tryAddConnection h a b c hf').1
  | changeVertex v p => exact (Mesh3D.shows_changeVertex h v p).1
  | reserveFaces n => exact Mesh3D.shows_reserveFaces h n
  | reserveVertices n => exact h

private theorem run_shows (ops : List (Op P)) {m : Mesh3D P IC} {t : TMesh P} (h : m.Shows t)
    (hf : ∀ i < (run m ops).numVertices, fits IC i) :
    (run m ops).Shows (ops.foldl tstep t) := by
  induction ops generalizing m t with
  | nil => exact h
  | cons op ops ih =>
    refine ih (step_shows h op fun i hi => hf i ?_) hf
    exact Nat.lt_of_lt_of_le hi (run_numVertices_le ops _)

private theorem tstep_wf {t : TMesh P} (h : t.WellFormed) (op : Op P) : (tstep t op).WellFormed := by
  cases op with
  | addVertex p => exact TMesh.wf_addVertex h p
  | addFace p q r => exact TMesh.wf_addFace h p q r
  | tryAdd a b c => exact TMesh.wf_tryAddConnection h a b c
  | changeVertex v p => exact TMesh.wf_changeVertex h v p
  | reserveFaces n => exact h
  | reserveVertices n => exact h

private theorem trun_wf (ops : List (Op P)) {t : TMesh P} (h : t.WellFormed) :
    (ops.foldl tstep t).WellFormed := by
  induction ops generalizing t with
  | nil => exact h
  | cons op ops ih => exact ih (tstep_wf h op)

/-- Every reachable mesh shows a well formed observable mesh. -/
theorem reachable_shows (ops : List (Op P))
    (hf : ∀ i < (run (Mesh3D.empty : Mesh3D P IC) ops).numVertices, fits IC i) :
    ∃ t : TMesh P, t.WellFormed ∧ (run (Mesh3D.empty : Mesh3D P IC) ops).Shows t :=
  ⟨_, trun_wf ops TMesh.wf_empty, run_shows ops Mesh3D.shows_empty hf⟩

/-- **C03.** After every history of calls on an empty `Mesh3D` whose index container can store
the vertex ids in use: the index count is three times the face count, every face id below
`num_faces` gives three different existing vertices (and the vertices themselves can be
fetched), and every other face id gives `None`. No call panics. (Ids whose triple exceeds 64 bits: C123.) -/
theorem c03_mesh_well_formed (ops : List (Op P))
    (hf : ∀ i < (run (Mesh3D.empty : Mesh3D P IC) ops).numVertices, fits IC i) :
    let m := run (Mesh3D.empty : Mesh3D P IC) ops
    IndexContainer.len m.topology = 3 * m.numFaces ∧
    (∀ f, f < m.numFaces → ∃ face, m.faceVertexIds f = some (some face) ∧
      face.a < m.numVertices ∧ face.b < m.numVertices ∧ face.c < m.numVertices ∧
      face.a ≠ face.b ∧ face.a ≠ face.c ∧ face.b ≠ face.c ∧
      ∃ p q r, m.faceVertices f = some (some (p, q, r)) ∧
        m.vertex face.a = some p ∧ m.vertex face.b = some q ∧ m.vertex face.c = some r) ∧
    (∀ f, m.numFaces ≤ f → m.faceVertexIds f = some none ∧ m.faceVertices f = some none) ∧
    (∀ v, (∃ p, m.vertex v = some p) ↔ v < m.numVertices) := by
  intro m
  obtain ⟨t, hwf, hs⟩ := reachable_shows (P := P) (IC := IC) ops hf
  change m.Shows t at hs
  refine ⟨?_, ?_, ?_, ?_⟩
  · rw [Mesh3D.shows_numFaces hs, len_eq, hs.2, flatFaces_length]; rfl
  · intro f hlt
    rw [Mesh3D.shows_numFaces hs] at hlt
    have hlt' : f < t.faces.length := hlt
    have hw := hwf t.faces[f] (List.getElem_mem hlt')
    refine ⟨t.faces[f], ?_, ?_⟩
    · rw [Mesh3D.shows_faceVertexIds hs]; simp [TMesh.faceVertexIds, hlt']
    · rw [Mesh3D.shows_numVertices hs]
      refine ⟨hw.1, hw.2.1, hw.2.2.1, hw.2.2.2.1, hw.2.2.2.2.1, hw.2.2.2.2.2,
        t.verts[t.faces[f].a]'hw.1, t.verts[t.faces[f].b]'hw.2.1, t.verts[t.faces[f].c]'hw.2.2.1, ?_⟩
      rw [Mesh3D.shows_faceVertices hs]
      simp [Mesh3D.shows_vertex hs, TMesh.faceVertices, TMesh.faceVertexIds, TMesh.vertex,
        List.getElem?_eq_getElem hlt', List.getElem?_eq_getElem hw.1,
        List.getElem?_eq_getElem hw.2.1, List.getElem?_eq_getElem hw.2.2.1]
  · intro f hge
    rw [Mesh3D.shows_numFaces hs] at hge
    rw [Mesh3D.shows_faceVertexIds hs, Mesh3D.shows_faceVertices hs]
    have : t.faces[f]? = none := List.getElem?_eq_none hge
    simp [TMesh.faceVertexIds, TMesh.faceVertices, this]
  · intro v
    simp only [Mesh3D.vertex, Mesh3D.numVertices]
    rw [← Option.isSome_iff_exists]; simp

example : ∀ i < (run (Mesh3D.empty : Mesh3D Nat U32Vec)
    [.addFace 1 2 3, .addVertex 9, .tryAdd 0 1 3, .tryAdd 0 0 1]).numVertices, fits U32Vec i := by
  intro i hi
  have : i < 4 := hi
  show i < 2^32
  omega

/-- **C04.** `try_add_connection` on any mesh reached by any history: success exactly for three
different existing vertex ids; the error kind tells which condition failed; a failure changes
nothing; success appends exactly that face, returns its id and changes nothing else. -/
theorem c04_try_add_connection (ops : List (Op P)) (a b c : Nat)
    (hf : ∀ i < (run (Mesh3D.empty : Mesh3D P IC) ops).numVertices, fits IC i) :
    let m := run (Mesh3D.empty : Mesh3D P IC) ops
    let m' := (m.tryAddConnection a b c).1
    let r := (m.tryAddConnection a b c).2
    ((∃ id, r = .ok id) ↔ (a < m.numVertices ∧ b < m.numVertices ∧ c < m.numVertices ∧
        a ≠ b ∧ a ≠ c ∧ b ≠ c)) ∧
    (r = .error .IncorrectVertexID ↔ ¬ (a < m.numVertices ∧ b < m.numVertices ∧ c < m.numVertices)) ∧
    (r = .error .FaceIDsNotUnique ↔ (a < m.numVertices ∧ b < m.numVertices ∧ c < m.numVertices) ∧
        ¬ (a ≠ b ∧ a ≠ c ∧ b ≠ c)) ∧
    (∀ e, r = .error e → m' = m) ∧
    (∀ id, r = .ok id → id = m.numFaces ∧ m'.numFaces = m.numFaces + 1 ∧
        m'.faceVertexIds id = some (some ⟨a, b, c⟩) ∧
        (∀ f, f < m.numFaces → m'.faceVertexIds f = m.faceVertexIds f) ∧
        (∀ v, m'.vertex v = m.vertex v)) := by
  intro m m' r
  obtain ⟨t, hwf, hs⟩ := reachable_shows (P := P) (IC := IC) ops hf
  change m.Shows t at hs
  have hn : m.numVertices = t.verts.length := Mesh3D.shows_numVertices hs
  have hfit : ∀ i < t.verts.length, fits IC i := fun i hi => hf i (by
    show i < m.numVertices; omega)
  have hs' := Mesh3D.shows_tryAddConnection hs a b c hfit
  have hr : r = (t.tryAddConnection a b c).2 := hs'.2
  have hm' : m'.Shows (t.tryAddConnection a b c).1 := hs'.1
  have herr : ∀ e, r = .error e → m' = m := by
    intro e he
    simp only [r, m', Mesh3D.tryAddConnection] at he ⊢
    split
    · rfl
    · split
      · rfl
      · simp_all
  refine ⟨?_, ?_, ?_, herr, ?_⟩
  · rw [hr, hn]; unfold TMesh.tryAddConnection
    split
    · simp; omega
    · split
      · simp; omega
      · simp; omega
  · rw [hr, hn]; unfold TMesh.tryAddConnection
    split
    · simp; omega
    · split
      · simp; omega
      · simp; omega
  · rw [hr, hn]; unfold TMesh.tryAddConnection
    split
    · simp; omega
    · split
      · simp; omega
      · simp; omega
  · intro id hid
    rw [hr] at hid
    have hid2 := hid
    unfold TMesh.tryAddConnection at hid
    split at hid
    · simp at hid
    · split at hid
      · simp at hid
      · rename_i h1 h2
        have hid : t.faces.length = id := by simpa using hid
        have ht' : (t.tryAddConnection a b c).1 = { t with faces := t.faces ++ [⟨a, b, c⟩] } := by
          unfold TMesh.tryAddConnection; rw [if_neg h1, if_neg h2]
        rw [ht'] at hm'
        refine ⟨?_, ?_, ?_, ?_, ?_⟩
        · rw [Mesh3D.shows_numFaces hs, ← hid]; rfl
        · rw [Mesh3D.shows_numFaces hm', Mesh3D.shows_numFaces hs]; simp [TMesh.numFaces]
        · rw [Mesh3D.shows_faceVertexIds hm', ← hid]; simp [TMesh.faceVertexIds]
        · intro f hlt
          rw [Mesh3D.shows_numFaces hs] at hlt
          rw [Mesh3D.shows_faceVertexIds hm', Mesh3D.shows_faceVertexIds hs]
          simp only [TMesh.faceVertexIds]
          rw [List.getElem?_append_left hlt]
        · intro v
          rw [Mesh3D.shows_vertex hm', Mesh3D.shows_vertex hs]; rfl

example : ((run (Mesh3D.empty : Mesh3D Nat DynVec) [.addFace 1 2 3, .addVertex 9]).tryAddConnection 0 1 3).2
    = .ok 1 := by rfl
example : ((run (Mesh3D.empty : Mesh3D Nat DynVec) [.addFace 1 2 3, .addVertex 9]).tryAddConnection 0 3 3).2
    = .error .FaceIDsNotUnique := by rfl

private theorem tstep_faces_prefix (t : TMesh P) (op : Op P) : t.faces <+: (tstep t op).faces := by
  cases op with
  | addVertex p => exact List.prefix_rfl
  | addFace p q r => exact List.prefix_append _ _
  | tryAdd a b c =>
    simp only [tstep]; unfold TMesh.tryAddConnection
    split
    · exact List.prefix_rfl
    · split
      · exact List.prefix_rfl
      · exact List.prefix_append _ _
  | changeVertex v p => simp only [tstep]; unfold TMesh.changeVertex; split <;> exact List.prefix_rfl
  | reserveFaces n => exact List.prefix_rfl
  | reserveVertices n => exact List.prefix_rfl

private theorem trun_faces_prefix (ops : List (Op P)) (t : TMesh P) :
    t.faces <+: (ops.foldl tstep t).faces := by
  induction ops generalizing t with
  | nil => exact List.prefix_rfl
  | cons op ops ih => exact (tstep_faces_prefix t op).trans (ih _)

private theorem tstep_vertex (t : TMesh P) (op : Op P) (v : Nat) (hv : v < t.verts.length)
    (hsp : op.spares v) : (tstep t op).verts[v]? = t.verts[v]? := by
  cases op with
  | addVertex p => simp [tstep, TMesh.addVertex, List.getElem?_append_left hv]
  | addFace p q r => simp [tstep, TMesh.addFace, List.getElem?_append_left hv]
  | tryAdd a b c =>
    simp only [tstep]; unfold TMesh.tryAddConnection
    split
    · rfl
    · split <;> rfl
  | changeVertex w p =>
    simp only [tstep]; unfold TMesh.changeVertex
    split
    · exact List.getElem?_set_ne hsp
    · rfl
  | reserveFaces n => rfl
  | reserveVertices n => rfl

private theorem tstep_verts_length (t : TMesh P) (op : Op P) :
    t.verts.length ≤ (tstep t op).verts.length := by
  cases op with
  | addVertex p => simp [tstep, TMesh.addVertex]
  | addFace p q r => simp [tstep, TMesh.addFace]
  | tryAdd a b c =>
    simp only [tstep]; unfold TMesh.tryAddConnection
    split
    · exact Nat.le_refl _
    · split <;> exact Nat.le_refl _
  | changeVertex w p => simp only [tstep]; unfold TMesh.changeVertex; split <;> simp
  | reserveFaces n => exact Nat.le_refl _
  | reserveVertices n => exact Nat.le_refl _

private theorem trun_vertex (ops : List (Op P)) (t : TMesh P) (v : Nat) (hv : v < t.verts.length)
    (hsp : ∀ op ∈ ops, op.spares v) : (ops.foldl tstep t).verts[v]? = t.verts[v]? := by
  induction ops generalizing t with
  | nil => rfl
  | cons op ops ih =>
    rw [List.foldl_cons, ih _ (Nat.lt_of_lt_of_le hv (tstep_verts_length t op))
      (fun o ho => hsp o (List.mem_cons_of_mem _ ho)), tstep_vertex t op v hv (hsp op (by simp))]

/-- **C05.** Ids stay stable: through every later history, an existing face keeps its vertex ids,
an existing vertex keeps its value unless that vertex id is explicitly changed, and neither count
decreases. (`pre` is the history so far, `post` any later history.) -/
theorem c05_ids_stable (pre post : List (Op P))
    (hf : ∀ i < (run (Mesh3D.empty : Mesh3D P IC) (pre ++ post)).numVertices, fits IC i) :
    let m := run (Mesh3D.empty : Mesh3D P IC) pre
    let m' := run m post
    m.numFaces ≤ m'.numFaces ∧ m.numVertices ≤ m'.numVertices ∧
    (∀ f, f < m.numFaces → m'.faceVertexIds f = m.faceVertexIds f) ∧
    (∀ v, v < m.numVertices → (∀ op ∈ post, op.spares v) → m'.vertex v = m.vertex v) := by
  intro m m'
  have happ : run (Mesh3D.empty : Mesh3D P IC) (pre ++ post) = m' := by
    simp [run, m, m']
  rw [happ] at hf
  have hle : m.numVertices ≤ m'.numVertices := run_numVertices_le post m
  have hs : m.Shows (pre.foldl tstep TMesh.empty) :=
    run_shows pre Mesh3D.shows_empty (fun i hi => hf i (Nat.lt_of_lt_of_le hi hle))
  have hs' : m'.Shows (post.foldl tstep (pre.foldl tstep TMesh.empty)) := run_shows post hs hf
  generalize pre.foldl tstep TMesh.empty = t at hs hs'
  have hpre := trun_faces_prefix post t
  refine ⟨?_, hle, ?_, ?_⟩
  · rw [Mesh3D.shows_numFaces hs, Mesh3D.shows_numFaces hs']; exact hpre.length_le
  · intro f hlt
    rw [Mesh3D.shows_numFaces hs] at hlt
    rw [Mesh3D.shows_faceVertexIds hs, Mesh3D.shows_faceVertexIds hs']
    simp only [TMesh.faceVertexIds]
    obtain ⟨r, hr⟩ := hpre
    rw [← hr, List.getElem?_append_left hlt]
  · intro v hv hsp
    rw [Mesh3D.shows_vertex hs, Mesh3D.shows_vertex hs']
    exact trun_vertex post t v (by rw [Mesh3D.shows_numVertices hs] at hv; exact hv) hsp

/-- **C05.** The ids handed out are the previous counts, and what they denote is what was passed. -/
theorem c05_ids_consecutive (ops : List (Op P)) (p q r : P)
    (hf : ∀ i < (run (Mesh3D.empty : Mesh3D P IC) ops).numVertices + 3, fits IC i) :
    let m := run (Mesh3D.empty : Mesh3D P IC) ops
    (m.addVertex p).2 = m.numVertices ∧ (m.addVertex p).1.vertex m.numVertices = some p ∧
    (m.addFace p q r).2 = m.numFaces ∧
    (m.addFace p q r).1.faceVertices m.numFaces = some (some (p, q, r)) := by
  intro m
  obtain ⟨t, hwf, hs⟩ := reachable_shows (P := P) (IC := IC) ops (fun i hi => hf i (by omega))
  change m.Shows t at hs
  have hn : m.numVertices = t.verts.length := Mesh3D.shows_numVertices hs
  have h1 := Mesh3D.shows_addVertex hs p
  have h2 := Mesh3D.shows_addFace hs p q r (fun i hi => hf i (by
    show i < m.numVertices + 3; omega))
  refine ⟨?_, ?_, ?_, ?_⟩
  · rw [h1.2, hn]; rfl
  · rw [Mesh3D.shows_vertex h1.1, hn]; simp [TMesh.vertex, TMesh.addVertex]
  · rw [h2.2, Mesh3D.shows_numFaces hs]; rfl
  · rw [Mesh3D.shows_faceVertices h2.1, Mesh3D.shows_numFaces hs]
    simp [TMesh.faceVertices, TMesh.faceVertexIds, TMesh.vertex, TMesh.addFace, TMesh.numFaces]

example : ∀ i < (run (Mesh3D.empty : Mesh3D Nat (List Nat))
    ([.addFace 1 2 3] ++ [.addVertex 9, .changeVertex 1 7])).numVertices, fits (List Nat) i :=
  fun _ _ => trivial

end R3D

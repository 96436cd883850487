import Verif.Props.NoPanic
import Verif.Props.Stl
/-!
# C139: loading into a target that is not empty
-/
namespace R3D
open Spec

/-- the second mesh behind the first: its faces join its own vertices, whose numbers have grown by the number of vertices of the first -/
def Spec.appended {P : Type} (m n : TMesh P) : TMesh P :=
  ⟨m.verts ++ n.verts, m.faces ++ n.faces.map fun f => ⟨m.verts.length + f.a, m.verts.length + f.b, m.verts.length + f.c⟩⟩

/-- the second mesh behind the first, but its faces still name the numbers its vertices had on their own -/
def Spec.piled {P : Type} (m n : TMesh P) : TMesh P := ⟨m.verts ++ n.verts, m.faces ++ n.faces⟩

theorem piled_ne {P : Type} {m n : TMesh P} (hm : m.verts ≠ []) (hn : n.faces ≠ []) : piled m n ≠ appended m n := by
  intro h
  obtain ⟨f, fs, e⟩ := List.exists_cons_of_ne_nil hn
  have h2 := List.append_cancel_left (congrArg TMesh.faces h)
  rw [e] at h2
  simp only [List.map_cons, List.cons.injEq] at h2
  have := congrArg Face3.a h2.1
  have : m.verts.length ≠ 0 := by simpa using hm
  simp only at *
  omega

section
variable {σ ε α μ ν P : Type}

/-- a map of targets that every push respects is respected by the whole loop -/
theorem forEach_target {next : σ → Panics (Option (Except ε α) × σ)} {push : μ → α → μ × Except ε Unit} (g : μ → μ)
    (h : ∀ m x, push (g m) x = (g (push m x).1, (push m x).2)) :
    ∀ (n : Nat) (s : σ) (m : μ), forEach next push n s (g m) = (forEach next push n s m).map fun r => (g r.1, r.2) := by
  intro n
  induction n with
  | zero => intro s m; rfl
  | succ n ih =>
    intro s m
    rw [forEach, forEach]
    rcases next s with _ | ⟨_ | (_ | x), s'⟩
    · rfl
    · rfl
    · rfl
    · simp only [h]
      rcases push m x with ⟨a, _ | u⟩
      · rfl
      · exact ih s' a

/-- two targets that stay related while the same items arrive, until pushing into the second fails with `bad` -/
theorem forEach_related {next : σ → Panics (Option (Except ε α) × σ)} {push : μ → α → μ × Except ε Unit} (g : μ → μ) (bad : ε)
    (h : ∀ m x, (∃ a, push m x = (a, .error bad)) ∨ push (g m) x = (g (push m x).1, (push m x).2)) :
    ∀ (n : Nat) (s : σ) (m : μ) a o, forEach next push n s m = some (a, o) → o ≠ .error bad →
      forEach next push n s (g m) = some (g a, o) := by
  intro n
  induction n with
  | zero => intro s m a o e; cases e
  | succ n ih =>
    intro s m a o e ho
    rw [forEach] at e ⊢
    rcases hn : next s with _ | ⟨_ | (_ | x), s'⟩
    · rw [hn] at e; cases e
    · rw [hn] at e; cases e; rfl
    · rw [hn] at e; cases e; rfl
    · rw [hn] at e
      simp only at e ⊢
      rcases h m x with ⟨b, hb⟩ | h1
      · rw [hb] at e
        simp only [Option.some.injEq, Prod.mk.injEq] at e
        exact absurd e.2.symm ho
      · rw [h1]
        rcases hp : push m x with ⟨b, er | u⟩
        · rw [hp] at e
          simp only [Option.some.injEq, Prod.mk.injEq] at e ⊢
          exact ⟨by rw [e.1], e.2⟩
        · rw [hp] at e
          exact ih s' b a o e ho

/-- what every push keeps is kept by the loop -/
theorem forEach_keeps {next : σ → Panics (Option (Except ε α) × σ)} {push : μ → α → μ × Except ε Unit} (R : μ → Prop)
    (h : ∀ m x, R m → R (push m x).1) : ∀ (n : Nat) (s : σ) (m : μ) a o, R m → forEach next push n s m = some (a, o) → R a := by
  intro n
  induction n with
  | zero => intro s m a o _ e; cases e
  | succ n ih =>
    intro s m a o hm e
    rw [forEach] at e
    rcases hn : next s with _ | ⟨_ | (_ | x), s'⟩
    · rw [hn] at e; cases e
    · rw [hn] at e; cases e; exact hm
    · rw [hn] at e; cases e; exact hm
    · rw [hn] at e
      simp only at e
      have hx := h m x hm
      rcases hp : push m x with ⟨b, er | u⟩
      · rw [hp] at e hx; cases e; exact hx
      · rw [hp] at e hx; exact ih s' b a o hx e
end

/-! ### points -/

section
variable {α : Type}

theorem pushItem_target {ε : Type} (ip : List (Point3D α)) (l : List (Point3D α)) (x : Item (Point3D α)) :
    (pushItem (ip ++ l) x : _ × Except ε Unit) = (ip ++ (pushItem l x : _ × Except ε Unit).1, (pushItem l x : _ × Except ε Unit).2) := by
  cases x <;> simp [pushItem]

/-- **C139** for points: unless the announced number of points cannot be reserved, the points of the file come behind those that were there -/
theorem c139_points (T : FloatText α) (file : Bytes) (ip r : List (Point3D α)) :
    (∀ o, loadOffPointsR T file ip = some (r, o) → ∃ pts, loadOffPoints T file = some (pts, o) ∧ r = ip ++ pts) ∧
    (∀ o, loadPtsR T file ip = some (r, o) → ∃ pts, loadPts T file = some (pts, o) ∧ r = ip ++ pts) ∧
    (∀ [Scalar α] o, loadPtxR T file ip = some (r, o) → ∃ pts, loadPtx T file = some (pts, o) ∧ r = ip ++ pts) := by
  have key : ∀ {σ ε : Type} (next : σ → Panics (Option (Except ε (Item (Point3D α))) × σ)) (n : Nat) (s : σ) (o : Except ε Unit),
      forEachR next reservePoints pushItem n s ip = some (r, o) → ∃ pts, forEach next pushItem n s [] = some (pts, o) ∧ r = ip ++ pts := by
    intro σ ε next n s o h
    have h1 := forEachR_forEach (push := pushItem) (fun _ _ _ => rfl) n s ip h
    have h2 := forEach_target (next := next) (push := pushItem) (fun l => ip ++ l) (pushItem_target ip) n s []
    simp only [List.append_nil] at h2
    rw [h1] at h2
    rcases hf : forEach next pushItem n s ([] : List (Point3D α)) with _ | ⟨a, b⟩
    · rw [hf] at h2; cases h2
    · rw [hf] at h2
      simp only [Option.map_some, Option.some.injEq, Prod.mk.injEq] at h2
      exact ⟨a, by rw [h2.2], h2.1⟩
  exact ⟨fun o h => key _ _ _ o h, fun o h => key _ _ _ o h, fun o h => key _ _ _ o h⟩
end

/-- **C139** for the points of .las and .ply files and the corners of .stl files -/
theorem c139_points_f64 (T : FloatText F64) (file : Bytes) (ip r : List (Point3D F64)) :
    (∀ o, loadLasR file ip = some (r, o) → ∃ pts, loadLas file = some (pts, o) ∧ r = ip ++ pts) ∧
    (loadPlyPoints T file ip = (loadPlyPoints T file []).map fun r => (ip ++ r.1, r.2)) ∧
    ∀ format normals, loadStlTriplets T file format ip normals =
      (loadStlTriplets T file format [] []).map fun r => ((ip ++ r.1.1, normals ++ r.1.2), r.2) := by
  refine ⟨fun o h => ?_, ?_, fun format normals => ?_⟩
  · have h1 := forEachR_forEach (push := fun m x => (lasPush m x, .ok ())) (fun _ _ _ => rfl) _ _ _ h
    have h2 := forEach_target (next := lasNext) (push := fun m x => (lasPush m x, .ok ())) (fun l => ip ++ l)
      (fun m x => by cases x <;> simp [lasPush]) (file.length + 3) ⟨file, file, false, 0, none⟩ []
    simp only [List.append_nil] at h2
    rw [h1] at h2
    rcases hf : loadLas file with _ | ⟨a, b⟩
    · rw [show forEach lasNext _ _ _ _ = _ from hf] at h2; cases h2
    · rw [show forEach lasNext _ _ _ _ = _ from hf] at h2
      simp only [Option.map_some, Option.some.injEq, Prod.mk.injEq] at h2
      exact ⟨a, by rw [h2.2], h2.1⟩
  · unfold loadPlyPoints
    rcases PlyPointsIter.new file with _ | (e | it)
    · rfl
    · simp
    · have h2 := forEach_target (next := fun s => some (plyPointsNext T s)) (push := pushItem) (fun l => ip ++ l) (pushItem_target ip) (file.length + 3) it []
      rwa [List.append_nil] at h2
  · unfold loadStlTriplets stlForEach
    rcases stlNew file format with e | s
    · simp
    · have h2 := forEach_target (next := stlNext T) (push := fun m x => (stlPushTriplets m x, .ok ())) (fun l => (ip ++ l.1, normals ++ l.2))
        (fun m x => by cases x <;> simp [stlPushTriplets]) (file.length + 3) s ([], [])
      simpa using h2

/-- the hypotheses are met -/
example : loadPtsR natText b!"2\n1 2 3\n4 5 6\n" [⟨7, 8, 9⟩] = some ([⟨7, 8, 9⟩, ⟨1, 2, 3⟩, ⟨4, 5, 6⟩], .ok ()) ∧
    ∃ pts, loadPts natText b!"2\n1 2 3\n4 5 6\n" = some (pts, .ok ()) ∧ pts = [⟨1, 2, 3⟩, ⟨4, 5, 6⟩] :=
  ⟨by decide +kernel, _, by decide +kernel, rfl⟩

/-! ### meshes from .stl files -/

/-- one triangle as text -/
def oneStl : Bytes := b!"solid a\nfacet normal 0 0 1\nouter loop\nvertex 1 0 0\nvertex 0 1 0\nvertex 0 0 1\nendloop\nendfacet\nendsolid a\n"

/-- **C139** for .stl files loaded with their vertices as they are: the mesh of the file comes behind the mesh that was there, and so do the normals -/
theorem c139_stl_duped (T : FloatText F64) (file : Bytes) (format : StlFormat) (m : TMesh StlPoint) (normals : List StlPoint) :
    loadStlMeshDuped T file format m normals =
      (loadStlMeshDuped T file format ⟨[], []⟩ []).map fun r => ((appended m r.1.1, normals ++ r.1.2), r.2) := by
  unfold loadStlMeshDuped stlForEach
  rcases stlNew file format with e | s
  · simp [appended]
  · have h2 := forEach_target (next := stlNext T) (push := fun m x => (stlPushDuped m x, .ok ())) (fun l => (appended m l.1, normals ++ l.2))
      (fun l x => by cases x <;> simp [stlPushDuped, appended, TMesh.addFace, Nat.add_assoc]) (file.length + 3) s (⟨[], []⟩, [])
    simpa [appended] using h2

/-- the variables of the loop over a target that held `m` and `normals` -/
def stlBehind (m : TMesh StlPoint) (normals : List StlPoint) (s : StlUnique) : StlUnique :=
  ⟨appended m s.mesh, s.map.map fun e => (e.1, m.verts.length + e.2), normals ++ s.normals⟩

theorem stlVertexId_behind (same : StlPoint → StlPoint → Bool) (m : TMesh StlPoint) (normals : List StlPoint) (s : StlUnique) (p : StlPoint) :
    stlVertexId same (stlBehind m normals s) p = (stlBehind m normals (stlVertexId same s p).1, m.verts.length + (stlVertexId same s p).2) := by
  unfold stlVertexId
  have hf : (stlBehind m normals s).map.find? (fun e => same e.1 p) =
      (s.map.find? fun e => same e.1 p).map fun e => (e.1, m.verts.length + e.2) := by
    show (s.map.map fun e => (e.1, m.verts.length + e.2)).find? _ = _
    rw [List.find?_map]
    rfl
  rw [hf]
  rcases he : s.map.find? fun e => same e.1 p with _ | e
  · simp only [he, Option.map_none]
    simp [stlBehind, appended, TMesh.addVertex, TMesh.numVertices]
  · simp only [he, Option.map_some]

/-- **C139** for .stl files loaded with unified vertices: the mesh of the file, its vertices unified among themselves only, comes behind the mesh that was there -/
theorem c139_stl_unique (same : StlPoint → StlPoint → Bool) (T : FloatText F64) (file : Bytes) (format : StlFormat) (m : TMesh StlPoint) (normals : List StlPoint) :
    loadStlMeshUnique same T file format m normals =
      (loadStlMeshUnique same T file format ⟨[], []⟩ []).map fun r => ((appended m r.1.1, normals ++ r.1.2), r.2) := by
  unfold loadStlMeshUnique stlForEach
  rcases stlNew file format with e | s
  · simp [appended]
  · have h2 := forEach_target (next := stlNext T) (push := fun m x => (stlPushUnique same m x, .ok ())) (stlBehind m normals)
      (fun l x => by
        rcases x with n | f
        · rfl
        · simp only [stlPushUnique, stlVertexId_behind]
          generalize (stlVertexId same l f.a).2 = a
          generalize (stlVertexId same l f.a).1 = l1
          generalize (stlVertexId same l1 f.b).2 = b
          generalize (stlVertexId same l1 f.b).1 = l2
          generalize (stlVertexId same l2 f.c).2 = c
          generalize (stlVertexId same l2 f.c).1 = l3
          unfold TMesh.tryAddConnection
          simp only [stlBehind, appended, List.length_append, ge_iff_le, Nat.add_le_add_iff_left, Nat.add_left_cancel_iff]
          by_cases h1 : l3.mesh.verts.length ≤ a ∨ l3.mesh.verts.length ≤ b ∨ l3.mesh.verts.length ≤ c
          · simp only [h1, if_true]
          · by_cases h2 : a = b ∨ a = c ∨ b = c
            · simp only [h1, h2, if_true, if_false]
            · simp only [h1, h2, if_false]
              simp) (file.length + 3) s ⟨⟨[], []⟩, [], []⟩
    rw [show stlBehind m normals ⟨⟨[], []⟩, [], []⟩ = ⟨m, [], normals⟩ by simp [stlBehind, appended]] at h2
    simp only [h2, Option.map_map]
    rfl

/-- a mesh that is not empty and a file that can be loaded: the second triangle has vertices of its own -/
example : ∃ m ns, loadStlMeshUnique sameBits natF64 oneStl .Ascii ⟨[], []⟩ [] = some ((m, ns), .ok ()) ∧ m.faces = [⟨0, 1, 2⟩] ∧
    ∃ r, loadStlMeshUnique sameBits natF64 oneStl .Ascii m ns = some (r, .ok ()) ∧ r.1.faces = [⟨0, 1, 2⟩, ⟨3, 4, 5⟩] ∧
      r.1.verts.length = 6 ∧ r.2.length = 2 := by
  have h : ∃ m ns, loadStlMeshUnique sameBits natF64 oneStl .Ascii ⟨[], []⟩ [] = some ((m, ns), .ok ()) ∧ m.faces = [⟨0, 1, 2⟩] ∧
      m.verts.length = 3 ∧ ns.length = 1 := ⟨_, _, rfl, by decide +kernel, by decide +kernel, by decide +kernel⟩
  obtain ⟨m, ns, h1, h2, h3, h4⟩ := h
  refine ⟨m, ns, h1, h2, _, by rw [c139_stl_unique, h1]; rfl, ?_, ?_, ?_⟩
  · simp [appended, h2, h3]
  · simp [appended, h3]
  · simp [h4]

/-! ### meshes whose files name vertices by number -/

theorem connect_piled {P : Type} (m n : TMesh P) (a b c : Nat) :
    (∃ e, n.tryAddConnection a b c = (n, .error e)) ∨
      (∃ i j, (piled m n).tryAddConnection a b c = (piled m ⟨n.verts, n.faces ++ [⟨a, b, c⟩]⟩, .ok i) ∧
        n.tryAddConnection a b c = (⟨n.verts, n.faces ++ [⟨a, b, c⟩]⟩, .ok j)) := by
  unfold TMesh.tryAddConnection
  by_cases h1 : a ≥ n.verts.length ∨ b ≥ n.verts.length ∨ c ≥ n.verts.length
  · exact .inl ⟨_, by rw [if_pos h1]⟩
  · by_cases h2 : a = b ∨ a = c ∨ b = c
    · exact .inl ⟨_, by rw [if_neg h1, if_pos h2]⟩
    · refine .inr ⟨(piled m n).faces.length, n.faces.length, ?_, by rw [if_neg h1, if_neg h2]⟩
      rw [if_neg (by simp only [piled, List.length_append]; omega), if_neg h2]
      simp [piled]

/-- C139 (partial) for .obj files: whatever the outcome of loading into an empty mesh, a refused face excepted, loading into a mesh that is not empty has the same
outcome and adds the same vertices. Missing: the faces name the numbers the file gives, so that they join vertices that were there before, see `c139_violated`. -/
theorem c139_obj_partial {α : Type} (T : FloatText α) (file : Bytes) (m n : TMesh (Point3D α)) (o : Except (LineInfo ObjError) Unit)
    (h : loadObjMesh T file ⟨[], []⟩ = some (n, o)) (ho : o ≠ .error (.none .InvalidMeshIndices)) :
    loadObjMesh T file m = some (piled m n, o) := by
  have h2 := forEach_related (next := objMeshNext T) (push := objPush) (piled m) (.none .InvalidMeshIndices) (fun l x => by
    rcases x with p | ⟨a, b, c⟩ | _
    · exact .inr (by simp [objPush, piled, TMesh.addVertex])
    · rcases connect_piled m l a b c with ⟨e, h⟩ | ⟨i, j, h1, h2⟩
      · exact .inl ⟨l, by simp only [objPush, h]⟩
      · exact .inr (by simp only [objPush, h1, h2])
    · exact .inr rfl) _ _ _ _ _ h ho
  rwa [show piled m ⟨[], []⟩ = m by simp [piled]] at h2

/-- C139 (partial) for .off files, as `c139_obj_partial` -/
theorem c139_off_partial {α : Type} (T : FloatText α) (file : Bytes) (m n : TMesh (Point3D α)) (o : Except (LineInfo OffError) Unit)
    (h : loadOffMesh T file ⟨[], []⟩ = some (n, o)) (ho : o ≠ .error (.none .InvalidMeshIndices)) :
    loadOffMesh T file m = some (piled m n, o) := by
  have h2 := forEach_related (next := fun s => some (offMeshNext T s)) (push := offPush) (piled m) (.none .InvalidMeshIndices) (fun l x => by
    rcases x with p | ⟨a, b, c⟩ | _
    · exact .inr (by simp [offPush, piled, TMesh.addVertex])
    · rcases connect_piled m l a b c with ⟨e, h⟩ | ⟨i, j, h1, h2⟩
      · exact .inl ⟨l, by simp only [offPush, h]⟩
      · exact .inr (by simp only [offPush, h1, h2])
    · exact .inr rfl) _ _ _ _ _ h ho
  rwa [show piled m ⟨[], []⟩ = m by simp [piled]] at h2

/-- C139 (partial) for .ply files of any of the three formats, as `c139_obj_partial` -/
theorem c139_ply_partial (T : FloatText F64) (file : Bytes) (m n : TMesh PlyPoint) (o : Except (LineInfo PlyError) Unit)
    (h : loadPlyMesh T file ⟨[], []⟩ = some (n, o)) (ho : o ≠ .error (.none .InvalidMeshIndices)) :
    loadPlyMesh T file m = some (piled m n, o) := by
  unfold loadPlyMesh at h ⊢
  rcases hi : PlyMeshIter.new file with _ | (e | it)
  · rw [hi] at h; cases h
  · rw [hi] at h; cases h; simp [piled]
  · rw [hi] at h
    have h2 := forEach_related (next := fun s => some (plyMeshNext T s)) (push := plyPush) (piled m) (.none .InvalidMeshIndices) (fun l x => by
      rcases x with p | ⟨a, b, c⟩ | _
      · exact .inr (by simp [plyPush, piled, TMesh.addVertex])
      · rcases connect_piled m l a b c with ⟨e, h⟩ | ⟨i, j, h1, h2⟩
        · exact .inl ⟨l, by simp only [plyPush, h]⟩
        · exact .inr (by simp only [plyPush, h1, h2])
      · exact .inr rfl) _ _ _ _ _ h ho
    rwa [show piled m ⟨[], []⟩ = m by simp [piled]] at h2

/-- **C139 violated** for every file with faces that can be loaded and every mesh with vertices: the faces of the file join other vertices than those of the file -/
theorem c139_violated {α : Type} (T : FloatText α) (U : FloatText F64) (file : Bytes) :
    (∀ m n : TMesh (Point3D α), m.verts ≠ [] → n.faces ≠ [] → loadObjMesh T file ⟨[], []⟩ = some (n, .ok ()) →
      ∃ r, loadObjMesh T file m = some (r, .ok ()) ∧ r ≠ appended m n) ∧
    (∀ m n : TMesh (Point3D α), m.verts ≠ [] → n.faces ≠ [] → loadOffMesh T file ⟨[], []⟩ = some (n, .ok ()) →
      ∃ r, loadOffMesh T file m = some (r, .ok ()) ∧ r ≠ appended m n) ∧
    ∀ m n : TMesh PlyPoint, m.verts ≠ [] → n.faces ≠ [] → loadPlyMesh U file ⟨[], []⟩ = some (n, .ok ()) →
      ∃ r, loadPlyMesh U file m = some (r, .ok ()) ∧ r ≠ appended m n :=
  ⟨fun m n hm hn h => ⟨_, c139_obj_partial T file m n _ h (by simp), piled_ne hm hn⟩,
   fun m n hm hn h => ⟨_, c139_off_partial T file m n _ h (by simp), piled_ne hm hn⟩,
   fun m n hm hn h => ⟨_, c139_ply_partial U file m n _ h (by simp), piled_ne hm hn⟩⟩

/-- the hypotheses are met: two triangles loaded from the same file into one mesh, the second one joins the vertices of the first -/
example : ∃ file n r, file = b!"v 1 0 0\nv 0 1 0\nv 0 0 1\nf 1 2 3\n" ∧ loadObjMesh natText file ⟨[], []⟩ = some (n, .ok ()) ∧
    loadObjMesh natText file n = some (r, .ok ()) ∧ n.faces = [⟨0, 1, 2⟩] ∧ r.verts.length = 6 ∧ r.faces = [⟨0, 1, 2⟩, ⟨0, 1, 2⟩] :=
  ⟨_, ⟨[⟨1, 0, 0⟩, ⟨0, 1, 0⟩, ⟨0, 0, 1⟩], [⟨0, 1, 2⟩]⟩, ⟨[⟨1, 0, 0⟩, ⟨0, 1, 0⟩, ⟨0, 0, 1⟩, ⟨1, 0, 0⟩, ⟨0, 1, 0⟩, ⟨0, 0, 1⟩], [⟨0, 1, 2⟩, ⟨0, 1, 2⟩]⟩,
    rfl, by decide +kernel, by decide +kernel, rfl, rfl, rfl⟩

/-- **C139**: whatever the file and the outcome, the vertices and faces that were there stay as they were, at their place -/
theorem c139_kept {α : Type} (T : FloatText α) (U : FloatText F64) (file : Bytes) :
    (∀ (m r : TMesh (Point3D α)) o, loadObjMesh T file m = some (r, o) → m.verts <+: r.verts ∧ m.faces <+: r.faces) ∧
    (∀ (m r : TMesh (Point3D α)) o, loadOffMesh T file m = some (r, o) → m.verts <+: r.verts ∧ m.faces <+: r.faces) ∧
    ∀ (m r : TMesh PlyPoint) o, loadPlyMesh U file m = some (r, o) → m.verts <+: r.verts ∧ m.faces <+: r.faces := by
  have hc : ∀ {P : Type} (m l : TMesh P) (a b c : Nat), (m.verts <+: l.verts ∧ m.faces <+: l.faces) →
      m.verts <+: (l.tryAddConnection a b c).1.verts ∧ m.faces <+: (l.tryAddConnection a b c).1.faces := by
    intro P m l a b c h
    unfold TMesh.tryAddConnection
    split
    · exact h
    · split
      · exact h
      · exact ⟨h.1, h.2.trans (List.prefix_append _ _)⟩
  have hv : ∀ {P : Type} (m l : TMesh P) (p : P), (m.verts <+: l.verts ∧ m.faces <+: l.faces) →
      m.verts <+: (l.addVertex p).1.verts ∧ m.faces <+: (l.addVertex p).1.faces :=
    fun m l p h => ⟨h.1.trans (List.prefix_append _ _), h.2⟩
  refine ⟨fun m r o h => ?_, fun m r o h => ?_, fun m r o h => ?_⟩
  · refine forEach_keeps (push := objPush) (fun l => m.verts <+: l.verts ∧ m.faces <+: l.faces) (fun l x hl => ?_) _ _ _ _ _ ⟨List.prefix_rfl, List.prefix_rfl⟩ h
    rcases x with p | ⟨a, b, c⟩ | _
    · exact hv m l p hl
    · have := hc m l a b c hl
      simp only [objPush]
      revert this
      rcases l.tryAddConnection a b c with ⟨l', _ | _⟩ <;> exact id
    · exact hl
  · refine forEach_keeps (push := offPush) (fun l => m.verts <+: l.verts ∧ m.faces <+: l.faces) (fun l x hl => ?_) _ _ _ _ _ ⟨List.prefix_rfl, List.prefix_rfl⟩ h
    rcases x with p | ⟨a, b, c⟩ | _
    · exact hv m l p hl
    · have := hc m l a b c hl
      simp only [offPush]
      revert this
      rcases l.tryAddConnection a b c with ⟨l', _ | _⟩ <;> exact id
    · exact hl
  · unfold loadPlyMesh at h
    rcases hi : PlyMeshIter.new file with _ | (e | it)
    · rw [hi] at h; cases h
    · rw [hi] at h; cases h; exact ⟨List.prefix_rfl, List.prefix_rfl⟩
    · rw [hi] at h
      refine forEach_keeps (push := plyPush) (fun l => m.verts <+: l.verts ∧ m.faces <+: l.faces) (fun l x hl => ?_) _ _ _ _ _ ⟨List.prefix_rfl, List.prefix_rfl⟩ h
      rcases x with p | ⟨a, b, c⟩ | _
      · exact hv m l p hl
      · have := hc m l a b c hl
        simp only [plyPush]
        revert this
        rcases l.tryAddConnection a b c with ⟨l', _ | _⟩ <;> exact id
      · exact hl

end R3D

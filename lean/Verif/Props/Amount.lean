import Verif.Props.Truncated
import Verif.Props.PlyBody
import Verif.Props.PlySound
import Verif.Props.NoPanic
import Verif.Props.Psl
import Verif.Model.Las
import Verif.Props.Layout
import Verif.Props.Agree
import Verif.Props.StlFile
import Verif.Props.Las
/-!
**C137**: a file cannot produce more than it contains. Whatever counts a file announces, the number of points, vertices and
faces a loader delivers is bounded by the number of bytes of the file, with the smallest number of bytes one item can take in
the format.
-/
namespace R3D
open Spec
variable {σ ε α ι μ : Type}

/-! ### loops that pay for what they deliver -/

/-- every item costs at least `k` and is paid by the state: `k` times the items is at most what the state had -/
theorem drain_pays {next : σ → Option (Except ε ι) × σ} {cost : σ → Nat} {k : Nat}
    (h : ∀ s a s', next s = (some (.ok a), s') → k + cost s' ≤ cost s) :
    ∀ (n : Nat) (s : σ) l r, drain next n s = some (l, r) → k * l.length ≤ cost s
  | 0, _, _, _, hd => by cases hd
  | n + 1, s, l, r, hd => by
    unfold drain at hd
    rcases hn : next s with ⟨_ | e | a, s'⟩
    · rw [hn] at hd; cases hd; simp
    · rw [hn] at hd; cases hd; simp
    · rw [hn] at hd
      simp only [Option.map_eq_some_iff] at hd
      obtain ⟨⟨l', r'⟩, h1, h2⟩ := hd
      cases h2
      have := drain_pays h n s' l' r' h1
      have := h s a s' hn
      simp only [List.length_cons, Nat.mul_add]
      omega

/-- the same for loops into a target, the size of which grows with what is paid -/
theorem forEach_pays {next : σ → Panics (Option (Except ε ι) × σ)} {push : μ → ι → μ × Except ε Unit} {cost : σ → Nat}
    {size : μ → Nat} {price : ι → Nat} (h : ∀ s a s', next s = some (some (.ok a), s') → price a + cost s' ≤ cost s)
    (hp : ∀ m a, size (push m a).1 ≤ size m + price a) :
    ∀ (n : Nat) (s : σ) m m' r, forEach next push n s m = some (m', r) → size m' ≤ size m + cost s
  | 0, _, _, _, _, hd => by cases hd
  | n + 1, s, m, m', r, hd => by
    unfold forEach at hd
    rcases hn : next s with _ | ⟨_ | e | a, s'⟩
    · rw [hn] at hd; cases hd
    · rw [hn] at hd; cases hd; omega
    · rw [hn] at hd; cases hd; omega
    · rw [hn] at hd
      have h1 := h s a s' hn
      have h2 := hp m a
      rcases hpu : push m a with ⟨m1, e | u⟩
      · simp only [hpu] at hd h2
        cases hd
        omega
      · simp only [hpu] at hd h2
        have := forEach_pays h hp n s' m1 m' r hd
        omega

/-! ### bytes of lines and words -/

/-- what lines cost: their bytes and the one that ends them -/
def lineCost (ls : List Bytes) : Nat := (ls.map fun l => l.length + 1).sum

theorem lineCost_cons (l : Bytes) (ls : List Bytes) : lineCost (l :: ls) = l.length + 1 + lineCost ls := by simp [lineCost]

theorem cleanLine_shorter {l : Bytes} (h : l ≠ []) : (cleanLine l).length + 1 ≤ l.length := by
  have h1 : (cleanLine l).length ≤ l.dropLast.length := by
    simp only [cleanLine, List.length_reverse]
    exact (List.dropWhile_sublist _).length_le.trans (by simp)
  have := List.length_pos_of_ne_nil h
  rw [List.length_dropLast] at h1
  omega

theorem rawLines_bytes (s : Bytes) : ((rawLines s).map List.length).sum = s.length ∧ ∀ l ∈ rawLines s, l ≠ [] := by
  induction s with
  | nil => simp [rawLines]
  | cons b s ih =>
    unfold rawLines
    split
    · refine ⟨by simp [ih.1]; omega, ?_⟩
      intro l hl
      rcases List.mem_cons.1 hl with rfl | hl
      · simp
      · exact ih.2 l hl
    · split
      · rename_i h
        rw [h] at ih
        simp at ih
        refine ⟨?_, by simp⟩
        simp [← ih]
      · rename_i l ls h
        rw [h] at ih
        have h1 := ih.1
        have h2 := ih.2
        simp only [List.map_cons, List.sum_cons] at h1
        refine ⟨by simp only [List.map_cons, List.sum_cons, List.length_cons]; omega, ?_⟩
        intro x hx
        rcases List.mem_cons.1 hx with rfl | hx
        · simp
        · exact h2 x (by simp [hx])

theorem lines_cost (s : Bytes) : lineCost (lines s) ≤ s.length := by
  obtain ⟨h1, h2⟩ := rawLines_bytes s
  rw [← h1]
  unfold lineCost lines
  generalize rawLines s = ls at h2
  induction ls with
  | nil => simp
  | cons l ls ih =>
    simp only [List.map_cons, List.sum_cons]
    have := cleanLine_shorter (h2 l (by simp))
    have := ih (fun x hx => h2 x (by simp [hx]))
    simp only [List.map_map] at this ⊢
    omega

theorem fetchLine_pays {s l r : Bytes} (h : fetchLine s = some (l, r)) : l.length + 1 + r.length ≤ s.length := by
  have hu : ∀ s : Bytes, (readUntilNl s).1.length + (readUntilNl s).2.length = s.length := by
    intro s
    induction s with
    | nil => rfl
    | cons b s ih =>
      unfold readUntilNl
      split
      · simp; omega
      · simp only [List.length_cons]; omega
  unfold fetchLine at h
  simp only at h
  split at h
  · cases h
  · rename_i hne
    simp only [Option.some.injEq, Prod.mk.injEq] at h
    obtain ⟨rfl, rfl⟩ := h
    have := cleanLine_shorter (l := (readUntilNl s).1) (by intro h0; rw [h0] at hne; exact hne rfl)
    have := hu s
    omega

theorem words_bytes (p : UInt8 → Bool) (s : Bytes) : 2 * (skipEmpty (splitP p s)).length ≤ s.length + 1 := by
  have h : ((splitP p s).map fun l => l.length + 1).sum = s.length + 1 := by
    induction s with
    | nil => simp [splitP]
    | cons b s ih =>
      unfold splitP
      split
      · simp [ih]; omega
      · split
        · rename_i h
          rw [h] at ih
          simp at ih
        · rename_i l ls h
          rw [h] at ih
          simp only [List.map_cons, List.sum_cons, List.length_cons] at ih ⊢
          omega
  rw [← h]
  generalize splitP p s = ws
  induction ws with
  | nil => simp [skipEmpty]
  | cons w ws ih =>
    simp only [skipEmpty, List.filter_cons, List.map_cons, List.sum_cons] at ih ⊢
    cases w with
    | nil => simp only [List.isEmpty_nil, Bool.not_true, Bool.false_eq_true, if_false]; omega
    | cons b w => simp only [List.isEmpty_cons, Bool.not_false, if_true, List.length_cons]; omega

theorem nthNum_length {β : Type} {parse : Bytes → Option β} {ws : List Bytes} {n : Nat} {x : β} (h : nthNum parse ws n = some x) :
    n < ws.length := by
  by_contra hn
  simp [nthNum, List.getElem?_eq_none (Nat.le_of_not_lt hn)] at h

theorem vertexOf_words {e : ε} {T : FloatText α} {ws : List Bytes} {p : Point3D α} (h : vertexOf T e ws = .ok p) : 3 ≤ ws.length := by
  unfold vertexOf at h
  split at h
  · rename_i h2
    exact nthNum_length h2
  · cases h


/-! ### text -/

theorem vertexOf_pays {e : ε} {T : FloatText α} {line : Bytes} {d : UInt8 → Bool} {p : Point3D α}
    (h : vertexOf T e (skipEmpty (splitP d line)) = .ok p) : 6 ≤ line.length + 1 := by
  have := vertexOf_words h
  have := words_bytes d line
  omega

/-- **C137**, `.xyz`: a point takes at least six bytes of the file. -/
theorem c137_xyz (T : FloatText α) (input : Bytes) (pts : List (Point3D α)) (r : Except (LineInfo XyzError) Unit)
    (h : loadXyz T input = some (pts, r)) : 6 * pts.length ≤ input.length := by
  refine (drain_pays (cost := fun s => lineCost s.lines) ?_ _ _ _ _ h).trans (lines_cost input)
  intro s a s' hs
  unfold XyzIter.next at hs
  split at hs
  · cases hs
  · split at hs
    · cases hs
    · rename_i line rest hl
      simp only at hs
      split at hs
      · rename_i d p hf
        cases hs
        simp only [hl, lineCost_cons]
        unfold xyzFetchOne at hf
        simp only at hf
        split at hf
        · cases hf
        · simp only [Prod.mk.injEq] at hf
          have := vertexOf_pays hf.2
          omega
      · cases hs

/-- two points in twelve bytes -/
example : ∃ file pts, loadXyz natText file = some (pts, .ok ()) ∧ 6 * pts.length = file.length ∧ pts.length = 2 :=
  ⟨b!"1 2 3\n4 5 6\n", [⟨1, 2, 3⟩, ⟨4, 5, 6⟩], by decide +kernel⟩

/-- **C137**, `.xy`: a point takes at least four bytes of the file. -/
theorem c137_xy (T : FloatText α) (input : Bytes) (pts : List (Point2D α)) (r : Except (LineInfo XyzError) Unit)
    (h : loadXy T input = some (pts, r)) : 4 * pts.length ≤ input.length := by
  refine (drain_pays (cost := fun s => lineCost s.lines) ?_ _ _ _ _ h).trans (lines_cost input)
  intro s a s' hs
  unfold XyzIter.next at hs
  split at hs
  · cases hs
  · split at hs
    · cases hs
    · rename_i line rest hl
      simp only at hs
      split at hs
      · rename_i d p hf
        cases hs
        simp only [hl, lineCost_cons]
        unfold xyFetchOne at hf
        simp only at hf
        split at hf
        · cases hf
        · rename_i dd _
          simp only [Prod.mk.injEq] at hf
          obtain ⟨-, hf⟩ := hf
          split at hf
          · rename_i h2
            have := nthNum_length h2
            have := words_bytes (fun b => b == dd) line
            omega
          · cases hf
      · cases hs

/-- two points in eight bytes -/
example : ∃ file pts, loadXy natText file = some (pts, .ok ()) ∧ 4 * pts.length = file.length ∧ pts.length = 2 :=
  ⟨b!"1 2\n4 5\n", [⟨1, 2⟩, ⟨4, 5⟩], by decide +kernel⟩

theorem objVertex_pays {T : FloatText α} {line : Bytes} {p : Point3D α} (h : objFetchVertex T line = .ok p) : 8 ≤ line.length + 1 := by
  have hw := words_bytes (fun b => b == 32 || b == 9) line
  unfold objFetchVertex toWords at h
  split at h
  · cases h
  · rename_i heq
    have := vertexOf_words h
    rw [heq] at hw
    simp only [List.length_cons] at hw
    omega

theorem objFace_pays {line : Bytes} {f : Nat × Nat × Nat} (h : objFetchFace line = some (.ok f)) : 8 ≤ line.length + 1 := by
  have hw := words_bytes (fun b => b == 32 || b == 9) line
  unfold objFetchFace toWords at h
  split at h
  · cases h
  · rename_i words heq
    split at h
    · rename_i h3
      have : 2 < words.length := by
        by_contra hn
        simp [objCorner, List.getElem?_eq_none (Nat.le_of_not_lt hn)] at h3
      rw [heq] at hw
      simp only [List.length_cons] at hw
      omega
    · cases h

/-- what an item of a mesh costs -/
def itemPrice {P : Type} (v f : Nat) : Item P → Nat
  | .data _ => v
  | .face _ _ _ => f
  | .reserve _ _ => 0

/-- what a mesh costs -/
def meshPrice {P : Type} (v f : Nat) (m : TMesh P) : Nat := v * m.numVertices + f * m.numFaces

theorem meshPrice_connect {P : Type} (v f : Nat) (m : TMesh P) (a b c : Nat) :
    meshPrice v f (m.tryAddConnection a b c).1 ≤ meshPrice v f m + f := by
  unfold TMesh.tryAddConnection
  split
  · simp
  · split
    · simp
    · simp [meshPrice, TMesh.numFaces, TMesh.numVertices, Nat.mul_add]; omega

theorem objPoints_pays {T : FloatText α} : ∀ (ls : List Bytes) (i : Nat) p s', objPointsLoop T ls i = (some (.ok p), s') →
    8 + lineCost s'.lines ≤ lineCost ls
  | [], i, p, s', h => by cases h
  | line :: rest, i, p, s', h => by
    unfold objPointsLoop at h
    rw [lineCost_cons]
    split at h
    · split at h
      · rename_i hv
        cases h
        have := objVertex_pays hv
        simp only
        omega
      · cases h
    · have := objPoints_pays rest _ _ _ h
      omega

/-- **C137**, points of `.obj`: a point takes at least eight bytes of the file. -/
theorem c137_obj_points (T : FloatText α) (input : Bytes) (pts : List (Point3D α)) (r : Except (LineInfo ObjError) Unit)
    (h : loadObjPoints T input = some (pts, r)) : 8 * pts.length ≤ input.length := by
  refine (drain_pays (cost := fun s => lineCost s.lines) ?_ _ _ _ _ h).trans (lines_cost input)
  intro s a s' hs
  unfold objPointsNext at hs
  split at hs
  · cases hs
  · exact objPoints_pays _ _ _ _ hs

/-- two points in sixteen bytes -/
example : ∃ file pts, loadObjPoints natText file = some (pts, .ok ()) ∧ 8 * pts.length = file.length ∧ pts.length = 2 :=
  ⟨b!"v 1 2 3\nv 4 5 6\n", [⟨1, 2, 3⟩, ⟨4, 5, 6⟩], by decide +kernel⟩

theorem objMesh_pays {T : FloatText α} : ∀ (ls : List Bytes) (i : Nat) x s', objMeshLoop T ls i = some (some (.ok x), s') →
    itemPrice 8 8 x + lineCost s'.lines ≤ lineCost ls
  | [], i, p, s', h => by cases h
  | line :: rest, i, p, s', h => by
    unfold objMeshLoop at h
    rw [lineCost_cons]
    split at h
    · split at h
      · rename_i hv
        cases h
        have := objVertex_pays hv
        simp only [itemPrice]
        omega
      · cases h
    · split at h
      · split at h
        · cases h
        · rename_i hf
          cases h
          have := objFace_pays hf
          simp only [itemPrice]
          omega
        · cases h
      · have := objMesh_pays rest _ _ _ h
        omega

/-- **C137**, meshes of `.obj`: a vertex and a face take at least eight bytes of the file each. -/
theorem c137_obj_mesh (T : FloatText α) (input : Bytes) (m m' : TMesh (Point3D α)) (r : Except (LineInfo ObjError) Unit)
    (h : loadObjMesh T input m = some (m', r)) :
    8 * m'.numVertices + 8 * m'.numFaces ≤ 8 * m.numVertices + 8 * m.numFaces + input.length := by
  have h1 := forEach_pays (cost := fun s => lineCost s.lines) (size := meshPrice 8 8) (price := itemPrice 8 8) ?_ ?_ _ _ _ _ _ h
  · have := lines_cost input
    simp only [meshPrice] at h1
    omega
  · intro s a s' hs
    unfold objMeshNext at hs
    split at hs
    · cases hs
    · exact objMesh_pays _ _ _ _ hs
  · intro m a
    cases a with
    | data p => simp [objPush, itemPrice, meshPrice, TMesh.addVertex, TMesh.numVertices, TMesh.numFaces]; omega
    | reserve a b => simp [objPush, itemPrice]
    | face a b c =>
      have := meshPrice_connect 8 8 m a b c
      unfold objPush
      simp only [itemPrice]
      split <;> rename_i heq <;> rw [heq] at this <;> exact this

/-- three vertices and a face in 32 bytes -/
example : ∃ file m, loadObjMesh natText file ⟨[], []⟩ = some (m, .ok ()) ∧ 8 * m.numVertices + 8 * m.numFaces = file.length ∧ m.numFaces = 1 :=
  ⟨b!"v 1 2 3\nv 4 5 6\nv 7 8 9\nf 1 2 3\n", ⟨[⟨1, 2, 3⟩, ⟨4, 5, 6⟩, ⟨7, 8, 9⟩], [⟨0, 1, 2⟩]⟩, by decide +kernel⟩

theorem offVertex_pays {T : FloatText α} {line : Bytes} {p : Point3D α} (h : offFetchVertex T line = .ok p) : 6 ≤ line.length + 1 :=
  vertexOf_pays h

theorem offFace_pays {line : Bytes} {f : Nat × Nat × Nat} (h : offFetchFace line = .ok f) : 8 ≤ line.length + 1 := by
  have hw := words_bytes (fun b => b == 32 || b == 9) line
  unfold offFetchFace toWords at h
  split at h
  · cases h
  · rename_i count words heq
    split at h
    · split at h
      · rename_i h3
        have := nthNum_length h3
        rw [heq] at hw
        simp only [List.length_cons] at hw
        omega
      · cases h
    · cases h

theorem offMesh_pays {T : FloatText α} : ∀ (ls : List Bytes) (s : OffMeshIter) x s', offMeshLoop T ls s = (some (.ok x), s') →
    itemPrice 6 8 x + lineCost s'.lines ≤ lineCost ls
  | [], s, p, s', h => by cases h
  | line :: rest, s, p, s', h => by
    unfold offMeshLoop at h
    rw [lineCost_cons]
    simp only at h
    split at h
    · have := offMesh_pays rest _ _ _ h
      omega
    · split at h
      · have := offMesh_pays rest _ _ _ h
        omega
      · unfold offMeshLine at h
        split at h
        · split at h
          · cases h
            simp only [itemPrice]
            omega
          · cases h
        · split at h
          · split at h
            · rename_i hv
              cases h
              have := offVertex_pays hv
              simp only [itemPrice]
              omega
            · cases h
          · split at h
            · rename_i hv
              cases h
              have := offFace_pays hv
              simp only [itemPrice]
              omega
            · cases h

/-- **C137**, meshes of `.off`: a vertex takes at least six bytes of the file and a face eight, whatever counts are announced. -/
theorem c137_off_mesh (T : FloatText α) (input : Bytes) (m m' : TMesh (Point3D α)) (r : Except (LineInfo OffError) Unit)
    (h : loadOffMesh T input m = some (m', r)) :
    6 * m'.numVertices + 8 * m'.numFaces ≤ 6 * m.numVertices + 8 * m.numFaces + input.length := by
  have h1 := forEach_pays (cost := fun s => lineCost s.lines) (size := meshPrice 6 8) (price := itemPrice 6 8) ?_ ?_ _ _ _ _ _ h
  · have := lines_cost input
    simp only [meshPrice] at h1
    omega
  · intro s a s' hs
    simp only [Option.some.injEq] at hs
    unfold offMeshNext at hs
    split at hs
    · cases hs
    · exact offMesh_pays _ _ _ _ hs
  · intro m a
    cases a with
    | data p => simp [offPush, itemPrice, meshPrice, TMesh.addVertex, TMesh.numVertices, TMesh.numFaces]; omega
    | reserve a b => simp [offPush, itemPrice]
    | face a b c =>
      have := meshPrice_connect 6 8 m a b c
      unfold offPush
      simp only [itemPrice]
      split <;> rename_i heq <;> rw [heq] at this <;> exact this

/-- a thousand vertices are announced, three follow -/
example : ∃ file m, loadOffMesh natText file ⟨[], []⟩ = some (m, .ok ()) ∧ m.numVertices = 3 ∧ file.length = 25 :=
  ⟨b!"1000 1\n1 2 3\n4 5 6\n7 8 9\n", ⟨[⟨1, 2, 3⟩, ⟨4, 5, 6⟩, ⟨7, 8, 9⟩], []⟩, by decide +kernel⟩

/-- three vertices and a face in 26 bytes behind the counts -/
example : ∃ file m, loadOffMesh natText file ⟨[], []⟩ = some (m, .ok ()) ∧ 6 * m.numVertices + 8 * m.numFaces + 4 = file.length ∧ m.numFaces = 1 :=
  ⟨b!"3 1\n1 2 3\n4 5 6\n7 8 9\n3 0 1 2\n", ⟨[⟨1, 2, 3⟩, ⟨4, 5, 6⟩, ⟨7, 8, 9⟩], [⟨0, 1, 2⟩]⟩, by decide +kernel⟩

theorem pushItem_pays (l : List (Point3D α)) (a : Item (Point3D α)) (k f : Nat) :
    k * (pushItem (ε := ε) l a).1.length ≤ k * l.length + itemPrice k f a := by
  cases a <;> simp [pushItem, itemPrice, Nat.mul_add]

theorem offPoints_pays {T : FloatText α} : ∀ (ls : List Bytes) (s : OffMeshIter) x s', offPointsLoop T ls s = (some (.ok x), s') →
    itemPrice 6 0 x + lineCost s'.lines ≤ lineCost ls
  | [], s, p, s', h => by cases h
  | line :: rest, s, p, s', h => by
    unfold offPointsLoop at h
    rw [lineCost_cons]
    simp only at h
    split at h
    · have := offPoints_pays rest _ _ _ h
      omega
    · split at h
      · have := offPoints_pays rest _ _ _ h
        omega
      · unfold offPointsLine at h
        split at h
        · split at h
          · cases h
            simp only [itemPrice]
            omega
          · cases h
        · split at h
          · split at h
            · rename_i hv
              cases h
              have := offVertex_pays hv
              simp only [itemPrice]
              omega
            · cases h
          · cases h

/-- **C137**, points of `.off`: a point takes at least six bytes of the file, whatever counts are announced. -/
theorem c137_off_points (T : FloatText α) (input : Bytes) (pts : List (Point3D α)) (r : Except (LineInfo OffError) Unit)
    (h : loadOffPoints T input = some (pts, r)) : 6 * pts.length ≤ input.length := by
  have h1 := forEach_pays (cost := fun s => lineCost s.lines) (size := fun l => 6 * l.length) (price := itemPrice 6 0) ?_
    (fun m a => pushItem_pays m a 6 0) _ _ _ _ _ h
  · have := lines_cost input
    simp only [List.length_nil] at h1
    omega
  · intro s a s' hs
    simp only [Option.some.injEq] at hs
    unfold offPointsNext at hs
    split at hs
    · cases hs
    · exact offPoints_pays _ _ _ _ hs

/-- two points in twelve bytes behind the count, which announces a thousand -/
example : ∃ file pts, loadOffPoints natText file = some (pts, .ok ()) ∧ 6 * pts.length + 5 = file.length ∧ pts.length = 2 :=
  ⟨b!"1000\n1 2 3\n4 5 6\n", [⟨1, 2, 3⟩, ⟨4, 5, 6⟩], by decide +kernel⟩

theorem pts_pays {T : FloatText α} : ∀ (ls : List Bytes) (s : PtsIter) x s', ptsLoop T ls s = (some (.ok x), s') →
    itemPrice 6 0 x + lineCost s'.lines ≤ lineCost ls
  | [], s, p, s', h => by cases h
  | line :: rest, s, p, s', h => by
    unfold ptsLoop at h
    rw [lineCost_cons]
    simp only at h
    split at h
    · have := pts_pays rest _ _ _ h
      omega
    · unfold ptsLine at h
      split at h
      · split at h
        · cases h
          simp only [itemPrice]
          omega
        · cases h
      · split at h
        · split at h
          · rename_i hv
            cases h
            have := vertexOf_pays hv
            simp only [itemPrice]
            omega
          · cases h
        · split at h
          · cases h
            simp only [itemPrice]
            omega
          · cases h

/-- **C137**, `.pts`: a point takes at least six bytes of the file, whatever counts are announced. -/
theorem c137_pts (T : FloatText α) (input : Bytes) (pts : List (Point3D α)) (r : Except (LineInfo PtsError) Unit)
    (h : loadPts T input = some (pts, r)) : 6 * pts.length ≤ input.length := by
  have h1 := forEach_pays (cost := fun s => lineCost s.lines) (size := fun l => 6 * l.length) (price := itemPrice 6 0) ?_
    (fun m a => pushItem_pays m a 6 0) _ _ _ _ _ h
  · have := lines_cost input
    simp only [List.length_nil] at h1
    omega
  · intro s a s' hs
    simp only [Option.some.injEq] at hs
    unfold ptsNext at hs
    split at hs
    · cases hs
    · exact pts_pays _ _ _ _ hs


/-- two points in twelve bytes behind the count, which announces a thousand -/
example : ∃ file pts, loadPts natText file = some (pts, .ok ()) ∧ 6 * pts.length + 5 = file.length ∧ pts.length = 2 :=
  ⟨b!"1000\n1 2 3\n4 5 6\n", [⟨1, 2, 3⟩, ⟨4, 5, 6⟩], by decide +kernel⟩

theorem gcodeWords_pays {T : FloatText α} : ∀ (ws : List Bytes) (n : Nat) (x y z : Option α) o, gcodeCommandLoop T ws n x y z = some o →
    (∀ w ∈ ws, w.length < 2) → o = (x, y, z)
  | [], n, x, y, z, o, h, _ => by simpa [gcodeCommandLoop] using h.symm
  | w :: ws, n, x, y, z, o, h, hw => by
    have ih := gcodeWords_pays (T := T) ws n x y z o
    unfold gcodeCommandLoop at h
    split at h
    · simpa using h.symm
    · split at h
      · exact ih h (fun w hw' => hw w (by simp [hw']))
      · rename_i c arg
        split at h
        · simpa using h.symm
        · split at h
          · exact ih h (fun w hw' => hw w (by simp [hw']))
          · rename_i ha
            have h1 := hw (c :: arg) (by simp)
            have := List.length_pos_of_ne_nil ha
            simp only [List.length_cons] at h1
            omega

theorem splitP_short (p : UInt8 → Bool) (s : Bytes) : ∀ w ∈ splitP p s, w.length ≤ s.length := by
  induction s with
  | nil => simp [splitP]
  | cons b s ih =>
    intro w hw
    unfold splitP at hw
    split at hw
    · rcases List.mem_cons.1 hw with rfl | hw
      · simp
      · exact (ih w hw).trans (by simp)
    · split at hw
      · simp only [List.mem_singleton] at hw
        subst hw
        simp
      · rename_i l ls h
        rw [h] at ih
        rcases List.mem_cons.1 hw with rfl | hw
        · simpa using ih l (by simp)
        · exact (ih w (by simp [hw])).trans (by simp)

theorem gcodeCommand_pays {T : FloatText α} {line : Bytes} {ox oy oz : Option α} (h : gcodeCommand T line = some (ox, oy, oz))
    (hs : (ox.isSome || oy.isSome || oz.isSome) = true) : 2 ≤ line.length := by
  by_contra hn
  have := gcodeWords_pays _ _ _ _ _ _ h (fun w hw => by have := splitP_short _ _ w hw; omega)
  cases this
  simp at hs

theorem gcode_pays [Add α] {T : FloatText α} : ∀ (ls : List Bytes) (s : GcodeIter α) p s', gcodeLoop T ls s = (some (.ok p), s') →
    6 + lineCost s'.lines ≤ lineCost ls
  | [], s, p, s', h => by cases h
  | line :: rest, s, p, s', h => by
    rw [lineCost_cons]
    have ih : ∀ t, gcodeLoop T rest t = (some (.ok p), s') → 6 + lineCost s'.lines ≤ line.length + 1 + lineCost rest := fun t ht => by
      have := gcode_pays rest t p s' ht
      omega
    unfold gcodeLoop at h
    simp only at h
    split at h
    · split at h
      · split at h
        · split at h
          · cases h
          · rename_i hc
            split at h
            · rename_i hs
              have := gcodeCommand_pays hc hs
              cases h
              simp only [List.length_cons] at this ⊢
              omega
            · exact ih _ h
        · split at h
          · split at h
            · exact ih _ h
            · split at h
              · exact ih _ h
              · split at h
                · split at h
                  · cases h
                  · rename_i hc
                    split at h
                    · rename_i hs
                      have := gcodeCommand_pays hc hs
                      cases h
                      simp only [List.length_cons] at this ⊢
                      omega
                    · exact ih _ h
                · exact ih _ h
          · exact ih _ h
      · exact ih _ h
    · exact ih _ h

/-- **C137**, `.gcode`: a point takes at least six bytes of the file. -/
theorem c137_gcode [Add α] (T : FloatText α) (zero : α) (input : Bytes) (pts : List (Point3D α)) (r : Except (LineInfo GcodeError) Unit)
    (h : loadGcode T zero input = some (pts, r)) : 6 * pts.length ≤ input.length := by
  refine (drain_pays (cost := fun s => lineCost s.lines) ?_ _ _ _ _ h).trans (lines_cost input)
  intro s a s' hs
  unfold gcodeNext at hs
  split at hs
  · cases hs
  · exact gcode_pays _ _ _ _ hs

/-- two points in twelve bytes -/
example : ∃ file pts, loadGcode natText 0 file = some (pts, .ok ()) ∧ 6 * pts.length = file.length ∧ pts.length = 2 :=
  ⟨b!"G1 X5\nG1 Y7\n", [⟨5, 0, 0⟩, ⟨5, 7, 0⟩], by decide +kernel⟩

theorem ptxHeader_pays {T : FloatText α} {ls : List Bytes} {i rows : Nat} {m : Matrix4 α} {rest : List Bytes}
    (h : ptxHeader T ls i = .ok (rows, m, rest)) : lineCost rest ≤ lineCost ls := by
  have hr : ∀ (ls : List Bytes) i x, ptxRow T ls i = .ok x → lineCost x.2 ≤ lineCost ls := by
    intro ls i x hx
    unfold ptxRow at hx
    split at hx
    · cases hx
    · split at hx
      · cases hx; rw [lineCost_cons]; simp only; omega
      · cases hx
  have hk : ∀ (ls : List Bytes) i x, ptxSkip ls i = .ok x → lineCost x ≤ lineCost ls := by
    intro ls i x hx
    unfold ptxSkip at hx
    split at hx
    · cases hx
    · cases hx; rw [lineCost_cons]; omega
  have hn : ∀ (ls : List Bytes) i x, ptxRows ls i = .ok x → lineCost x.2 ≤ lineCost ls := by
    intro ls i x hx
    unfold ptxRows at hx
    split at hx
    · cases hx
    · split at hx
      · cases hx; rw [lineCost_cons]; simp only; omega
      · cases hx
  unfold ptxHeader at h
  simp only [bind, Except.bind, pure, Except.pure] at h
  rcases e0 : ptxRows ls i with _ | x0 <;> simp only [e0] at h
  · cases h
  rcases e1 : ptxSkip x0.2 (i + 1) with _ | x1 <;> simp only [e1] at h
  · cases h
  rcases e2 : ptxSkip x1 (i + 2) with _ | x2 <;> simp only [e2] at h
  · cases h
  rcases e3 : ptxSkip x2 (i + 3) with _ | x3 <;> simp only [e3] at h
  · cases h
  rcases e4 : ptxSkip x3 (i + 4) with _ | x4 <;> simp only [e4] at h
  · cases h
  rcases e5 : ptxRow T x4 (i + 5) with _ | x5 <;> simp only [e5] at h
  · cases h
  rcases e6 : ptxRow T x5.2 (i + 6) with _ | x6 <;> simp only [e6] at h
  · cases h
  rcases e7 : ptxRow T x6.2 (i + 7) with _ | x7 <;> simp only [e7] at h
  · cases h
  rcases e8 : ptxRow T x7.2 (i + 8) with _ | x8 <;> simp only [e8] at h
  · cases h
  cases h
  have := hn _ _ _ e0
  have := hk _ _ _ e1
  have := hk _ _ _ e2
  have := hk _ _ _ e3
  have := hk _ _ _ e4
  have := hr _ _ _ e5
  have := hr _ _ _ e6
  have := hr _ _ _ e7
  have := hr _ _ _ e8
  omega

/-- **C137**, `.ptx`: a point takes at least six bytes of the file, whatever number of rows and columns is announced. -/
theorem c137_ptx [Scalar α] (T : FloatText α) (input : Bytes) (pts : List (Point3D α)) (r : Except (LineInfo PtxError) Unit)
    (h : loadPtx T input = some (pts, r)) : 6 * pts.length ≤ input.length := by
  have h1 := forEach_pays (cost := fun s => lineCost s.lines) (size := fun l => 6 * l.length) (price := itemPrice 6 0) ?_
    (fun m a => pushItem_pays m a 6 0) _ _ _ _ _ h
  · have := lines_cost input
    simp only [List.length_nil, PtxIter.new] at h1
    omega
  · intro s a s' hs
    unfold ptxNext at hs
    split at hs
    · cases hs
    · split at hs
      · split at hs
        · cases hs
        · rename_i hl
          split at hs
          · cases hs
          · split at hs
            · cases hs
            · rename_i hh
              split at hs
              · cases hs
                have := ptxHeader_pays hh
                simp only [itemPrice, hl, lineCost_cons]
                omega
              · cases hs
      · split at hs
        · cases hs
        · rename_i line rest hl
          simp only at hs
          split at hs
          · rename_i hf
            cases hs
            simp only [itemPrice, hl, lineCost_cons]
            unfold ptxFetchOne at hf
            split at hf
            · rename_i hv
              have := vertexOf_pays hv
              omega
            · cases hf
          · cases hs

/-- 2000 points are announced, two follow -/
def shortScan : Bytes := b!"2\n1000\n0 0 0\n1 0 0\n0 1 0\n0 0 1\n1 0 0 10\n0 1 0 0\n0 0 1 0\n0 0 0 1\n1 2 3\n4 5 6\n"

example : ∃ pts, loadPtx natF64 shortScan = some (pts, .error (.index 12 .LoadFileEndReached)) ∧ pts.length = 2 :=
  ⟨[⟨f 11, f 2, f 3⟩, ⟨f 14, f 5, f 6⟩], by decide +kernel, rfl⟩

/-! ### .ply -/

theorem skipBytes_pays {n : Nat} {s r : Bytes} (h : skipBytes n s = some r) : r.length + n = s.length := by
  obtain ⟨pb, rfl, rfl⟩ := skipBytes_some h
  simp
  omega

theorem readF64_shorter {e : Endian} {s r : Bytes} {x : F64} (h : readF64 e s = some (x, r)) : 8 + r.length = s.length := by
  unfold readF64 at h
  split at h
  · cases h
  · rename_i hr
    cases h
    have := readExact_length hr
    omega

theorem readVertexType_pays {e : Endian} {t : VertexType} {s r : Bytes} {x : F64} (h : readVertexType e t s = some (x, r)) :
    4 + r.length ≤ s.length := by
  unfold readVertexType at h
  split at h
  · have := readF32_length h
    omega
  · have := readF64_shorter h
    omega

theorem binaryVertex_pays {e : Endian} {h : PlyVertexData} {s r : Bytes} {p : PlyPoint} (hv : plyBinaryVertex e h s = some (p, r)) :
    12 + r.length ≤ s.length := by
  unfold plyBinaryVertex at hv
  simp only [bind, Option.bind_eq_some_iff, Option.some.injEq, Prod.exists, pure, Prod.mk.injEq] at hv
  obtain ⟨s1, h1, x, s2, h2, s3, h3, y, s4, h4, s5, h5, z, s6, h6, s7, h7, -, rfl⟩ := hv
  have := skipBytes_pays h1
  have := skipBytes_pays h3
  have := skipBytes_pays h5
  have := skipBytes_pays h7
  have := readVertexType_pays h2
  have := readVertexType_pays h4
  have := readVertexType_pays h6
  omega

theorem asciiVertex_pays {T : FloatText F64} {h : PlyVertexData} {line : Bytes} {p : PlyPoint} (hv : plyAsciiVertex T h line = .ok p) :
    6 ≤ line.length + 1 := by
  have hw := words_bytes (fun b => b == 32 || b == 9) line
  have hk : ∀ (n : Nat) (l : List Bytes), (skipN n l).length ≤ l.length := by
    intro n
    induction n with
    | zero => intro l; simp [skipN]
    | succ n ih =>
      intro l
      cases l with
      | nil => exact ih []
      | cons a l => exact (ih l).trans (by simp)
  unfold plyAsciiVertex at hv
  simp only at hv
  split at hv
  · cases hv
  · rename_i h1
    split at hv
    · cases hv
    · rename_i h2
      split at hv
      · cases hv
      · rename_i h3
        have a1 := nthNum_length h1
        have a2 := nthNum_length h2
        have a3 := nthNum_length h3
        have b1 := hk h.before.words (toWords line)
        generalize skipN h.before.words (toWords line) = w1 at *
        have b2 := hk h.betweenFirstSnd.words w1.tail
        generalize skipN h.betweenFirstSnd.words w1.tail = w2 at *
        have b3 := hk h.betweenSndThird.words w2.tail
        rw [List.length_tail] at b2 b3
        unfold toWords at b1
        omega

theorem plyPoints_pays {T : FloatText F64} {f : PlyFormat} {h : PlyVertexData} {s s' : PlyCursor} {p : PlyPoint}
    (hv : plyPointsInner T f h s = (some (.ok p), s')) : 6 + s'.read.length ≤ s.read.length := by
  unfold plyPointsInner at hv
  split at hv
  · unfold plyAsciiPointsNext at hv
    split at hv
    · cases hv
    · split at hv
      · split at hv
        · rename_i hl
          split at hv
          · rename_i ha
            cases hv
            have := fetchLine_pays hl
            have := asciiVertex_pays ha
            simp only
            omega
          · cases hv
        · unfold plyAsciiPointsEnd at hv
          split at hv <;> cases hv
      · unfold plyAsciiPointsEnd at hv
        split at hv <;> cases hv
  · simp only at hv
    unfold plyBinaryPointsNext at hv
    split at hv
    · cases hv
    · split at hv
      · split at hv
        · cases hv
        · rename_i hb
          cases hv
          have := binaryVertex_pays hb
          simp only
          omega
      · cases hv

theorem plyPoints_end {T : FloatText F64} {f : PlyFormat} {h : PlyVertexData} {s s' : PlyCursor}
    (hv : plyPointsInner T f h s = (none, s')) : s'.read.length ≤ s.read.length := by
  unfold plyPointsInner at hv
  split at hv
  · unfold plyAsciiPointsNext at hv
    split at hv
    · cases hv; rfl
    · split at hv
      · split at hv
        · split at hv <;> cases hv
        · unfold plyAsciiPointsEnd at hv
          split at hv <;> cases hv
          rfl
      · unfold plyAsciiPointsEnd at hv
        split at hv <;> cases hv
        rfl
  · simp only at hv
    unfold plyBinaryPointsNext at hv
    split at hv
    · cases hv; rfl
    · split at hv
      · split at hv <;> cases hv
      · cases hv; rfl

theorem readFaceType_pays {e : Endian} {t : FaceType} {s r : Bytes} {n : Nat} (h : readFaceType e t s = some (n, r)) :
    1 + r.length ≤ s.length := by
  have := readFaceType_shorter h
  omega

theorem indexLine_pays {line : Bytes} {f : Nat × Nat × Nat} (h : plyIndexLine line = some f) : 8 ≤ line.length + 1 := by
  have hw := words_bytes (fun b => b == 32 || b == 9) line
  unfold plyIndexLine at h
  simp only at h
  split at h
  · cases h
  · split at h
    · cases h
    · split at h
      · rename_i h3
        have := nthNum_length h3
        unfold toWords at this
        omega
      · cases h

theorem binaryFace_pays {e : Endian} {h : PlyFaceData} {s r : Bytes} {f : Nat × Nat × Nat} (hf : plyBinaryFace e h s = (.ok f, r)) :
    4 + r.length ≤ s.length := by
  unfold plyBinaryFace at hf
  split at hf
  · cases hf
  · rename_i h1
    split at hf
    · cases hf
    · split at hf
      · cases hf
      · rename_i h2
        cases hf
        simp only [bind, Option.bind_eq_some_iff, Option.some.injEq, Prod.exists, pure, Prod.mk.injEq] at h1 h2
        obtain ⟨s1, h3, h4⟩ := h1
        obtain ⟨a, s2, h5, b, s3, h6, c, s4, h7, s5, h8, -, rfl⟩ := h2
        have := skipBytes_pays h3
        have := readFaceType_pays h4
        have := readFaceType_pays h5
        have := readFaceType_pays h6
        have := readFaceType_pays h7
        have := skipBytes_pays h8
        omega

theorem plyFaces_pays {f : PlyFormat} {h : PlyFaceData} {s s' : PlyCursor} {p : Nat × Nat × Nat}
    (hv : plyFacesInner f h s = (some (.ok p), s')) : 4 + s'.read.length ≤ s.read.length := by
  unfold plyFacesInner at hv
  split at hv
  · unfold plyAsciiFacesNext at hv
    split at hv
    · cases hv
    · split at hv
      · split at hv
        · rename_i hl
          split at hv
          · rename_i ha
            cases hv
            have := fetchLine_pays hl
            have := indexLine_pays ha
            simp only
            omega
          · cases hv
        · cases hv
      · cases hv
  · simp only at hv
    unfold plyBinaryFacesNext at hv
    split at hv
    · cases hv
    · split at hv
      · split at hv
        · cases hv
        · rename_i hb
          cases hv
          have := binaryFace_pays hb
          simp only
          omega
      · cases hv

/-- the bytes left -/
def plyLeft : PlyMeshCursor → Nat
  | .points s => s.read.length
  | .faces s => s.read.length

theorem plyMeshFaces_pays {f : PlyFormat} {h : PlyFaceData} {s : PlyCursor} {x : Item PlyPoint} {c : PlyMeshCursor}
    (hv : plyMeshFaces f h s = (some (.ok x), c)) : itemPrice 6 4 x + plyLeft c ≤ s.read.length := by
  unfold plyMeshFaces at hv
  split at hv
  · cases hv
  · cases hv
  · rename_i hf
    cases hv
    exact plyFaces_pays hf

theorem plyMesh_pays {T : FloatText F64} {f : PlyFormat} {hv : PlyVertexData} {hf : PlyFaceData} {c c' : PlyMeshCursor} {x : Item PlyPoint}
    (h : plyMeshInner T f hv hf c = (some (.ok x), c')) : itemPrice 6 4 x + plyLeft c' ≤ plyLeft c := by
  unfold plyMeshInner at h
  split at h
  · split at h
    · rename_i hp
      cases h
      exact plyPoints_pays hp
    · cases h
    · rename_i hp
      exact Nat.le_trans (plyMeshFaces_pays h) (plyPoints_end (s' := _) hp : _)
  · exact plyMeshFaces_pays h

theorem plyHeader_pays : ∀ (n : Nat) (read : Bytes) (i : Nat) (s : PlyHeaderState) h rest j,
    plyHeaderLoop n read i s = some (.ok (h, rest, j)) → rest.length ≤ read.length
  | 0, _, _, _, _, _, _, hh => by cases hh
  | n + 1, read, i, s, h, rest, j, hh => by
    unfold plyHeaderLoop at hh
    split at hh
    · cases hh
    · rename_i hl
      have := fetchLine_pays hl
      split at hh
      · cases hh
      · cases hh
      · have := plyHeader_pays n _ _ _ _ _ _ hh
        omega
      · cases hh
        omega

theorem plyPush_pays (m : TMesh PlyPoint) (a : Item PlyPoint) (v f : Nat) :
    meshPrice v f (plyPush m a).1 ≤ meshPrice v f m + itemPrice v f a := by
  cases a with
  | data p => simp [plyPush, itemPrice, meshPrice, TMesh.addVertex, TMesh.numVertices, TMesh.numFaces, Nat.mul_add]; omega
  | reserve a b => simp [plyPush, itemPrice]
  | face a b c =>
    have := meshPrice_connect v f m a b c
    unfold plyPush
    simp only [itemPrice]
    split <;> rename_i heq <;> rw [heq] at this <;> exact this

/-- **C137**, meshes of `.ply`: in each of the three formats a vertex takes at least six bytes of the file and a face four,
whatever counts the header announces. -/
theorem c137_ply_mesh (T : FloatText F64) (input : Bytes) (m m' : TMesh PlyPoint) (r : Except (LineInfo PlyError) Unit)
    (h : loadPlyMesh T input m = some (m', r)) :
    6 * m'.numVertices + 4 * m'.numFaces ≤ 6 * m.numVertices + 4 * m.numFaces + input.length := by
  unfold loadPlyMesh at h
  split at h
  · cases h
  · cases h; omega
  · rename_i it hit
    have h1 := forEach_pays (cost := fun s => plyLeft s.inner) (size := meshPrice 6 4) (price := itemPrice 6 4) ?_
      (fun m a => plyPush_pays m a 6 4) _ _ _ _ _ h
    · unfold PlyMeshIter.new at hit
      split at hit
      · cases hit
      · cases hit
      · rename_i hh
        have := plyHeader_pays _ _ _ _ _ _ _ hh
        split at hit
        · cases hit
          simp only [meshPrice, plyLeft] at h1
          omega
        · cases hit
    · intro s a s' hs
      simp only [Option.some.injEq] at hs
      unfold plyMeshNext at hs
      split at hs
      · cases hs
        simp [itemPrice]
      · simp only [Prod.mk.injEq] at hs
        obtain ⟨h1, rfl⟩ := hs
        exact plyMesh_pays (Prod.ext h1 rfl)

/-- the header of a mesh with a thousand vertices and faces -/
def bigPly : Bytes := b!"ply\nformat ascii 1.0\nelement vertex 1000\nproperty float x\nproperty float y\nproperty float z\nelement face 1000\nproperty list uchar int vertex_indices\nend_header\n"

/-- two vertices follow -/
example : ∃ pts e, loadPlyMesh natF64 (bigPly ++ b!"1 2 3\n4 5 6\n") ⟨[], []⟩ = some (⟨pts, []⟩, .error e) ∧ pts.length = 2 :=
  ⟨[⟨F64.ofRat 1, F64.ofRat 2, F64.ofRat 3⟩, ⟨F64.ofRat 4, F64.ofRat 5, F64.ofRat 6⟩], .none .LoadVertexCountIncorrect, by decide +kernel⟩

/-- **C137**, points of `.ply`: in each of the three formats a point takes at least six bytes of the file, whatever count the
header announces. -/
theorem c137_ply_points (T : FloatText F64) (input : Bytes) (ip pts : List PlyPoint) (r : Except (LineInfo PlyError) Unit)
    (h : loadPlyPoints T input ip = some (pts, r)) : 6 * pts.length ≤ 6 * ip.length + input.length := by
  unfold loadPlyPoints at h
  split at h
  · cases h
  · cases h; omega
  · rename_i it hit
    have h1 := forEach_pays (cost := fun s => s.inner.read.length) (size := fun l => 6 * l.length) (price := itemPrice 6 0) ?_
      (fun m a => pushItem_pays m a 6 0) _ _ _ _ _ h
    · unfold PlyPointsIter.new at hit
      split at hit
      · cases hit
      · cases hit
      · rename_i hh
        have := plyHeader_pays _ _ _ _ _ _ _ hh
        cases hit
        simp only at h1
        omega
    · intro s a s' hs
      simp only [Option.some.injEq] at hs
      unfold plyPointsNext at hs
      split at hs
      · cases hs
        simp [itemPrice]
      · simp only [Prod.mk.injEq] at hs
        obtain ⟨h1, rfl⟩ := hs
        rcases hp : plyPointsInner T s.format s.vertex s.inner with ⟨_ | e | p, c⟩ <;> rw [hp] at h1
        · cases h1
        · cases h1
        · cases h1
          exact plyPoints_pays hp

/-- the same as points -/
example : ∃ pts e, loadPlyPoints natF64 (bigPly ++ b!"1 2 3\n4 5 6\n") [] = some (pts, .error e) ∧ pts.length = 2 :=
  ⟨[⟨F64.ofRat 1, F64.ofRat 2, F64.ofRat 3⟩, ⟨F64.ofRat 4, F64.ofRat 5, F64.ofRat 6⟩], .none .LoadVertexCountIncorrect, by decide +kernel⟩

/-- **C137**, `load_ply_either`: the same bounds for whatever of the two it fills; the other one stays as it was. -/
theorem c137_ply_either (T : FloatText F64) (input : Bytes) (m m' : TMesh PlyPoint) (ip pts : List PlyPoint)
    (r : Except (LineInfo PlyError) MeshOrPoints) (h : loadPlyEither T input m ip = some (m', pts, r)) :
    (6 * m'.numVertices + 4 * m'.numFaces ≤ 6 * m.numVertices + 4 * m.numFaces + input.length ∧ pts = ip) ∨
    (6 * pts.length ≤ 6 * ip.length + input.length ∧ m' = m) := by
  unfold loadPlyEither at h
  split at h
  · cases h
  · cases h; exact .inl ⟨by omega, rfl⟩
  · rename_i hh
    have := plyHeader_pays _ _ _ _ _ _ _ hh
    split at h
    · simp only [Option.map_eq_some_iff, Prod.mk.injEq] at h
      obtain ⟨⟨a, b⟩, h, rfl, rfl, -⟩ := h
      have h1 := forEach_pays (cost := plyLeft) (size := meshPrice 6 4) (price := itemPrice 6 4) (fun s x s' hs => by
        simp only [Option.some.injEq] at hs
        exact plyMesh_pays hs) (fun m a => plyPush_pays m a 6 4) _ _ _ _ _ h
      simp only [meshPrice, plyLeft] at h1
      exact .inl ⟨by simp only; omega, rfl⟩
    · simp only [Option.map_eq_some_iff, Prod.mk.injEq] at h
      obtain ⟨⟨a, b⟩, h, rfl, rfl, -⟩ := h
      have h1 := forEach_pays (cost := fun s => s.read.length) (size := fun l => 6 * l.length) (price := itemPrice 6 0) (fun s x s' hs => by
        simp only [Option.some.injEq, Prod.mk.injEq] at hs
        obtain ⟨h1, rfl⟩ := hs
        revert h1
        generalize hp : plyPointsInner T _ _ s = q
        obtain ⟨_ | e | p, c⟩ := q <;> intro h1
        · cases h1
        · cases h1
        · cases h1
          exact plyPoints_pays hp) (fun m a => pushItem_pays m a 6 0) _ _ _ _ _ h
      simp only at h1
      exact .inr ⟨by simp only; omega, rfl⟩


/-- the same once more -/
example : ∃ pts e, loadPlyEither natF64 (bigPly ++ b!"1 2 3\n4 5 6\n") ⟨[], []⟩ [] = some (⟨pts, []⟩, [], .error e) ∧ pts.length = 2 :=
  ⟨[⟨F64.ofRat 1, F64.ofRat 2, F64.ofRat 3⟩, ⟨F64.ofRat 4, F64.ofRat 5, F64.ofRat 6⟩], .none .LoadVertexCountIncorrect, by decide +kernel⟩

/-! ### .stl -/

/-- code that takes at least `k` bytes from the reader where it succeeds -/
def Takes {β : Type} (k : Nat) (x : StlM β) : Prop := ∀ s a s', x s = (.ok a, s') → k + s'.1.length ≤ s.1.length

theorem Takes.bind {β γ : Type} {k n : Nat} {x : StlM β} {f : β → StlM γ} (hx : Takes k x) (hf : ∀ b, Takes n (f b)) : Takes (k + n) (x >>= f) := by
  intro s c s' h
  rcases hs : x s with ⟨e | b, t⟩
  · have : (x >>= f) s = (.error e, t) := by
      simp only [Bind.bind, ExceptT.bind, ExceptT.mk, StateT.bind, ExceptT.bindCont]
      rw [hs]; rfl
    rw [this] at h
    cases h
  · have : (x >>= f) s = f b t := by
      simp only [Bind.bind, ExceptT.bind, ExceptT.mk, StateT.bind, ExceptT.bindCont]
      rw [hs]
    rw [this] at h
    have := hx _ _ _ hs
    have := hf b _ _ _ h
    omega

theorem Takes.pure {β : Type} (b : β) : Takes 0 (Pure.pure b : StlM β) := by
  intro s a s' h
  cases h
  omega

theorem Takes.fail {β : Type} (k : Nat) (e : StlError) (l : Bytes) : Takes k (stlFail e l : StlM β) := by
  intro s a s' h
  cases h

theorem stlLine_takes {s : Bytes × Nat} {l : Bytes} {s' : Bytes × Nat} (h : stlLine s = (.ok l, s')) : l.length + 1 + s'.1.length ≤ s.1.length := by
  unfold stlLine at h
  split at h
  · cases h
  · rename_i hl
    cases h
    exact fetchLine_pays hl

theorem stlLine_bind {γ : Type} {k : Nat} {f : Bytes → StlM γ} (hf : ∀ l s a s', f l s = (.ok a, s') → k + s'.1.length ≤ l.length + 1 + s.1.length) :
    Takes k (stlLine >>= f) := by
  intro s c s' h
  rcases hs : stlLine s with ⟨e | b, t⟩
  · have : (stlLine >>= f) s = (.error e, t) := by
      simp only [Bind.bind, ExceptT.bind, ExceptT.mk, StateT.bind, ExceptT.bindCont]
      rw [hs]; rfl
    rw [this] at h
    cases h
  · have : (stlLine >>= f) s = f b t := by
      simp only [Bind.bind, ExceptT.bind, ExceptT.mk, StateT.bind, ExceptT.bindCont]
      rw [hs]
    rw [this] at h
    have := stlLine_takes hs
    have := hf b _ _ _ h
    omega

theorem trimStart_le (l : Bytes) : (trimStart l).length ≤ l.length := by
  induction l with
  | nil => simp [trimStart]
  | cons b l ih =>
    unfold trimStart
    split
    · exact ih.trans (by simp)
    · simp

theorem startsWith_le {l k : Bytes} (h : startsWith l k = true) : k.length ≤ l.length := by
  unfold startsWith at h
  exact (List.isPrefixOf_iff_prefix.1 h).length_le

theorem keyword_takes (k : Bytes) (e : StlError) : Takes (k.length + 1) (stlKeywordLine k e) := by
  refine stlLine_bind fun l s a s' h => ?_
  split at h
  · rename_i hk
    cases h
    have := startsWith_le hk
    have := trimStart_le l
    omega
  · cases h

theorem vertexLine_takes (T : FloatText F64) : Takes 8 (stlVertexLine T) := by
  refine stlLine_bind fun l s a s' h => ?_
  rcases hv : readStlVertex T l with _ | p
  · rw [hv] at h
    cases h
  · rw [hv] at h
    cases h
    have hw := words_bytes (fun b => b == 32 || b == 9) l
    unfold readStlVertex stlNumbers at hv
    simp only [Bind.bind, Option.bind_eq_some_iff] at hv
    obtain ⟨_, _, _, _, _, h3, _⟩ := hv
    have := nthNum_length h3
    unfold toWords at this
    omega

theorem facetLine_takes (T : FloatText F64) : Takes 6 (stlFacetLine T) := by
  refine stlLine_bind fun l s a s' h => ?_
  split at h
  · cases h
  · split at h
    · cases h
    · rename_i hk
      cases h
      have h1 := startsWith_le (l := trimStart l) (k := b!"facet") (by simpa using hk)
      have := trimStart_le l
      have h2 : (b!"facet").length = 5 := rfl
      omega

theorem facet_takes (T : FloatText F64) : Takes 58 (readStlFacet T) := by
  have h := (facetLine_takes T).bind (fun n => (keyword_takes b!"outer loop" .Loop).bind (fun _ =>
    (vertexLine_takes T).bind (fun a => (vertexLine_takes T).bind (fun b => (vertexLine_takes T).bind (fun c =>
    (keyword_takes b!"endloop" .EndLoop).bind (fun _ => (keyword_takes b!"endfacet" .EndFacet).bind (fun _ =>
    Takes.pure (⟨a, b, c, n⟩ : StlFace StlPoint))))))))
  exact h

/-- the bytes left -/
def stlRest : StlIter → Nat
  | .Binary s => s.read.length
  | .Ascii s => s.read.length

/-- what an item costs -/
def stlPrice : StlItem StlPoint → Nat
  | .data _ => 50
  | .reserve _ => 0

theorem triangle_pays {s r : Bytes} {f : StlFace StlPoint} (h : readStlTriangle s = some (.ok f, r)) : 50 + r.length ≤ s.length := by
  unfold readStlTriangle at h
  split at h
  · cases h
  · rename_i hr
    have := readExact_length hr
    split at h <;> cases h
    omega

theorem stlNext_pays {T : FloatText F64} {s s' : StlIter} {x : StlItem StlPoint} (h : stlNext T s = some (some (.ok x), s')) :
    stlPrice x + stlRest s' ≤ stlRest s := by
  unfold stlNext at h
  split at h
  · simp only [Option.map_eq_some_iff, Prod.mk.injEq] at h
    obtain ⟨⟨y, t⟩, h, h0, rfl⟩ := h
    simp only at h0
    subst h0
    unfold stlBinaryNext at h
    split at h
    · cases h
    · split at h
      · split at h
        · cases h
        · rename_i h1
          have := readExact_length h1
          split at h
          · cases h
          · rename_i h2
            split at h
            · cases h
            · cases h
              unfold readNat at h2
              split at h2
              · cases h2
              · rename_i h3
                cases h2
                have := readExact_length h3
                simp only [stlRest, stlPrice]
                omega
      · split at h
        · split at h
          · cases h
          · cases h
          · rename_i ht
            cases h
            exact triangle_pays ht
        · cases h
  · simp only [Option.map_eq_some_iff, Prod.mk.injEq] at h
    obtain ⟨⟨y, t⟩, h, h0, rfl⟩ := h
    simp only at h0
    subst h0
    rename_i st
    unfold stlAsciiNext at h
    split at h
    · cases h
    · simp only at h
      split at h
      · rename_i hf
        cases h
        have h1 := facet_takes T _ _ _ hf
        have h2 : (if st.headerRead then (st.read, st.iLine) else ((readUntilNl st.read).2, st.iLine + 1)).1.length ≤ st.read.length := by
          split
          · rfl
          · exact readUntilNl_length _
        simp only [stlRest, stlPrice] at h1 ⊢
        omega
      · split at h <;> cases h

theorem stlForEach_pays {T : FloatText F64} {push : μ → StlItem StlPoint → μ} {read : Bytes} {format : StlFormat} {m m' : μ}
    {r : Except (LineInfo StlError) Unit} {size : μ → Nat} (k : Nat) (hd : ∀ m f, size (push m (.data f)) ≤ size m + 50 * k)
    (hr : ∀ m n, size (push m (.reserve n)) ≤ size m) (h : stlForEach T push read format m = some (m', r)) :
    size m' ≤ size m + k * read.length := by
  unfold stlForEach at h
  split at h
  · cases h; omega
  · rename_i s hs
    have h1 := forEach_pays (cost := fun s => k * stlRest s) (size := size)
      (price := fun x => k * stlPrice x) (fun s x s' hn => by
        have := Nat.mul_le_mul_left k (stlNext_pays hn)
        rw [Nat.mul_add] at this
        exact this) (fun m x => by
        cases x with
        | data f => have := hd m f; simp only [stlPrice]; omega
        | reserve n => have := hr m n; simp only [stlPrice]; omega) _ _ _ _ _ h
    have h2 : stlRest s ≤ read.length := by
      unfold stlNew at hs
      split at hs
      · cases hs
      · rename_i hx
        have := readExact_length hx
        rename_i bytes
        have hi : ∀ b : Bool, stlRest (if b then StlIter.Ascii ⟨bytes, false, false, 0⟩ else .Binary ⟨bytes, false, false, 0, 0⟩) ≤ read.length := by
          intro b
          cases b <;> simp only [stlRest] <;> simp <;> omega
        cases hs
        exact hi _
    have := Nat.mul_le_mul_left k h2
    omega

/-- **C137**, `.stl` into a mesh with a vertex for each corner: a face with its normal takes at least 50 bytes of the file, text
or binary, whatever count is announced; there are three vertices for each. -/
theorem c137_stl_duped (T : FloatText F64) (input : Bytes) (format : StlFormat) (m m' : TMesh StlPoint) (ns ns' : List StlPoint)
    (r : Except (LineInfo StlError) Unit) (h : loadStlMeshDuped T input format m ns = some ((m', ns'), r)) :
    50 * m'.numFaces ≤ 50 * m.numFaces + input.length ∧ 50 * m'.numVertices ≤ 50 * m.numVertices + 3 * input.length ∧
    50 * ns'.length ≤ 50 * ns.length + input.length := by
  unfold loadStlMeshDuped at h
  refine ⟨?_, ?_, ?_⟩
  · have := stlForEach_pays (size := fun x : TMesh StlPoint × List StlPoint => 50 * x.1.numFaces) 1 ?_ ?_ h
    · simpa using this
    all_goals intros; simp [stlPushDuped, TMesh.addFace, TMesh.numFaces]; try omega
  · have := stlForEach_pays (size := fun x : TMesh StlPoint × List StlPoint => 50 * x.1.numVertices) 3 ?_ ?_ h
    · simpa using this
    all_goals intros; simp [stlPushDuped, TMesh.addFace, TMesh.numVertices]; try omega
  · have := stlForEach_pays (size := fun x : TMesh StlPoint × List StlPoint => 50 * x.2.length) 1 ?_ ?_ h
    · simpa using this
    all_goals intros; simp [stlPushDuped]; try omega

/-- two faces in 84 + 100 bytes; a cut file -/
example : ∃ m ns, loadStlMeshDuped natF64 (binaryFile exampleHeader exampleTriangles) .Auto ⟨[], []⟩ [] = some ((m, ns), .ok ()) ∧
    m.numFaces = 2 ∧ m.numVertices = 6 ∧ ns.length = 2 ∧ (binaryFile exampleHeader exampleTriangles).length = 84 + 50 * 2 :=
  ⟨⟨[⟨f 0, f 0, f 0⟩, ⟨f 1, f 0, f 0⟩, ⟨f 0, f (3/2), f 0⟩, ⟨f 0, f 0, f 0⟩, ⟨f 1, f 0, f 0⟩, ⟨f 0, f 0, f (-1/4)⟩], [⟨0, 1, 2⟩, ⟨3, 4, 5⟩]⟩,
    [⟨f 0, f 0, f 1⟩, ⟨f 0, f 1, f 0⟩], by decide +kernel, rfl, rfl, rfl, by decide +kernel⟩

theorem stlVertexId_size (same : StlPoint → StlPoint → Bool) (s : StlUnique) (p : StlPoint) :
    (stlVertexId same s p).1.mesh.numVertices ≤ s.mesh.numVertices + 1 ∧ (stlVertexId same s p).1.mesh.numFaces = s.mesh.numFaces ∧
    (stlVertexId same s p).1.normals = s.normals := by
  unfold stlVertexId
  split <;> simp [TMesh.addVertex, TMesh.numVertices, TMesh.numFaces]

theorem stlPushUnique_size (same : StlPoint → StlPoint → Bool) (s : StlUnique) (f : StlFace StlPoint) :
    (stlPushUnique same s (.data f)).mesh.numVertices ≤ s.mesh.numVertices + 3 ∧
    (stlPushUnique same s (.data f)).mesh.numFaces ≤ s.mesh.numFaces + 1 ∧
    (stlPushUnique same s (.data f)).normals.length ≤ s.normals.length + 1 := by
  unfold stlPushUnique
  simp only
  have h1 := stlVertexId_size same s f.a
  have h2 := stlVertexId_size same (stlVertexId same s f.a).1 f.b
  have h3 := stlVertexId_size same (stlVertexId same (stlVertexId same s f.a).1 f.b).1 f.c
  generalize (stlVertexId same (stlVertexId same (stlVertexId same s f.a).1 f.b).1 f.c).1 = t at *
  have h4 : ∀ a b c, (t.mesh.tryAddConnection a b c).1.numVertices = t.mesh.numVertices ∧
      (t.mesh.tryAddConnection a b c).1.numFaces ≤ t.mesh.numFaces + 1 := by
    intro a b c
    unfold TMesh.tryAddConnection
    split
    · simp
    · split <;> simp [TMesh.numVertices, TMesh.numFaces]
  have h6 := congrArg List.length h3.2.2
  have h7 := congrArg List.length h2.2.2
  have h8 := congrArg List.length h1.2.2
  generalize (stlVertexId same s f.a).2 = i1
  generalize (stlVertexId same (stlVertexId same s f.a).1 f.b).2 = i2
  generalize (stlVertexId same (stlVertexId same (stlVertexId same s f.a).1 f.b).1 f.c).2 = i3
  have h5 := h4 i1 i2 i3
  rcases hc : t.mesh.tryAddConnection i1 i2 i3 with ⟨m, e | x⟩ <;> rw [hc] at h5 <;> simp only at h5
  · refine ⟨?_, ?_, ?_⟩ <;> simp only <;> omega
  · refine ⟨?_, ?_, ?_⟩ <;> simp only [List.length_append, List.length_singleton] <;> omega

/-- **C137**, `.stl` into a mesh with shared vertices, whatever equality is used to find them: the same bounds. -/
theorem c137_stl_unique (same : StlPoint → StlPoint → Bool) (T : FloatText F64) (input : Bytes) (format : StlFormat) (m m' : TMesh StlPoint)
    (ns ns' : List StlPoint) (r : Except (LineInfo StlError) Unit) (h : loadStlMeshUnique same T input format m ns = some ((m', ns'), r)) :
    50 * m'.numFaces ≤ 50 * m.numFaces + input.length ∧ 50 * m'.numVertices ≤ 50 * m.numVertices + 3 * input.length ∧
    50 * ns'.length ≤ 50 * ns.length + input.length := by
  unfold loadStlMeshUnique at h
  simp only [Option.map_eq_some_iff, Prod.mk.injEq] at h
  obtain ⟨⟨u, r'⟩, h, ⟨rfl, rfl⟩, rfl⟩ := h
  refine ⟨?_, ?_, ?_⟩
  · have := stlForEach_pays (size := fun x : StlUnique => 50 * x.mesh.numFaces) 1 (fun m f => by
      have := stlPushUnique_size same m f
      omega) (fun m n => by simp [stlPushUnique]) h
    simpa using this
  · have := stlForEach_pays (size := fun x : StlUnique => 50 * x.mesh.numVertices) 3 (fun m f => by
      have := stlPushUnique_size same m f
      omega) (fun m n => by simp [stlPushUnique]) h
    simpa using this
  · have := stlForEach_pays (size := fun x : StlUnique => 50 * x.normals.length) 1 (fun m f => by
      have := stlPushUnique_size same m f
      omega) (fun m n => by simp [stlPushUnique]) h
    simpa using this

/-- a text file with one facet, 80 bytes -/
def smallStl : Bytes := b!"solid\nfacet\nouter loop\nv 0 0 0\nv 1 0 0\nv 0 1 0\nendloop\nendfacet\nendsolid\n"

example : ∃ m ns, loadStlMeshUnique sameBits natF64 smallStl .Auto ⟨[], []⟩ [] = some ((m, ns), .ok ()) ∧
    m.numFaces = 1 ∧ m.numVertices = 3 ∧ ns.length = 1 ∧ smallStl.length = 6 + 58 + 9 :=
  ⟨⟨[⟨f 0, f 0, f 0⟩, ⟨f 1, f 0, f 0⟩, ⟨f 0, f 1, f 0⟩], [⟨0, 1, 2⟩]⟩, [⟨f 0, f 0, f 1⟩], by decide +kernel, rfl, rfl, rfl, by decide +kernel⟩

/-- **C137**, `.stl` into points: three points for each face, which takes at least 50 bytes of the file. -/
theorem c137_stl_triplets (T : FloatText F64) (input : Bytes) (format : StlFormat) (ip ip' ns ns' : List StlPoint)
    (r : Except (LineInfo StlError) Unit) (h : loadStlTriplets T input format ip ns = some ((ip', ns'), r)) :
    50 * ip'.length ≤ 50 * ip.length + 3 * input.length ∧ 50 * ns'.length ≤ 50 * ns.length + input.length := by
  unfold loadStlTriplets at h
  refine ⟨?_, ?_⟩
  · have := stlForEach_pays (size := fun x : List StlPoint × List StlPoint => 50 * x.1.length) 3 ?_ ?_ h
    · simpa using this
    all_goals intros; simp [stlPushTriplets]; try omega
  · have := stlForEach_pays (size := fun x : List StlPoint × List StlPoint => 50 * x.2.length) 1 ?_ ?_ h
    · simpa using this
    all_goals intros; simp [stlPushTriplets]; try omega

example : ∃ ip ns, loadStlTriplets natF64 smallStl .Ascii [] [] = some ((ip, ns), .ok ()) ∧ ip.length = 3 ∧ ns.length = 1 :=
  ⟨[⟨f 0, f 0, f 0⟩, ⟨f 1, f 0, f 0⟩, ⟨f 0, f 1, f 0⟩], [⟨f 0, f 0, f 1⟩], by decide +kernel, rfl, rfl⟩

/-! ### .las and .psl -/

/-- **C137**, `.las`: a point takes at least twelve bytes of the file, whatever number and length of records is announced. -/
theorem c137_las (input : Bytes) (pts : List (Point3D F64)) (r : Except LasError Unit) (h : loadLas input = some (pts, r)) :
    12 * pts.length ≤ input.length := by
  have h1 := forEach_pays (cost := fun s : LasIter => if s.header.isSome then s.read.length else s.file.length)
    (size := fun l => 12 * l.length) (price := itemPrice 12 0) (fun s x s' hs => by
      unfold lasNext at hs
      split at hs
      · cases hs
      · split at hs
        · rename_i hn
          split at hs
          · cases hs
          · cases hs
          · cases hs
            simp [itemPrice, hn]
        · rename_i hn
          split at hs
          · split at hs
            · cases hs
            · cases hs
            · rename_i hf
              cases hs
              simp only [itemPrice, hn, Option.isSome_some, if_true]
              unfold lasFetchOne at hf
              split at hf
              · cases hf
              · rename_i b rest hr
                have := readExact_length hr
                have := (readExact_some.1 hr).2
                simp only [Bind.bind, Option.bind_eq_some_iff] at hf
                obtain ⟨b1, h1, _, h2, _, h3, _, h4, h5⟩ := hf
                cases h5
                unfold sliceOf at h1
                split at h1
                · omega
                · cases h1
          · cases hs) (fun m x => by cases x <;> simp [lasPush, itemPrice, Nat.mul_add]) _ _ _ _ _ h
  simpa using h1

/-- three records are announced, two follow -/
example : ∃ pts, loadLas (exampleLas 4 6 14 0 3 (exampleRecord ++ exampleRecord)) = some (pts, .error .AccessFile) ∧ pts.length = 2 :=
  ⟨[⟨f (5/2), f 1, f 8⟩, ⟨f (5/2), f 1, f 8⟩], by decide +kernel, rfl⟩

theorem readInt_shorter {e : Endian} {w : Nat} {s r : Bytes} {x : Int} (h : readInt e w s = some (x, r)) : w + r.length = s.length := by
  unfold readInt at h
  split at h
  · cases h
  · rename_i hr
    cases h
    have := readExact_length hr
    omega

theorem pslNextPoint_pays {s s' : PslIter} {p : Point3D F64} (h : pslNextPoint s = (some (.ok p), s')) : 12 + s'.read.length ≤ s.read.length := by
  unfold pslNextPoint at h
  split at h
  · cases h
  · rename_i t hf
    have ht : t.read.length ≤ s.read.length := by
      unfold pslFetchCounts at hf
      simp only [Bind.bind, Option.bind_eq_some_iff] at hf
      obtain ⟨u, h1, h2⟩ := hf
      have a1 : u.read.length ≤ s.read.length := by
        unfold pslFetchLines at h1
        split at h1
        · simp only [Bind.bind, Option.bind_eq_some_iff, Prod.exists] at h1
          obtain ⟨n, rest, h1, h3⟩ := h1
          cases h3
          unfold pslPassHeader at h1
          simp only [Bind.bind, Option.bind_eq_some_iff, Prod.exists] at h1
          obtain ⟨_, _, b1, _, _, b2, _, _, b3, b4⟩ := h1
          cases b4
          have := readInt_shorter b1
          have := readInt_shorter b2
          have := readExact_length b3
          simp only
          omega
        · cases h1; rfl
      have a2 : t.read.length ≤ u.read.length := by
        unfold pslFetchPoints at h2
        split at h2
        · simp only [Bind.bind, Option.bind_eq_some_iff, Prod.exists] at h2
          obtain ⟨n, rest, h1, h3⟩ := h2
          cases h3
          unfold pslLineHeader at h1
          simp only [Bind.bind, Option.bind_eq_some_iff, Prod.exists] at h1
          obtain ⟨_, _, b1, _, _, b2, _, _, b3, b4⟩ := h1
          cases b4
          have := readInt_shorter b1
          have := readExact_length b2
          have := readExact_length b3
          simp only
          omega
        · cases h2; rfl
      omega
    split at h
    · cases h
    · simp only at h
      split at h
      · cases h
      · rename_i hp
        cases h
        have hr : (pslReduceCount t).read = t.read := by
          unfold pslReduceCount
          split
          · rfl
          · split
            · rfl
            · split <;> rfl
        rw [hr] at hp
        unfold pslPoint at hp
        simp only [Bind.bind, Option.bind_eq_some_iff, Prod.exists] at hp
        obtain ⟨_, _, b1, _, _, b2, _, _, b3, b4⟩ := hp
        cases b4
        have := readF32_length b1
        have := readF32_length b2
        have := readF32_length b3
        simp only
        omega

/-- **C137**, `.psl`: a point takes twelve bytes of the file, whatever counts are announced. -/
theorem c137_psl (input : Bytes) (pts : List (Point3D F64)) (r : Except PslError Unit) (h : loadPsl input = some (pts, r)) :
    12 * pts.length ≤ input.length := by
  refine drain_pays (cost := fun s => s.read.length) ?_ _ _ _ _ h
  intro s a s' hs
  unfold pslNext at hs
  split at hs
  · cases hs
  · split at hs
    · split at hs
      · cases hs
      · rename_i hi
        have := pslNextPoint_pays hs
        unfold pslInitialize at hi
        simp only [Bind.bind, Option.bind_eq_some_iff, Prod.exists] at hi
        obtain ⟨n, rest, h1, h3⟩ := hi
        cases h3
        unfold pslHeader at h1
        simp only [Bind.bind, Option.bind_eq_some_iff, Prod.exists] at h1
        obtain ⟨_, _, b1, _, _, b2, _, _, b3, _, _, b4, _, _, b5, _, _, b6, b7⟩ := h1
        cases b7
        have := readExact_length b1
        have := readInt_shorter b2
        have := readExact_length b3
        have := readInt_shorter b4
        have := readInt_shorter b5
        have := readExact_length b6
        simp only at *
        omega
    · exact pslNextPoint_pays hs

example : ∃ pts, loadPsl examplePsl.bytes = some (pts, .ok ()) ∧ pts.length = 1 := ⟨[⟨f 1, f 2, f 3⟩], by decide +kernel, rfl⟩

end R3D

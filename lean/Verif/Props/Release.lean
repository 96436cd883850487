import Verif.Model.Release
import Verif.Props.BezierFloat
import Verif.Props.OcTree
import Verif.Props.Mesh
import Verif.Props.Cloud32
import Verif.Props.Text
/-!
C123: builds without overflow checks.
-/
namespace R3D
open Scalar Spec

/-! ### ids -/

theorem Build.fit_small (b : Build) {n : Nat} (h : n < 2 ^ 64) : b.fit n = some n := by
  cases b
  · exact if_pos h
  · exact congrArg some (Nat.mod_eq_of_lt h)

theorem Build.index_small (b : Build) {id k : Nat} (h : 3 * id + k < 2 ^ 64) : b.index id k = some (3 * id + k) := by
  simp only [Build.index, Option.bind_eq_bind, b.fit_small (n := 3 * id) (by omega), Option.bind_some, b.fit_small h]

theorem Build.index_debug {id k : Nat} (h : 2 ^ 64 ≤ 3 * id + k) : Build.debug.index id k = none := by
  simp only [Build.index, Build.fit, Option.bind_eq_bind]
  split
  · simp only [Option.bind_some, if_neg (by omega : ¬ 3 * id + k < 2 ^ 64)]
  · rfl

/-- the id which the wrapping multiplication takes to 1 -/
def Spec.strayId : Nat := 12297829382473034411

theorem Build.index_stray {k : Nat} (h : k < 3) : Build.release.index strayId k = some (1 + k) := by
  obtain rfl | rfl | rfl : k = 0 ∨ k = 1 ∨ k = 2 := by omega
  all_goals decide

section face
variable {P IC : Type} [IndexContainer IC] [LawfulIndexContainer IC]

omit [LawfulIndexContainer IC] in
theorem faceVertexIdsB_eq (b : Build) (m : Mesh3D P IC) {f : Nat} (h : 3 * f + 2 < 2 ^ 64) :
    m.faceVertexIdsB b f = m.faceVertexIds f := by
  simp only [Mesh3D.faceVertexIdsB, Mesh3D.faceVertexIds, b.index_small (id := f) (k := 0) (by omega),
    b.index_small (id := f) (k := 1) (by omega), b.index_small (id := f) (k := 2) (by omega), Option.bind_eq_bind, Option.bind_some]

/-- **C123**, faces: with or without overflow checks, every id of a face gives that face, and an id beyond them gives `None` while three
times the id fits 64 bits. Missing: larger ids, see `c123_violated_face`. -/
theorem c123_face_partial (b : Build) (m : Mesh3D P IC) (t : TMesh P) (h : m.Shows t) (hlen : 3 * t.faces.length ≤ 2 ^ 64) (f : Nat) :
    (f < t.faces.length → m.faceVertexIdsB b f = some t.faces[f]?) ∧
    (t.faces.length ≤ f → 3 * f + 2 < 2 ^ 64 → m.faceVertexIdsB b f = some none) := by
  constructor
  · intro hf
    rw [faceVertexIdsB_eq b m (by omega), Mesh3D.shows_faceVertexIds h]
    rfl
  · intro hf h2
    rw [faceVertexIdsB_eq b m h2, Mesh3D.shows_faceVertexIds h]
    exact congrArg some (List.getElem?_eq_none hf)

/-- **C123 violated**, faces: without overflow checks an id far beyond the faces of a mesh gives a face made of parts of two faces;
with overflow checks every id beyond the third of the 64 bit range panics. -/
theorem c123_violated_face (m : Mesh3D P IC) (t : TMesh P) (h : m.Shows t) :
    (∀ (a b c d e g : Nat) (rest : List Face3), t.faces = ⟨a, b, c⟩ :: ⟨d, e, g⟩ :: rest →
      m.faceVertexIdsB .release strayId = some (some ⟨b, c, d⟩)) ∧
    ∀ f, 2 ^ 64 ≤ 3 * f + 2 → m.faceVertexIdsB .debug f = none := by
  constructor
  · intro a b c d e g rest ht
    have hl : LawfulIndexContainer.toList m.topology = a :: b :: c :: d :: e :: g :: flatFaces rest := by
      rw [h.2, ht]
      simp [flatFaces]
    simp only [Mesh3D.faceVertexIdsB, Build.index_stray (k := 0) (by omega), Build.index_stray (k := 1) (by omega),
      Build.index_stray (k := 2) (by omega), Option.bind_eq_bind, Option.bind_some, LawfulIndexContainer.len_eq,
      LawfulIndexContainer.get_eq, hl]
    rw [if_neg (by simp)]
    rfl
  · intro f hf
    simp only [Mesh3D.faceVertexIdsB, Build.index_debug hf, Option.bind_eq_bind, Option.bind_none]
    cases Build.debug.index f 0 with
    | none => rfl
    | some i => cases Build.debug.index f 1 <;> rfl

/-- two triangles sharing an edge, as a mesh over `Vec<usize>` -/
def twoFaces : Mesh3D (Point3D F64) (List Nat) :=
  ⟨List.replicate 4 ⟨F64.ofRat 0, F64.ofRat 0, F64.ofRat 0⟩, [0, 1, 2, 2, 1, 3]⟩

/-- what it shows -/
def twoFacesSeen : TMesh (Point3D F64) := ⟨twoFaces.pc, [⟨0, 1, 2⟩, ⟨2, 1, 3⟩]⟩

example : twoFaces.Shows twoFacesSeen ∧ 3 * twoFacesSeen.faces.length ≤ 2 ^ 64 ∧ strayId < 2 ^ 64 := ⟨⟨rfl, rfl⟩, by decide, by decide⟩

/-- the stray face of the example is none of its faces -/
example : twoFaces.faceVertexIdsB .release strayId = some (some ⟨1, 2, 2⟩) :=
  (c123_violated_face twoFaces twoFacesSeen ⟨rfl, rfl⟩).1 0 1 2 2 1 3 [] rfl
end face

/-! ### .obj -/

theorem parseNat_lt {s : Bytes} {n : Nat} (h : parseNat s = some n) : n < 2 ^ 64 := by
  unfold parseNat at h
  dsimp only at h
  generalize (if s.head? = some 43 then s.tail else s) = ds at h
  split at h
  · cases h
  · split at h
    · split at h
      · cases h; assumption
      · cases h
    · cases h

theorem objCorner_lt {w : List Bytes} {i n : Nat} (h : objCorner w i = some n) : n < 2 ^ 64 := by
  simp only [objCorner, Option.bind_eq_some_iff] at h
  obtain ⟨x, -, h⟩ := h
  unfold fromAscii at h
  split at h
  · exact parseNat_lt h
  · cases h

theorem predW_pos {a : Nat} (h : 0 < a) (h2 : a < 2 ^ 64) : predW a = a - 1 := by
  unfold predW; omega

theorem predW_zero : predW 0 = 2 ^ 64 - 1 := by decide

theorem objFetchFaceW_some {line : Bytes} {r} (h : objFetchFace line = some r) : objFetchFaceW line = r := by
  unfold objFetchFace at h
  unfold objFetchFaceW
  generalize toWords line = tw at h ⊢
  rcases tw with _ | ⟨w, ws⟩
  · cases h; rfl
  · dsimp only at h ⊢
    cases ha : objCorner ws 0 with
    | none => rw [ha] at h; cases h; rfl
    | some a =>
      cases hb : objCorner ws 1 with
      | none => rw [ha, hb] at h; cases h; rfl
      | some b =>
        cases hc : objCorner ws 2 with
        | none => rw [ha, hb, hc] at h; cases h; rfl
        | some c =>
          rw [ha, hb, hc] at h
          dsimp only at h ⊢
          split at h
          · cases h
          · rename_i h0
            cases h
            rw [predW_pos (by omega) (objCorner_lt ha), predW_pos (by omega) (objCorner_lt hb), predW_pos (by omega) (objCorner_lt hc)]

theorem objFetchFaceW_none {line : Bytes} (h : objFetchFace line = none) :
    ∃ a b c, objFetchFaceW line = .ok (a, b, c) ∧ (a = 2 ^ 64 - 1 ∨ b = 2 ^ 64 - 1 ∨ c = 2 ^ 64 - 1) := by
  unfold objFetchFace at h
  unfold objFetchFaceW
  generalize toWords line = tw at h ⊢
  rcases tw with _ | ⟨w, ws⟩
  · cases h
  · dsimp only at h ⊢
    cases ha : objCorner ws 0 with
    | none => rw [ha] at h; cases h
    | some a =>
      cases hb : objCorner ws 1 with
      | none => rw [ha, hb] at h; cases h
      | some b =>
        cases hc : objCorner ws 2 with
        | none => rw [ha, hb, hc] at h; cases h
        | some c =>
          rw [ha, hb, hc] at h
          dsimp only at h ⊢
          split at h
          · rename_i h0
            refine ⟨_, _, _, rfl, ?_⟩
            rcases h0 with rfl | rfl | rfl
            · exact .inl predW_zero
            · exact .inr (.inl predW_zero)
            · exact .inr (.inr predW_zero)
          · cases h

section obj
variable {α : Type}

theorem objMeshLoopW_some (T : FloatText α) : ∀ (ls : List Bytes) (i : Nat) r, objMeshLoop T ls i = some r →
    objMeshLoopW T ls i = r ∧ (∀ x, r.1 = some (.ok x) → r.2.lines.length < ls.length ∧ r.2.isDone = false)
  | [], i, r, h => by
    simp only [objMeshLoop, Option.some.injEq] at h
    subst h
    exact ⟨rfl, fun x hx => by cases hx⟩
  | line :: rest, i, r, h => by
    unfold objMeshLoop at h
    unfold objMeshLoopW
    by_cases hv : startsWith line b!"v " = true
    · rw [if_pos hv] at h ⊢
      cases hp : objFetchVertex T line with
      | error e => rw [hp] at h; cases h; exact ⟨rfl, fun x hx => by cases hx⟩
      | ok q => rw [hp] at h; cases h; exact ⟨rfl, fun x _ => by simp⟩
    · rw [if_neg hv] at h ⊢
      by_cases hf : startsWith line b!"f " = true
      · rw [if_pos hf] at h ⊢
        cases hp : objFetchFace line with
        | none => rw [hp] at h; cases h
        | some z =>
          rw [hp] at h
          rw [objFetchFaceW_some hp]
          rcases z with e | ⟨a, b, c⟩
          · cases h; exact ⟨rfl, fun x hx => by cases hx⟩
          · cases h; exact ⟨rfl, fun x _ => by simp⟩
      · rw [if_neg hf] at h ⊢
        obtain ⟨h1, h2⟩ := objMeshLoopW_some T rest (i + 1) r h
        exact ⟨h1, fun x hx => ⟨(h2 x hx).1.trans (by simp), (h2 x hx).2⟩⟩

theorem objMeshLoopW_none (T : FloatText α) : ∀ (ls : List Bytes) (i : Nat), objMeshLoop T ls i = none →
    ∃ a b c s, objMeshLoopW T ls i = (some (.ok (.face a b c)), s) ∧ (a = 2 ^ 64 - 1 ∨ b = 2 ^ 64 - 1 ∨ c = 2 ^ 64 - 1)
  | [], i, h => by cases h
  | line :: rest, i, h => by
    unfold objMeshLoop at h
    unfold objMeshLoopW
    by_cases hv : startsWith line b!"v " = true
    · rw [if_pos hv] at h
      cases hp : objFetchVertex T line <;> rw [hp] at h <;> cases h
    · rw [if_neg hv] at h ⊢
      by_cases hf : startsWith line b!"f " = true
      · rw [if_pos hf] at h ⊢
        cases hp : objFetchFace line with
        | none =>
          obtain ⟨a, b, c, e, ha⟩ := objFetchFaceW_none hp
          rw [e]
          exact ⟨a, b, c, _, rfl, ha⟩
        | some z =>
          rw [hp] at h
          rcases z with e | ⟨a, b, c⟩ <;> cases h
      · rw [if_neg hf] at h ⊢
        exact objMeshLoopW_none T rest (i + 1) h

theorem objPush_verts (m : TMesh (Point3D α)) (x : Item (Point3D α)) : (objPush m x).1.verts.length ≤ m.verts.length + 1 := by
  cases x with
  | data p => simp [objPush, TMesh.addVertex]
  | face a b c =>
    have : (m.tryAddConnection a b c).1.verts = m.verts := by
      unfold TMesh.tryAddConnection
      split
      · rfl
      · split <;> rfl
    rw [← this]
    unfold objPush
    dsimp only
    rcases m.tryAddConnection a b c with ⟨m', _ | _⟩ <;> simp
  | reserve n k => simp [objPush]

theorem objPush_stray (m : TMesh (Point3D α)) {a b c : Nat} (h : m.verts.length < 2 ^ 64)
    (hs : a = 2 ^ 64 - 1 ∨ b = 2 ^ 64 - 1 ∨ c = 2 ^ 64 - 1) :
    objPush m (.face a b c) = (m, .error (.none .InvalidMeshIndices)) := by
  simp only [objPush, TMesh.tryAddConnection, if_pos (show a ≥ m.verts.length ∨ b ≥ m.verts.length ∨ c ≥ m.verts.length by omega)]

theorem objW_run (T : FloatText α) : ∀ (n : Nat) (s : LineIter) (m : TMesh (Point3D α)), s.lines.length < n → s.isDone = false →
    m.verts.length + s.lines.length < 2 ^ 64 →
    (∃ r, forEach (objMeshNext T) objPush n s m = some r ∧ forEach (objMeshNextW T) objPush n s m = some r) ∨
    (forEach (objMeshNext T) objPush n s m = none ∧
      ∃ m', forEach (objMeshNextW T) objPush n s m = some (m', .error (.none .InvalidMeshIndices)))
  | 0, s, m, hn, _, _ => by omega
  | n + 1, s, m, hn, hd, hv => by
    unfold forEach
    simp only [objMeshNext, objMeshNextW, hd, Bool.false_eq_true, if_false]
    cases hl : objMeshLoop T s.lines s.iLine with
    | none =>
      obtain ⟨a, b, c, s', e, hs⟩ := objMeshLoopW_none T _ _ hl
      refine .inr ⟨rfl, m, ?_⟩
      rw [e]
      dsimp only
      rw [objPush_stray m (by omega) hs]
    | some r =>
      obtain ⟨e, hlt⟩ := objMeshLoopW_some T _ _ _ hl
      rw [e]
      obtain ⟨_ | e' | x, s'⟩ := r
      · exact .inl ⟨_, rfl, rfl⟩
      · exact .inl ⟨_, rfl, rfl⟩
      · dsimp only
        obtain ⟨h1, hd'⟩ := hlt x rfl
        have h2 := objPush_verts m x
        rcases hp : objPush m x with ⟨m', _ | _⟩
        · exact .inl ⟨_, rfl, rfl⟩
        · dsimp only at h1
          rw [hp] at h2
          exact objW_run T n s' m' (by omega) hd' (by dsimp only at h2; omega)

/-- **C123**, .obj: without overflow checks loading a mesh never panics. It does what a build with overflow checks does, except where that
one panics (a face names vertex 0): there it stops with the error for wrong vertex ids. -/
theorem c123_obj (T : FloatText α) (input : Bytes) (m : TMesh (Point3D α)) (h : m.verts.length + (lines input).length < 2 ^ 64) :
    (∃ r, loadObjMesh T input m = some r ∧ loadObjMeshW T input m = some r) ∨
    (loadObjMesh T input m = none ∧ ∃ m', loadObjMeshW T input m = some (m', .error (.none .InvalidMeshIndices))) :=
  objW_run T _ _ m (by simp) rfl (by simpa using h)
end obj

/-- a face names vertex 0: with overflow checks a panic, without them an error -/
example : loadObjMesh natText b!"v 1 2 3\nf 0 1 2\n" TMesh.empty = none ∧
    loadObjMeshW natText b!"v 1 2 3\nf 0 1 2\n" TMesh.empty = some (⟨[⟨1, 2, 3⟩], []⟩, .error (.none .InvalidMeshIndices)) := by
  decide +kernel

example : (TMesh.empty : TMesh (Point3D Nat)).verts.length + (lines b!"v 1 2 3\nf 0 1 2\n").length < 2 ^ 64 := by decide

/-! ### the cloud of 32 bit floats -/

/-- **C123**, `PointCloud3Df32`: with or without overflow checks, `get_d` and `set_d` do what they should while three times the index fits
64 bits (which holds for every index of a point). Missing: larger indices, see `c123_violated_cloud`. -/
theorem c123_cloud_partial (b : Build) (pts : List (Point3D F64)) (i : Nat) (h : 3 * i + 2 < 2 ^ 64) (p : Point3D F64) :
    Cloud32.getB b (pts.flatMap fun p => [p.x, p.y, p.z]) i = some pts[i]? ∧
    Cloud32.setB b (pts.flatMap fun p => [p.x, p.y, p.z]) i p =
      if i < pts.length then some ((pts.set i ⟨p.x.toF32, p.y.toF32, p.z.toF32⟩).flatMap fun p => [p.x, p.y, p.z]) else none := by
  have hg : ∀ d, Cloud32.getB b d i = some (Cloud32.getD d i) := by
    intro d
    simp only [Cloud32.getB, Cloud32.getD, b.index_small (id := i) (k := 0) (by omega), b.index_small (id := i) (k := 1) (by omega),
      b.index_small (id := i) (k := 2) (by omega), Option.bind_eq_bind, Option.bind_some]
    cases d[3 * i + 0]? with
    | none => rfl
    | some x =>
      cases d[3 * i + 1]? with
      | none => rfl
      | some y => cases d[3 * i + 2]? <;> rfl
  have hs : ∀ d, Cloud32.setB b d i p = Cloud32.setD d i p := by
    intro d
    simp only [Cloud32.setB, Cloud32.setD, b.index_small (id := i) (k := 0) (by omega), b.index_small (id := i) (k := 1) (by omega),
      b.index_small (id := i) (k := 2) (by omega), Option.bind_eq_bind, Option.bind_some]
  have h1 := Cloud32.getD_flat pts [] (by simp) i
  have h2 := Cloud32.setD_flat pts [] (by simp) i p
  rw [List.append_nil] at h1 h2
  rw [hg, hs]
  refine ⟨congrArg some h1, h2.trans ?_⟩
  simp only [List.append_nil]
  rfl

/-- **C123 violated**, `PointCloud3Df32`: without overflow checks an index far beyond the points reads a point made of parts of two points,
and writing there changes these two. -/
theorem c123_violated_cloud (p q r : Point3D F64) (rest : List F64) :
    Cloud32.getB .release ([p.x, p.y, p.z, q.x, q.y, q.z] ++ rest) strayId = some (some ⟨p.y, p.z, q.x⟩) ∧
    Cloud32.setB .release ([p.x, p.y, p.z, q.x, q.y, q.z] ++ rest) strayId r =
      some ([p.x, r.x.toF32, r.y.toF32, r.z.toF32, q.y, q.z] ++ rest) := by
  simp only [Cloud32.getB, Cloud32.setB, Build.index_stray (k := 0) (by omega), Build.index_stray (k := 1) (by omega),
      Build.index_stray (k := 2) (by omega), Option.bind_eq_bind, Option.bind_some]
  exact ⟨rfl, by simp [vecSet]⟩

example : 3 * 1000000 + 2 < 2 ^ 64 := by decide

/-! ### Bezier curves -/

theorem factorialW_succ (n : Nat) : factorialW (n + 1) = factorialW n * (n + 1) % 2 ^ 64 := by
  have : List.range' 1 (n + 1) = List.range' 1 n ++ [n + 1] := by
    rw [List.range'_concat]
    simp [add_comm]
  rw [factorialW, this, List.foldl_append]
  rfl

theorem factorialW_eq (n : Nat) : factorialW n = n.factorial % 2 ^ 64 := by
  induction n with
  | zero => rfl
  | succ n ih => rw [factorialW_succ, ih, Nat.factorial_succ, Nat.mod_mul_mod, mul_comm]

theorem binominalW_eq (n k : Nat) (h : n ≤ 20) (hk : k ≤ n) : binominalCoefficientW n k = binominalCoefficient n k := by
  have hb : ∀ m ≤ 20, Nat.factorial m < 2 ^ 64 := fun m hm => (Nat.factorial_le hm).trans_lt (by decide)
  have h3 : k.factorial * (n - k).factorial ≤ n.factorial :=
    Nat.le_of_dvd (Nat.factorial_pos n) (Nat.factorial_mul_factorial_dvd_factorial hk)
  rw [binominal_eq n k h hk, binominalCoefficientW]
  rw [factorialW_eq, factorialW_eq, factorialW_eq, Nat.mod_eq_of_lt (hb n h), Nat.mod_eq_of_lt (hb k (hk.trans h)),
    Nat.mod_eq_of_lt (hb (n - k) ((Nat.sub_le n k).trans h)), Nat.mod_eq_of_lt (h3.trans_lt (hb n h)),
    if_neg (Nat.mul_pos (Nat.factorial_pos k) (Nat.factorial_pos (n - k))).ne', Nat.choose_eq_factorial_div_factorial hk]

theorem factorialW_zero (n : Nat) (h : 66 ≤ n) : factorialW n = 0 := by
  rw [factorialW_eq]
  exact Nat.mod_eq_zero_of_dvd ((show 2 ^ 64 ∣ Nat.factorial 66 by decide +kernel).trans (Nat.factorial_dvd_factorial h))

section bezier
variable {α : Type} [Scalar α] [Powi α]

theorem controlLoopW_eq (path : List (Point2D α)) (n : Nat) (t : α) (hn : n ≤ 20) : ∀ (is : List Nat) (s : α × α),
    (∀ i ∈ is, i ≤ n) → controlLoopW path n t is s = controlLoop path n t is s
  | [], _, _ => rfl
  | i :: is, (x, y), h => by
    simp only [controlLoopW, controlLoop, bernsteinPolynomialW, bernsteinPolynomial, binominalW_eq n i hn (h i (by simp))]
    simp only [controlLoopW_eq path n t hn is _ fun j hj => h j (List.mem_cons_of_mem _ hj)]

/-- **C123**, Bezier curves: without overflow checks up to 21 control points give the curve that a build with overflow checks gives.
Missing: more control points, see `c123_violated_bezier`. -/
theorem c123_bezier_partial (base : List (Point2D α)) (h : base.length ≤ 21) (n : Nat) :
    interpolateBezierW base n = interpolateBezier base n := by
  unfold interpolateBezierW interpolateBezier
  split
  · rfl
  · have : ∀ t, controlPolygonW base (base.length - 1) t = controlPolygon base (base.length - 1) t := by
      intro t
      unfold controlPolygonW controlPolygon
      rw [controlLoopW_eq base _ t (by omega) _ _ (fun i hi => by simp at hi; omega)]
    simp only [this]

/-- **C123**, Bezier curves: without overflow checks 67 and more control points divide by zero, which panics. -/
theorem c123_bezier_zero (base : List (Point2D α)) (h : 67 ≤ base.length) (n : Nat) (hn : 0 < n) : interpolateBezierW base n = none := by
  have hlt : ¬ base.length < 2 := by omega
  obtain ⟨q, rfl⟩ : ∃ q, n = q + 1 := ⟨n - 1, by omega⟩
  simp only [interpolateBezierW, if_neg hlt]
  rw [List.range_succ_eq_map, List.mapM_cons]
  have : ∀ t : α, controlPolygonW base (base.length - 1) t = none := by
    intro t
    rw [controlPolygonW, List.range_succ_eq_map]
    simp [controlLoopW, bernsteinPolynomialW, binominalCoefficientW, factorialW_zero (base.length - 1) (by omega)]
  rw [this]
  rfl

example : ([⟨lit 0, lit 0⟩, ⟨lit 1, lit 3⟩, ⟨lit 2, lit 1⟩] : List (Point2D α)).length ≤ 21 ∧
    67 ≤ (List.replicate 70 (⟨lit 1, lit 2⟩ : Point2D α)).length := by simp
end bezier

/-- **C123 violated**, Bezier curves: without overflow checks the curve of 22 control points, all of them (1, 1), passes through a point
with both coordinates below 1/2 (doubles, `powi` as repeated multiplication). -/
theorem c123_violated_bezier :
    (((@interpolateBezierW F64 _ mulPowi (List.replicate 22 ⟨F64.ofRat 1, F64.ofRat 1⟩) 2).bind Except.toOption).bind (·[1]?)).map
      (fun p => (p.x <. F64.ofRat (1 / 2)) && (p.y <. F64.ofRat (1 / 2))) = some true := by
  decide +kernel

/-! ### octrees -/

section octree
variable {α : Type} [Scalar α]

theorem collectNodeW_neg (m : Int) (hm : m < 0) (t : OcNode α) : ∀ depth, t.collectNodeW m depth = t.points := by
  induction t with
  | nil => intro d; rfl
  | diverged => intro d; rfl
  | leaf p => intro d; rfl
  | node c ih =>
    intro depth
    simp only [OcNode.collectNodeW, OcNode.points, ih]
    congr 1
    funext d
    have : decide (m ≥ 0) = false := by simpa using hm
    rw [this, Bool.false_and, if_neg Bool.false_ne_true]
    split
    · rename_i h; exact (OcNode.isNil_points h).symm
    · rfl

theorem collectNodeW_eq (m : Int) (t : OcNode α) : ∀ (depth : Nat) (r : List (Point3D α)), depth ≤ 127 →
    t.collectNode m depth = some r → t.collectNodeW m depth = r := by
  induction t with
  | nil => intro d r _ h; simp [OcNode.collectNode] at h; simp [← h, OcNode.collectNodeW]
  | diverged => intro d r _ h; simp [OcNode.collectNode] at h; simp [← h, OcNode.collectNodeW]
  | leaf p => intro d r _ h; simp [OcNode.collectNode] at h; simp [← h, OcNode.collectNodeW]
  | node c ih =>
    intro depth r hd h
    simp only [OcNode.collectNode, Option.map_eq_some_iff] at h
    obtain ⟨rs, h1, rfl⟩ := h
    have h2 := OcNode.mapM_some _ _ _ h1
    rw [OcNode.collectNodeW, List.flatMap]
    congr 1
    refine List.map_injective_iff.2 (Option.some_injective _) ?_
    rw [← h2, List.map_map]
    refine List.map_congr_left fun d hmem => ?_
    have hs := List.mem_map_of_mem (f := fun d => if (c d).isNil then some [] else if depth + 1 > 127 then none
          else if (decide (m ≥ 0) && decide ((depth : Int) > m)) = true then
            (OcNode.collectNode m (c d) (depth + 1)).map fun sub => (centerOfGravity3d sub).toList
          else OcNode.collectNode m (c d) (depth + 1)) hmem
    rw [h2] at hs
    obtain ⟨x, -, hx⟩ := List.mem_map.1 hs
    rw [← hx]
    dsimp only [Function.comp]
    split at hx
    · rename_i hn; rw [if_pos hn]; exact hx.symm
    · rename_i hn
      rw [if_neg hn]
      split at hx
      · cases hx
      · rename_i hle
        have hw : wrap8 ((depth : Int) + 1) = ((depth + 1 : Nat) : Int) := by unfold wrap8; push_cast; omega
        split at hx
        · rename_i hcen
          rw [if_pos hcen]
          obtain ⟨y, hy, e⟩ := Option.map_eq_some_iff.1 hx.symm
          rw [hw, ih d (depth + 1) y (by omega) hy, e]
        · rename_i hcen
          rw [if_neg hcen, hw, ih d (depth + 1) x (by omega) hx.symm]

/-- **C123**, octrees: without overflow checks `collect` gives what a build with overflow checks gives where that one does not panic; and
`to_pointcloud` of any built tree, however deep, gives every point of the tree once, and only points of the cloud. -/
theorem c123_octree (fuel : Nat) (uniq : List (Point3D α) → List (Point3D α)) (old t : OcTree α)
    (pts : List (Point3D α)) (hu : ∀ p ∈ uniq pts, p ∈ pts) (hnd : (uniq pts).Nodup)
    (h : OcTree.build fuel uniq old pts = (t, .ok ())) :
    (∀ m r, t.collect m = some r → t.collectW m = r) ∧
    (∀ p ∈ t.toPointcloudW, p ∈ pts) ∧ t.toPointcloudW.Nodup ∧ t.toPointcloudW.length = t.size := by
  refine ⟨fun m r hr => collectNodeW_eq m t.root 0 r (by omega) hr, ?_⟩
  unfold OcTree.build at h
  split at h
  · simp at h
  · split at h
    · simp at h
    · rename_i x hx
      simp only [Prod.mk.injEq, and_true] at h
      subst h
      rw [OcTree.toPointcloudW, OcTree.collectW, collectNodeW_neg (-1) (by decide) x 0]
      exact ⟨fun p hp => hu p (OcNode.newNode_mem _ _ _ _ hx p hp), OcNode.newNode_nodup _ _ _ _ hx hnd, (OcNode.size_eq x).symm⟩

theorem deep_nodup : OcTree.deep.Nodup := by
  have pos : ∀ n : ℕ, 0 < 1 / (2:ℝ) ^ n := fun n => by positivity
  have mono : ∀ a b : ℕ, a < b → 1 / (2:ℝ) ^ b < 1 / 2 ^ a := fun a b h =>
    one_div_lt_one_div_of_lt (by positivity) (pow_lt_pow_right₀ one_lt_two h)
  have a1 := pos 201
  have a2 := pos 202
  have b1 := mono 0 201 (by norm_num)
  have b2 := mono 0 202 (by norm_num)
  have c1 := mono 201 202 (by norm_num)
  rw [pow_zero, div_one] at b1 b2
  unfold OcTree.deep
  generalize 1 / (2:ℝ) ^ 201 = a at a1 a2 b1 b2 c1 ⊢
  generalize 1 / (2:ℝ) ^ 202 = b at a1 a2 b1 b2 c1 ⊢
  simp [a1.ne, a2.ne, b1.ne', b2.ne', c1.ne']

/-- a tree too deep for overflow checks (`c28_collect_violated`) is collected completely without them -/
example : ∃ N t, OcTree.build N id ⟨.nil, ⟨⟨0, 0, 0⟩, ⟨1, 1, 1⟩⟩⟩ OcTree.deep = (t, .ok ()) ∧ t.toPointcloud = none ∧
    t.toPointcloudW.length = t.size := by
  obtain ⟨N, t, -, h, hn⟩ := OcTree.c28_collect_violated (-1)
  have hb := h N le_rfl
  exact ⟨N, t, hb, hn, (c123_octree N id _ t _ (fun _ h => h) deep_nodup hb).2.2.2⟩
end octree

end R3D

import Verif.Model.TextLoad
import Verif.Props.Xyz
/-!
C67: loading .obj files.
-/
namespace R3D
open Spec

variable {α : Type}

/-! ### specification -/

/-- blanks between words -/
def Spec.blank (b : UInt8) : Bool := decide (b ∈ b!" \t")

/-- what a line of a mesh file says; the indices are those written in the file -/
inductive Spec.Says (P ε : Type) where
  | nothing
  | vertex (p : P)
  | face (a b c : Nat)
  | malformed (e : ε)

/-- `v x y z ...` -/
def Spec.ObjVertex (T : FloatText α) (line : Bytes) (p : Point3D α) : Prop :=
  ∃ rest wx wy wz ws, line = b!"v " ++ rest ∧ WordsOf blank rest (wx :: wy :: wz :: ws) ∧
    fromAscii T.parse wx = some p.x ∧ fromAscii T.parse wy = some p.y ∧ fromAscii T.parse wz = some p.z

/-- a corner `a`, `a/b`, `a/b/c`, `a//c` -/
def Spec.ObjCorner (word : Bytes) (a : Nat) : Prop :=
  ∃ s, (word = s ∨ ∃ r, word = s ++ b!"/" ++ r) ∧ (47 : UInt8) ∉ s ∧ fromAscii parseNat s = some a

/-- `f a b c ...` -/
def Spec.ObjFace (line : Bytes) (a b c : Nat) : Prop :=
  ∃ rest wa wb wc ws, line = b!"f " ++ rest ∧ WordsOf blank rest (wa :: wb :: wc :: ws) ∧
    ObjCorner wa a ∧ ObjCorner wb b ∧ ObjCorner wc c

/-- the meaning of a line of an .obj file -/
def Spec.ObjLine (T : FloatText α) (line : Bytes) : Says (Point3D α) ObjError → Prop
  | .nothing => (¬∃ r, line = b!"v " ++ r) ∧ ¬∃ r, line = b!"f " ++ r
  | .vertex p => ObjVertex T line p
  | .face a b c => ObjFace line a b c
  | .malformed e => (e = .Vertex ∧ (∃ r, line = b!"v " ++ r) ∧ ¬∃ p, ObjVertex T line p) ∨
      (e = .Face ∧ (∃ r, line = b!"f " ++ r) ∧ ¬∃ a b c, ObjFace line a b c)

section
variable {P ε : Type}

/-- the vertices announced, in order -/
def Spec.verticesOf : List (Says P ε) → List P
  | [] => []
  | .vertex p :: ks => p :: verticesOf ks
  | _ :: ks => verticesOf ks

/-- the faces announced, in order; indices start at `base` in the file and at 0 in the mesh -/
def Spec.facesOf (base : Nat) : List (Says P ε) → List Face3
  | [] => []
  | .face a b c :: ks => ⟨a - base, b - base, c - base⟩ :: facesOf base ks
  | _ :: ks => facesOf base ks

/-- `n` vertices are known when the line is read -/
def Spec.Fits (base n : Nat) : Says P ε → Prop
  | .face a b c => (base ≤ a ∧ a < n + base) ∧ (base ≤ b ∧ b < n + base) ∧ (base ≤ c ∧ c < n + base) ∧ a ≠ b ∧ a ≠ c ∧ b ≠ c
  | .malformed _ => False
  | _ => True

/-- all lines fit, each with the vertices known before it -/
def Spec.AllFit (base n : Nat) (ks : List (Says P ε)) : Prop :=
  ∀ pre k post, ks = pre ++ k :: post → Fits base (n + (verticesOf pre).length) k
end

/-! ### proofs -/

theorem toWords_iff {line : Bytes} {ws : List Bytes} : toWords line = ws ↔ WordsOf blank line ws := c72_words line ws

theorem startsWith_iff {s pre : Bytes} : startsWith s pre = true ↔ ∃ r, s = pre ++ r := by
  unfold startsWith
  rw [List.isPrefixOf_iff_prefix]
  exact ⟨fun ⟨r, h⟩ => ⟨r, h.symm⟩, fun ⟨r, h⟩ => ⟨r, h.symm⟩⟩

theorem toWords_first {w : Bytes} (c : UInt8) (hw : w ≠ []) (hb : ∀ b ∈ w, blank b = false) (hc : blank c = true) (rest : Bytes) :
    toWords (w ++ c :: rest) = w :: toWords rest := by
  obtain ⟨ws, hws⟩ := wordsOf_exists blank rest
  rw [toWords_iff.2 hws, toWords_iff]
  have := wordsOf_next (p := blank) (sep := [c]) hw hb (by simp) (by simpa using hc) hws
  simpa using this

theorem objFetchVertex_ok {T : FloatText α} {line : Bytes} {p : Point3D α} (hv : ∃ r, line = b!"v " ++ r) :
    objFetchVertex T line = .ok p ↔ ObjVertex T line p := by
  obtain ⟨rest, rfl⟩ := hv
  unfold objFetchVertex
  rw [show b!"v " ++ rest = b!"v" ++ 32 :: rest from rfl, toWords_first 32 (by decide) (by decide) (by decide)]
  dsimp only
  rw [vertexOf_ok]
  constructor
  · rintro ⟨wx, wy, wz, r, h1, h2⟩
    exact ⟨rest, wx, wy, wz, r, rfl, toWords_iff.1 h1, h2⟩
  · rintro ⟨rest', wx, wy, wz, r, h0, h1, h2⟩
    simp at h0
    subst h0
    exact ⟨wx, wy, wz, r, toWords_iff.2 h1, h2⟩

theorem objFetchVertex_error {T : FloatText α} {line : Bytes} {e : ObjError} (h : objFetchVertex T line = .error e) : e = .Vertex := by
  unfold objFetchVertex at h
  split at h
  · cases h; rfl
  · exact vertexOf_error h

theorem objCorner_iff {words : List Bytes} {n a : Nat} : objCorner words n = some a ↔ ∃ w, words[n]? = some w ∧ ObjCorner w a := by
  unfold objCorner
  rw [Option.bind_eq_some_iff]
  constructor
  · rintro ⟨w, h1, h2⟩
    refine ⟨w, h1, untilByte w 47, ?_, ?_, h2⟩
    · rcases ((c72_until w 47 _).1 rfl).2 with h | ⟨r, h⟩
      · exact .inl h
      · exact .inr ⟨r, by simpa using h⟩
    · exact ((c72_until w 47 _).1 rfl).1
  · rintro ⟨w, h1, s, h2, h3, h4⟩
    refine ⟨w, h1, ?_⟩
    rwa [(c72_until w 47 s).2 ⟨h3, by
      rcases h2 with h | ⟨r, h⟩
      · exact .inl h
      · exact .inr ⟨r, by simpa using h⟩⟩]

theorem objFace_words {rest : Bytes} {a b c : Nat} : ObjFace (b!"f " ++ rest) a b c ↔
    objCorner (toWords rest) 0 = some a ∧ objCorner (toWords rest) 1 = some b ∧ objCorner (toWords rest) 2 = some c := by
  simp only [objCorner_iff]
  constructor
  · rintro ⟨rest', wa, wb, wc, ws, h0, h1, h2, h3, h4⟩
    simp at h0
    subst h0
    rw [toWords_iff.2 h1]
    exact ⟨⟨wa, rfl, h2⟩, ⟨wb, rfl, h3⟩, ⟨wc, rfl, h4⟩⟩
  · rintro ⟨⟨wa, ea, ha⟩, ⟨wb, eb, hb⟩, ⟨wc, ec, hc⟩⟩
    cases h : toWords rest with
    | nil => rw [h] at ea; simp at ea
    | cons x l =>
      cases l with
      | nil => rw [h] at eb; simp at eb
      | cons y l =>
        cases l with
        | nil => rw [h] at ec; simp at ec
        | cons z l =>
          rw [h] at ea eb ec
          simp at ea eb ec
          subst ea eb ec
          exact ⟨rest, x, y, z, l, rfl, toWords_iff.1 h, ha, hb, hc⟩

theorem objFetchFace_eq (rest : Bytes) : objFetchFace (b!"f " ++ rest) =
    match objCorner (toWords rest) 0, objCorner (toWords rest) 1, objCorner (toWords rest) 2 with
    | some a, some b, some c => if a = 0 ∨ b = 0 ∨ c = 0 then none else some (.ok (a - 1, b - 1, c - 1))
    | _, _, _ => some (.error .Face) := by
  unfold objFetchFace
  rw [show b!"f " ++ rest = b!"f" ++ 32 :: rest from rfl, toWords_first 32 (by decide) (by decide) (by decide)]
  rfl

theorem objFetchFace_error (rest : Bytes) (h : ¬∃ a b c, ObjFace (b!"f " ++ rest) a b c) :
    objFetchFace (b!"f " ++ rest) = some (.error .Face) := by
  rw [objFetchFace_eq]
  split
  · rename_i a b c ha hb hc
    exact absurd ⟨a, b, c, objFace_words.2 ⟨ha, hb, hc⟩⟩ h
  · rfl

/-- every line has a meaning -/
theorem objLine_exists (T : FloatText α) (line : Bytes) : ∃ k, ObjLine T line k := by
  by_cases hv : ∃ r, line = b!"v " ++ r
  · by_cases hp : ∃ p, ObjVertex T line p
    · obtain ⟨p, hp⟩ := hp
      exact ⟨.vertex p, hp⟩
    · exact ⟨.malformed .Vertex, .inl ⟨rfl, hv, hp⟩⟩
  · by_cases hf : ∃ r, line = b!"f " ++ r
    · by_cases hp : ∃ a b c, ObjFace line a b c
      · obtain ⟨a, b, c, hp⟩ := hp
        exact ⟨.face a b c, hp⟩
      · exact ⟨.malformed .Face, .inr ⟨rfl, hf, hp⟩⟩
    · exact ⟨.nothing, hv, hf⟩

theorem v_not_f {line : Bytes} (h : ∃ r, line = b!"v " ++ r) : ¬∃ r, line = b!"f " ++ r := by
  obtain ⟨r, rfl⟩ := h
  rintro ⟨r', h⟩
  simp at h

theorem objVertex_v {T : FloatText α} {line : Bytes} {p : Point3D α} (h : ObjVertex T line p) : ∃ r, line = b!"v " ++ r := by
  obtain ⟨r, _, _, _, _, h, _⟩ := h; exact ⟨r, h⟩
theorem objFace_f {line : Bytes} {a b c : Nat} (h : ObjFace line a b c) : ∃ r, line = b!"f " ++ r := by
  obtain ⟨r, _, _, _, _, h, _⟩ := h; exact ⟨r, h⟩

/-- what the loop does with the next line -/
theorem objMeshLoop_step (T : FloatText α) (line : Bytes) (rest : List Bytes) (i : Nat) (k : Says (Point3D α) ObjError)
    (hk : ObjLine T line k) : objMeshLoop T (line :: rest) i =
      match k with
      | .nothing => objMeshLoop T rest (i + 1)
      | .vertex p => some (some (.ok (.data p)), ⟨rest, false, i + 1⟩)
      | .face a b c => if a = 0 ∨ b = 0 ∨ c = 0 then none else some (some (.ok (.face (a - 1) (b - 1) (c - 1))), ⟨rest, false, i + 1⟩)
      | .malformed e => some (some (.error (.line (i + 1) line e)), ⟨rest, true, i + 1⟩) := by
  have hvp : ∀ {line : Bytes}, (∃ r, line = b!"v " ++ r) → startsWith line b!"v " = true := fun h => startsWith_iff.2 h
  have hvn : ∀ {line : Bytes}, (¬∃ r, line = b!"v " ++ r) → startsWith line b!"v " = false := fun h => by
    rw [← Bool.not_eq_true, startsWith_iff]; exact h
  have hfp : ∀ {line : Bytes}, (∃ r, line = b!"f " ++ r) → startsWith line b!"f " = true := fun h => startsWith_iff.2 h
  have hfn : ∀ {line : Bytes}, (¬∃ r, line = b!"f " ++ r) → startsWith line b!"f " = false := fun h => by
    rw [← Bool.not_eq_true, startsWith_iff]; exact h
  have fv : ∀ {line : Bytes}, (∃ r, line = b!"f " ++ r) → ¬∃ r, line = b!"v " ++ r := fun h h' => v_not_f h' h
  rw [objMeshLoop]
  cases k with
  | nothing => rw [hvn hk.1, hfn hk.2]; simp
  | vertex p =>
    have hv := objVertex_v hk
    rw [hvp hv, (objFetchVertex_ok hv).2 hk]; simp
  | face a b c =>
    have hf := objFace_f hk
    rw [hvn (fv hf), hfp hf]
    obtain ⟨r, rfl⟩ := hf
    obtain ⟨ha, hb, hc⟩ := objFace_words.1 hk
    simp only [objFetchFace_eq, ha, hb, hc]
    by_cases h0 : a = 0 ∨ b = 0 ∨ c = 0 <;> simp [h0]
  | malformed e =>
    rcases hk with ⟨rfl, hv, hn⟩ | ⟨rfl, hf, hn⟩
    · rw [hvp hv]
      cases h : objFetchVertex T line with
      | ok p => exact absurd ⟨p, (objFetchVertex_ok hv).1 h⟩ hn
      | error e => rw [objFetchVertex_error h]; simp
    · rw [hvn (fv hf), hfp hf]
      obtain ⟨r, rfl⟩ := hf
      rw [objFetchFace_error r hn]
      simp

theorem objLine_unique {T : FloatText α} {line : Bytes} {k k' : Says (Point3D α) ObjError} (h : ObjLine T line k) (h' : ObjLine T line k') :
    k = k' := by
  have e := (objMeshLoop_step T line [] 0 k h).symm.trans (objMeshLoop_step T line [] 0 k' h')
  cases k <;> cases k' <;> simp only [objMeshLoop] at e <;>
    (try rfl) <;> (try (split_ifs at e <;> simp at e <;> done)) <;> (try (simp at e; done)) <;> (try (simp at e; subst e; rfl))
  · rename_i a b c a' b' c'
    obtain ⟨r, rfl⟩ := objFace_f h
    obtain ⟨h1, h2, h3⟩ := objFace_words.1 h
    obtain ⟨h1', h2', h3'⟩ := objFace_words.1 h'
    rw [h1] at h1'; rw [h2] at h2'; rw [h3] at h3'
    cases h1'; cases h2'; cases h3'
    rfl

section
variable {P ε : Type}

theorem allFit_nil {base n : Nat} : AllFit base n ([] : List (Says P ε)) := by
  intro pre k post h
  simp at h

theorem allFit_cons {base n : Nat} {k : Says P ε} {ks : List (Says P ε)} :
    AllFit base n (k :: ks) ↔ Fits base n k ∧ AllFit base (n + (verticesOf [k]).length) ks := by
  have hv : ∀ pre : List (Says P ε), (verticesOf (k :: pre)).length = (verticesOf [k]).length + (verticesOf pre).length := by
    intro pre
    cases k <;> simp [verticesOf, Nat.add_comm]
  constructor
  · intro h
    refine ⟨by simpa [verticesOf] using h [] k ks rfl, fun pre k' post e => ?_⟩
    have := h (k :: pre) k' post (by rw [e]; rfl)
    rwa [hv, ← Nat.add_assoc] at this
  · rintro ⟨h1, h2⟩ pre k' post e
    cases pre with
    | nil => simp at e; obtain ⟨rfl, rfl⟩ := e; simpa [verticesOf] using h1
    | cons k0 pre =>
      simp at e
      obtain ⟨rfl, rfl⟩ := e
      have := h2 pre k' post rfl
      rwa [Nat.add_assoc, ← hv] at this
end

theorem objPush_face (m : TMesh (Point3D α)) (a b c : Nat) (h0 : ¬(a = 0 ∨ b = 0 ∨ c = 0)) :
    (Fits (ε := ObjError) 1 m.verts.length (Says.face (P := Point3D α) a b c) →
      objPush m (.face (a - 1) (b - 1) (c - 1)) = (⟨m.verts, m.faces ++ [⟨a - 1, b - 1, c - 1⟩]⟩, .ok ())) ∧
    (¬Fits (ε := ObjError) 1 m.verts.length (Says.face (P := Point3D α) a b c) →
      objPush m (.face (a - 1) (b - 1) (c - 1)) = (m, .error (.none .InvalidMeshIndices))) := by
  simp only [not_or] at h0
  unfold objPush TMesh.tryAddConnection Fits
  constructor
  · rintro ⟨h1, h2, h3, h4⟩
    dsimp only
    rw [if_neg (by omega), if_neg (by omega)]
  · intro h
    by_cases hr : a - 1 ≥ m.verts.length ∨ b - 1 ≥ m.verts.length ∨ c - 1 ≥ m.verts.length
    · simp [hr]
    · simp only [hr, if_false]
      rw [if_pos (by omega)]

/-- **C67**: what loading any .obj file does. The lines before the first one that does not fit are taken over completely:
every `v` line as a vertex and every `f` line as a face, in order, with indices counted from 0. If all lines fit, loading
succeeds; otherwise the first unfit line is reported (a malformed one with its number and text), or, if it is a face with
the index 0, the program panics. -/
theorem c67_load (T : FloatText α) (input : Bytes) (m : TMesh (Point3D α)) :
    ∃ good ks rest, lines input = good ++ rest ∧ List.Forall₂ (ObjLine T) good ks ∧ AllFit 1 m.verts.length ks ∧
      let m' : TMesh (Point3D α) := ⟨m.verts ++ verticesOf ks, m.faces ++ facesOf 1 ks⟩
      (rest = [] ∧ loadObjMesh T input m = some (m', .ok ())) ∨
      ∃ bad rest' k, rest = bad :: rest' ∧ ObjLine T bad k ∧ ¬Fits 1 m'.verts.length k ∧
        ((∃ e, k = .malformed e ∧ loadObjMesh T input m = some (m', .error (.line (good.length + 1) bad e))) ∨
         (∃ a b c, k = .face a b c ∧ (1 ≤ a ∧ 1 ≤ b ∧ 1 ≤ c) ∧
            loadObjMesh T input m = some (m', .error (.none .InvalidMeshIndices))) ∨
         (∃ a b c, k = .face a b c ∧ (a = 0 ∨ b = 0 ∨ c = 0) ∧ loadObjMesh T input m = none)) := by
  unfold loadObjMesh
  generalize hN : (lines input).length + 1 = N
  generalize lines input = ls at *
  have key : ∀ (ls : List Bytes) (i N : Nat) (m : TMesh (Point3D α)), ls.length < N →
      ∃ good ks rest, ls = good ++ rest ∧ List.Forall₂ (ObjLine T) good ks ∧ AllFit 1 m.verts.length ks ∧
      let m' : TMesh (Point3D α) := ⟨m.verts ++ verticesOf ks, m.faces ++ facesOf 1 ks⟩
      (rest = [] ∧ forEach (objMeshNext T) objPush N ⟨ls, false, i⟩ m = some (m', .ok ())) ∨
      ∃ bad rest' k, rest = bad :: rest' ∧ ObjLine T bad k ∧ ¬Fits 1 m'.verts.length k ∧
        ((∃ e, k = .malformed e ∧ forEach (objMeshNext T) objPush N ⟨ls, false, i⟩ m = some (m', .error (.line (i + good.length + 1) bad e))) ∨
         (∃ a b c, k = .face a b c ∧ (1 ≤ a ∧ 1 ≤ b ∧ 1 ≤ c) ∧
            forEach (objMeshNext T) objPush N ⟨ls, false, i⟩ m = some (m', .error (.none .InvalidMeshIndices))) ∨
         (∃ a b c, k = .face a b c ∧ (a = 0 ∨ b = 0 ∨ c = 0) ∧ forEach (objMeshNext T) objPush N ⟨ls, false, i⟩ m = none)) := by
    intro ls
    induction ls with
    | nil =>
      intro i N m hN
      obtain ⟨N, rfl⟩ := Nat.exists_eq_succ_of_ne_zero (Nat.ne_of_gt (Nat.zero_lt_of_lt hN))
      exact ⟨[], [], [], rfl, .nil, allFit_nil, .inl ⟨rfl, by simp [forEach, objMeshNext, objMeshLoop, verticesOf, facesOf]⟩⟩
    | cons l ls ih =>
      intro i N m hN
      obtain ⟨N, rfl⟩ := Nat.exists_eq_succ_of_ne_zero (Nat.ne_of_gt (Nat.zero_lt_of_lt hN))
      rw [List.length_cons] at hN
      obtain ⟨k, hk⟩ := objLine_exists T l
      have hstep : objMeshNext T ⟨l :: ls, false, i⟩ = _ := objMeshLoop_step T l ls i k hk
      by_cases hfit : Fits 1 m.verts.length k
      · -- the line is accepted: `m1` is the mesh after it
        have hm : ∃ m1 : TMesh (Point3D α), m1 = ⟨m.verts ++ verticesOf [k], m.faces ++ facesOf 1 [k]⟩ := ⟨_, rfl⟩
        obtain ⟨m1, hm1⟩ := hm
        have hrun : ∃ N', ls.length < N' ∧ forEach (objMeshNext T) objPush (N + 1) ⟨l :: ls, false, i⟩ m =
            forEach (objMeshNext T) objPush N' ⟨ls, false, i + 1⟩ m1 := by
          cases k with
          | nothing =>
            refine ⟨N + 1, by omega, ?_⟩
            rw [hm1]
            simp only [verticesOf, facesOf, List.append_nil]
            rw [forEach, forEach, hstep]
            rfl
          | vertex p =>
            refine ⟨N, by omega, ?_⟩
            rw [forEach, hstep, hm1]
            simp [objPush, TMesh.addVertex, verticesOf, facesOf]
          | face a b c =>
            refine ⟨N, by omega, ?_⟩
            have h0 : ¬(a = 0 ∨ b = 0 ∨ c = 0) := by
              obtain ⟨h1, h2, h3, -⟩ := hfit
              omega
            rw [forEach, hstep, hm1]
            simp only [if_neg h0]
            rw [(objPush_face m a b c h0).1 hfit]
            simp [verticesOf, facesOf]
          | malformed e => exact absurd hfit (by simp [Fits])
        obtain ⟨N', hN', hrun⟩ := hrun
        obtain ⟨good, ks, rest, e, hl, hf, h⟩ := ih (i + 1) N' m1 hN'
        have hvk : ∀ ks : List (Says (Point3D α) ObjError), verticesOf (k :: ks) = verticesOf [k] ++ verticesOf ks := by
          intro ks; cases k <;> simp [verticesOf]
        have hfk : ∀ ks : List (Says (Point3D α) ObjError), facesOf 1 (k :: ks) = facesOf 1 [k] ++ facesOf 1 ks := by
          intro ks; cases k <;> simp [facesOf]
        have hv : m.verts ++ verticesOf (k :: ks) = m1.verts ++ verticesOf ks := by
          rw [hvk, hm1]; simp
        have hfa : m.faces ++ facesOf 1 (k :: ks) = m1.faces ++ facesOf 1 ks := by
          rw [hfk, hm1]; simp
        refine ⟨l :: good, k :: ks, rest, by rw [e]; rfl, .cons hk hl, allFit_cons.2 ⟨hfit, ?_⟩, ?_⟩
        · rw [hm1] at hf
          simpa using hf
        · dsimp only at h ⊢
          rw [hrun, hv, hfa, List.length_cons]
          rw [show i + 1 + good.length + 1 = i + (good.length + 1) + 1 by omega] at h
          exact h
      · refine ⟨[], [], l :: ls, rfl, .nil, allFit_nil, .inr ⟨l, ls, k, rfl, hk, by simpa [verticesOf] using hfit, ?_⟩⟩
        cases k with
        | nothing => exact absurd trivial hfit
        | vertex p => exact absurd trivial hfit
        | face a b c =>
          by_cases h0 : a = 0 ∨ b = 0 ∨ c = 0
          · refine .inr (.inr ⟨a, b, c, rfl, h0, ?_⟩)
            rw [forEach, hstep]
            simp [h0]
          · refine .inr (.inl ⟨a, b, c, rfl, by omega, ?_⟩)
            rw [forEach, hstep]
            simp only [if_neg h0]
            rw [(objPush_face m a b c h0).2 hfit]
            simp [verticesOf, facesOf]
        | malformed e =>
          refine .inl ⟨e, rfl, ?_⟩
          rw [forEach, hstep]
          simp [verticesOf, facesOf]
  obtain ⟨good, ks, rest, h⟩ := key ls 0 N m (by omega)
  exact ⟨good, ks, rest, by simpa using h⟩

/-- two triangles, texture indices, a comment -/
example : loadObjMesh natText b!"# a\nv 1 2 3\nv 4 5 6\nv 7 8 9\nf 1/5 2//3 3 9\n" ⟨[], []⟩ =
    some (⟨[⟨1, 2, 3⟩, ⟨4, 5, 6⟩, ⟨7, 8, 9⟩], [⟨0, 1, 2⟩]⟩, .ok ()) := by decide +kernel

/-- C67 fails: an index 0 makes the loader panic (with overflow checks) -/
theorem c67_violated_panic : ∃ file : Bytes, file = b!"v 1 2 3\nv 4 5 6\nv 7 8 9\nf 0 1 2\n" ∧
    loadObjMesh natText file ⟨[], []⟩ = none := by
  refine ⟨_, rfl, ?_⟩; decide +kernel

/-- C67 fails: of a quad only the first triangle is kept -/
theorem c67_violated_quad : ∃ file : Bytes, file = b!"v 0 0 0\nv 1 0 0\nv 1 1 0\nv 0 1 0\nf 1 2 3 4\n" ∧
    loadObjMesh natText file ⟨[], []⟩ = some (⟨[⟨0, 0, 0⟩, ⟨1, 0, 0⟩, ⟨1, 1, 0⟩, ⟨0, 1, 0⟩], [⟨0, 1, 2⟩]⟩, .ok ()) := by
  refine ⟨_, rfl, ?_⟩; decide +kernel

/-! ### points only -/

/-- the points loader ignores everything but `v` lines -/
theorem c67_points (T : FloatText α) (input : Bytes) : ∃ good vs rest, lines input = good ++ rest ∧
    List.Forall₂ (fun l v => match v with | some p => ObjVertex T l p | none => ¬∃ r, l = b!"v " ++ r) good vs ∧
    ((rest = [] ∧ loadObjPoints T input = some (vs.filterMap id, .ok ())) ∨
     ∃ bad rest', rest = bad :: rest' ∧ (∃ r, bad = b!"v " ++ r) ∧ (¬∃ p, ObjVertex T bad p) ∧
       loadObjPoints T input = some (vs.filterMap id, .error (.line (good.length + 1) bad .Vertex))) := by
  unfold loadObjPoints
  generalize hN : (lines input).length + 1 = N
  generalize lines input = ls at *
  have key : ∀ (ls : List Bytes) (i N : Nat), ls.length < N → ∃ good vs rest, ls = good ++ rest ∧
      List.Forall₂ (fun l v => match v with | some p => ObjVertex T l p | none => ¬∃ r, l = b!"v " ++ r) good vs ∧
      ((rest = [] ∧ drain (objPointsNext T) N ⟨ls, false, i⟩ = some (vs.filterMap id, .ok ())) ∨
       ∃ bad rest', rest = bad :: rest' ∧ (∃ r, bad = b!"v " ++ r) ∧ (¬∃ p, ObjVertex T bad p) ∧
         drain (objPointsNext T) N ⟨ls, false, i⟩ = some (vs.filterMap id, .error (.line (i + good.length + 1) bad .Vertex))) := by
    intro ls
    induction ls with
    | nil =>
      intro i N hN
      obtain ⟨N, rfl⟩ := Nat.exists_eq_succ_of_ne_zero (Nat.ne_of_gt (Nat.zero_lt_of_lt hN))
      exact ⟨[], [], [], rfl, .nil, .inl ⟨rfl, by simp [drain, objPointsNext, objPointsLoop]⟩⟩
    | cons l ls ih =>
      intro i N hN
      obtain ⟨N, rfl⟩ := Nat.exists_eq_succ_of_ne_zero (Nat.ne_of_gt (Nat.zero_lt_of_lt hN))
      rw [List.length_cons] at hN
      by_cases hv : ∃ r, l = b!"v " ++ r
      · by_cases hp : ∃ p, ObjVertex T l p
        · obtain ⟨p, hp⟩ := hp
          obtain ⟨good, vs, rest, e, hl, h⟩ := ih (i + 1) N (by omega)
          have hrun : drain (objPointsNext T) (N + 1) ⟨l :: ls, false, i⟩ =
              (drain (objPointsNext T) N ⟨ls, false, i + 1⟩).map fun r => (p :: r.1, r.2) := by
            simp [drain, objPointsNext, objPointsLoop, startsWith_iff.2 hv, (objFetchVertex_ok hv).2 hp]
          refine ⟨l :: good, some p :: vs, rest, by rw [e]; rfl, .cons hp hl, ?_⟩
          rw [hrun]
          rcases h with ⟨h1, h2⟩ | ⟨bad, rest', h1, h2, h3, h4⟩
          · exact .inl ⟨h1, by simp [h2]⟩
          · refine .inr ⟨bad, rest', h1, h2, h3, ?_⟩
            rw [h4, List.length_cons, show i + 1 + good.length + 1 = i + (good.length + 1) + 1 by omega]
            simp
        · refine ⟨[], [], l :: ls, rfl, .nil, .inr ⟨l, ls, rfl, hv, hp, ?_⟩⟩
          cases h : objFetchVertex T l with
          | ok p => exact absurd ⟨p, (objFetchVertex_ok hv).1 h⟩ hp
          | error e =>
            simp [drain, objPointsNext, objPointsLoop, startsWith_iff.2 hv, h, objFetchVertex_error h]
      · obtain ⟨good, vs, rest, e, hl, h⟩ := ih (i + 1) (N + 1) (by omega)
        have hs : startsWith l b!"v " = false := by rw [← Bool.not_eq_true, startsWith_iff]; exact hv
        have hrun : drain (objPointsNext T) (N + 1) ⟨l :: ls, false, i⟩ = drain (objPointsNext T) (N + 1) ⟨ls, false, i + 1⟩ := by
          rw [drain, drain]
          have : objPointsNext T ⟨l :: ls, false, i⟩ = objPointsNext T ⟨ls, false, i + 1⟩ := by
            simp [objPointsNext, objPointsLoop, hs]
          rw [this]
        refine ⟨l :: good, none :: vs, rest, by rw [e]; rfl, .cons hv hl, ?_⟩
        rw [hrun, List.length_cons, show i + (good.length + 1) + 1 = i + 1 + good.length + 1 by omega]
        simpa using h
  obtain ⟨good, vs, rest, h⟩ := key ls 0 N (by omega)
  exact ⟨good, vs, rest, by simpa using h⟩

/-- a face line is no obstacle for the points loader -/
example : loadObjPoints natText b!"v 1 2 3\nf 0 x\nv 4 5 6\n" = some ([⟨1, 2, 3⟩, ⟨4, 5, 6⟩], .ok ()) := by decide +kernel

/-! ### meshes written as .obj files -/

/-- the usual way to write a mesh -/
def Spec.objText (T : FloatText α) (m : TMesh (Point3D α)) : List Bytes :=
  (m.verts.map fun p => b!"v " ++ T.fmt p.x ++ b!" " ++ T.fmt p.y ++ b!" " ++ T.fmt p.z) ++
  m.faces.map fun f => b!"f " ++ fmtNat (f.a + 1) ++ b!" " ++ fmtNat (f.b + 1) ++ b!" " ++ fmtNat (f.c + 1)

theorem fmt_blank {T : FloatText α} {ok : α → Prop} (hT : T.Lawful ok) {x : α} (hx : ok x) :
    ∀ b ∈ T.fmt x, blank b = false := by
  intro b hb
  have := (fmt_props hT hx (d := 32) (by decide)).2.2.1 b hb
  unfold blank
  rw [decide_eq_false_iff_not]
  intro h
  apply this
  simp only [List.mem_cons, List.not_mem_nil, or_false] at h ⊢
  tauto

theorem fmtNat_byte {n : Nat} {b : UInt8} (hb : b ∈ fmtNat n) : blank b = false ∧ b ≠ 10 ∧ b ≠ 47 ∧ b ∉ wsBytes := by
  have h := (fmtNat_digits n).2 b hb
  have key : ∀ b : Fin 256, 48 ≤ (UInt8.ofFin b).toNat ∧ (UInt8.ofFin b).toNat ≤ 57 →
      blank (UInt8.ofFin b) = false ∧ UInt8.ofFin b ≠ 10 ∧ UInt8.ofFin b ≠ 47 ∧ UInt8.ofFin b ∉ wsBytes := by decide +kernel
  exact key b.toFin h

theorem wordsOf_three {a b c : Bytes} (ha : a ≠ [] ∧ ∀ x ∈ a, blank x = false) (hb : b ≠ [] ∧ ∀ x ∈ b, blank x = false)
    (hc : c ≠ [] ∧ ∀ x ∈ c, blank x = false) : WordsOf blank (a ++ b!" " ++ b ++ b!" " ++ c) [a, b, c] := by
  have := wordsOf_next (p := blank) (sep := b!" ") ha.1 ha.2 (by decide) (by decide) (wordsOf_next (p := blank) (sep := b!" ") hb.1 hb.2 (by decide) (by decide)
    (wordsOf_last (p := blank) hc.1 hc.2))
  simpa [List.append_assoc] using this

theorem trimmed_self {t : Bytes} (h : ∀ b, t.getLast? = some b → b ∉ wsBytes) : Trimmed t t := ⟨[], by simp, by simp, h⟩

/-- a list of lines, each with a line break, is read back as these lines -/
theorem lines_text (ls : List Bytes) (h1 : ∀ l ∈ ls, (10 : UInt8) ∉ l) (h2 : ∀ l ∈ ls, ∀ b, l.getLast? = some b → b ∉ wsBytes) :
    lines (ls.flatMap nl) = ls :=
  c56_lines_partial.1 ls ls h1 (List.forall₂_same.2 fun l hl => trimmed_self (h2 l hl))

theorem objText_lines (T : FloatText α) (ok : α → Prop) (hT : T.Lawful ok) (m : TMesh (Point3D α))
    (hok : ∀ p ∈ m.verts, ok p.x ∧ ok p.y ∧ ok p.z) : lines ((objText T m).flatMap nl) = objText T m := by
  have hn : ∀ n, (10 : UInt8) ∉ fmtNat n := fun n h => (fmtNat_byte h).2.1 rfl
  apply lines_text
  · intro l hl
    rcases List.mem_append.1 hl with hl | hl
    · obtain ⟨p, hp, rfl⟩ := List.mem_map.1 hl
      obtain ⟨ox, oy, oz⟩ := hok p hp
      have hh : ∀ {x}, ok x → (10 : UInt8) ∉ T.fmt x := fun hx => (fmt_props hT hx (d := 32) (by decide)).2.2.2.2
      simp only [List.mem_append, not_or]
      exact ⟨⟨⟨⟨⟨by decide, hh ox⟩, by decide⟩, hh oy⟩, by decide⟩, hh oz⟩
    · obtain ⟨f, -, rfl⟩ := List.mem_map.1 hl
      simp only [List.mem_append, not_or]
      exact ⟨⟨⟨⟨⟨by decide, hn _⟩, by decide⟩, hn _⟩, by decide⟩, hn _⟩
  · intro l hl b hb
    rcases List.mem_append.1 hl with hl | hl
    · obtain ⟨p, hp, rfl⟩ := List.mem_map.1 hl
      exact getLast?_not_ws hT (hok p hp).2.2 _ b hb
    · obtain ⟨f, -, rfl⟩ := List.mem_map.1 hl
      rw [List.getLast?_append_of_ne_nil _ (fmtNat_digits _).1] at hb
      exact (fmtNat_byte (List.mem_of_getLast? hb)).2.2.2

theorem objCorner_fmtNat {n : Nat} (h : n < 2 ^ 64) : ObjCorner (fmtNat n) n :=
  ⟨_, .inl rfl, fun h => (fmtNat_byte h).2.2.1 rfl, by rw [c72_decimal, if_pos h]⟩

theorem forall₂_prefix_unique {β γ : Type} {R : β → γ → Prop} (hu : ∀ x y z, R x y → R x z → y = z) :
    ∀ {l r : List β} {ks js : List γ}, List.Forall₂ R (l ++ r) ks → List.Forall₂ R l js → ∃ t, ks = js ++ t ∧ List.Forall₂ R r t
  | [], r, ks, js, h1, h2 => by cases h2; exact ⟨ks, rfl, h1⟩
  | x :: l, r, ks, js, h1, h2 => by
    cases h2 with
    | cons hx h2 =>
      cases h1 with
      | cons hx' h1 =>
        obtain ⟨t, rfl, h⟩ := forall₂_prefix_unique hu h1 h2
        exact ⟨t, by rw [hu _ _ _ hx hx']; rfl, h⟩

/-- **C67**: a mesh written in the usual way is loaded again, with the same vertices and faces in the same order. -/
theorem c67_roundtrip (T : FloatText α) (ok : α → Prop) (hT : T.Lawful ok) (m : TMesh (Point3D α))
    (hok : ∀ p ∈ m.verts, ok p.x ∧ ok p.y ∧ ok p.z) (hm : m.WellFormed) (hn : m.verts.length < 2 ^ 64) :
    loadObjMesh T ((objText T m).flatMap nl) ⟨[], []⟩ = some (m, .ok ()) := by
  -- the meaning of the lines
  have hks : List.Forall₂ (ObjLine T) (objText T m)
      (m.verts.map Says.vertex ++ m.faces.map fun f => Says.face (f.a + 1) (f.b + 1) (f.c + 1)) := by
    apply List.rel_append
    · rw [List.forall₂_map_left_iff, List.forall₂_map_right_iff, List.forall₂_same]
      intro p hp
      obtain ⟨ox, oy, oz⟩ := hok p hp
      exact ⟨T.fmt p.x ++ b!" " ++ T.fmt p.y ++ b!" " ++ T.fmt p.z, _, _, _, [], by simp only [List.append_assoc],
        wordsOf_three ⟨hT.fmt_ne _ ox, fmt_blank hT ox⟩ ⟨hT.fmt_ne _ oy, fmt_blank hT oy⟩ ⟨hT.fmt_ne _ oz, fmt_blank hT oz⟩,
        hT.fromAscii _ ox, hT.fromAscii _ oy, hT.fromAscii _ oz⟩
    · rw [List.forall₂_map_left_iff, List.forall₂_map_right_iff, List.forall₂_same]
      intro f hf
      obtain ⟨h1, h2, h3, -⟩ := hm f hf
      have hb : ∀ n, fmtNat n ≠ [] ∧ ∀ x ∈ fmtNat n, blank x = false := fun n => ⟨(fmtNat_digits n).1, fun x hx => (fmtNat_byte hx).1⟩
      refine ⟨fmtNat (f.a + 1) ++ b!" " ++ fmtNat (f.b + 1) ++ b!" " ++ fmtNat (f.c + 1), _, _, _, [],
        by simp only [List.append_assoc], wordsOf_three (hb (f.a + 1)) (hb (f.b + 1)) (hb (f.c + 1)), ?_, ?_, ?_⟩ <;> exact objCorner_fmtNat (by omega)
  have hvert : ∀ (ps : List (Point3D α)) (ks : List (Says (Point3D α) ObjError)), verticesOf (ps.map Says.vertex ++ ks) = ps ++ verticesOf ks := by
    intro ps ks
    induction ps with
    | nil => rfl
    | cons p ps ih => simp [verticesOf, ih]
  have hface : ∀ (ps : List (Point3D α)) (ks : List (Says (Point3D α) ObjError)), facesOf 1 (ps.map Says.vertex ++ ks) = facesOf 1 ks := by
    intro ps ks
    induction ps with
    | nil => rfl
    | cons p ps ih => simp [facesOf, ih]
  have hvf : ∀ fs : List Face3, verticesOf (fs.map fun f => (Says.face (f.a + 1) (f.b + 1) (f.c + 1) : Says (Point3D α) ObjError)) = [] := by
    intro fs
    induction fs with
    | nil => rfl
    | cons p ps ih => simp [verticesOf, ih]
  have hff : ∀ fs : List Face3, facesOf 1 (fs.map fun f => (Says.face (f.a + 1) (f.b + 1) (f.c + 1) : Says (Point3D α) ObjError)) = fs := by
    intro fs
    induction fs with
    | nil => rfl
    | cons p ps ih => simp [facesOf, ih]
  obtain ⟨good, ks, rest, e, hl, hfit, h⟩ := c67_load T ((objText T m).flatMap nl) ⟨[], []⟩
  rw [objText_lines T ok hT m hok] at e
  rw [e] at hks
  obtain ⟨t, et, ht⟩ := forall₂_prefix_unique (R := ObjLine T) (fun _ _ _ => objLine_unique) hks hl
  rcases h with ⟨rfl, h⟩ | ⟨bad, rest', k, rfl, hk, hbad, -⟩
  · cases ht
    rw [List.append_nil] at et
    rw [h, ← et, hvert, hface, hvf, hff]
    simp
  · exfalso
    cases ht with
    | cons hk' ht =>
      rename_i k' t'
      rw [← objLine_unique hk hk'] at et
      clear hk'
      apply hbad
      -- the line at this position fits
      simp only [List.nil_append]
      rcases List.append_eq_append_iff.1 et with ⟨as, ea, eb⟩ | ⟨bs, ea, eb⟩
      · have hkf : k ∈ m.faces.map fun f => (Says.face (f.a + 1) (f.b + 1) (f.c + 1) : Says (Point3D α) ObjError) := by rw [eb]; simp
        obtain ⟨f, hf, rfl⟩ := List.mem_map.1 hkf
        obtain ⟨h1, h2, h3, h4, h5, h6⟩ := hm f hf
        rw [ea, hvert, List.length_append]
        refine ⟨?_, ?_, ?_, ?_, ?_, ?_⟩ <;> omega
      · cases bs with
        | nil =>
          have hkf : k ∈ m.faces.map fun f => (Says.face (f.a + 1) (f.b + 1) (f.c + 1) : Says (Point3D α) ObjError) := by rw [← List.nil_append (m.faces.map _), ← eb]; simp
          obtain ⟨f, hf, rfl⟩ := List.mem_map.1 hkf
          obtain ⟨h1, h2, h3, h4, h5, h6⟩ := hm f hf
          rw [List.append_nil] at ea
          rw [← ea]
          have := hvert m.verts []
          rw [List.append_nil] at this
          rw [this]
          simp only [verticesOf, List.append_nil]
          refine ⟨?_, ?_, ?_, ?_, ?_, ?_⟩ <;> omega
        | cons b bs =>
          simp only [List.cons_append, List.cons.injEq] at eb
          obtain ⟨rfl, -⟩ := eb
          have : k ∈ m.verts.map Says.vertex := by rw [ea]; simp
          obtain ⟨p, -, rfl⟩ := List.mem_map.1 this
          exact trivial

example : (⟨[⟨1, 2, 3⟩, ⟨4, 5, 6⟩, ⟨7, 8, 9⟩], [⟨0, 1, 2⟩]⟩ : TMesh (Point3D Nat)).WellFormed := by
  intro f hf
  simp at hf
  subst hf
  decide

end R3D

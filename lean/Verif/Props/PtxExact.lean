import Verif.Props.Ptx
import Mathlib.Tactic.IntervalCases
/-!
C82: what loading any .ptx file does.
-/
namespace R3D
open Spec Scalar

variable {α : Type}

/-! ### specification -/

/-- the first ten lines of a scan -/
def Spec.PtxHead (T : FloatText α) (ls : List Bytes) (columns rows : Nat) (m : Matrix4 α) : Prop :=
  ∃ lc lr s1 s2 s3 s4 m1 m2 m3 m4, ls = [lc, lr, s1, s2, s3, s4, m1, m2, m3, m4] ∧
    fromAscii parseNat lc = some columns ∧ fromAscii parseNat lr = some rows ∧
    RowWords T m1 (m.data 0) ∧ RowWords T m2 (m.data 1) ∧ RowWords T m3 (m.data 2) ∧ RowWords T m4 (m.data 3)

/-- `l` is fine as the `k`-th line behind the number of columns -/
def Spec.PtxHeadLine (T : FloatText α) (k : Nat) (l : Bytes) : Prop :=
  (k = 0 → ∃ r, fromAscii parseNat l = some r) ∧ (5 ≤ k → ∃ r, RowWords T l r)

/-- the first line behind the number of columns that is missing or no good, and the error; `i` is the number of lines before -/
def Spec.PtxBadHead (T : FloatText α) (ls : List Bytes) (i : Nat) (e : LineInfo PtxError) : Prop :=
  ∃ k < 9, (∀ j < k, ∃ l, ls[j]? = some l ∧ PtxHeadLine T j l) ∧
    ((ls[k]? = none ∧ e = .index (i + k) .LoadFileEndReached) ∨
      ∃ l, ls[k]? = some l ∧ ¬PtxHeadLine T k l ∧ e = .line (i + k + 1) l (if k = 0 then .Rows else .Matrix))

/-- What a file with these lines is, `i` lines in: its points and how it ends, where `none` is a panic. -/
inductive Spec.PtxFile [Scalar α] (T : FloatText α) : Nat → List Bytes → List (Point3D α) → Panics (Except (LineInfo PtxError) Unit) → Prop
  | eof {i : Nat} : PtxFile T i [] [] (some (.ok ()))
  | columns {i : Nat} {l : Bytes} {rest : List Bytes} : fromAscii parseNat l = none →
      PtxFile T i (l :: rest) [] (some (.error (.index (i + 1) .Columns)))
  | header {i c : Nat} {l : Bytes} {rest : List Bytes} {e : LineInfo PtxError} : fromAscii parseNat l = some c →
      PtxBadHead T rest (i + 1) e → PtxFile T i (l :: rest) [] (some (.error e))
  | overflow {i c r : Nat} {hd rest : List Bytes} {m : Matrix4 α} : PtxHead T hd c r m → 2 ^ 64 ≤ r * c → PtxFile T i (hd ++ rest) [] none
  | cut {i c r : Nat} {hd body : List Bytes} {m : Matrix4 α} {ps : List (Point3D α)} : PtxHead T hd c r m → r * c < 2 ^ 64 →
      List.Forall₂ (VertexWords T) body ps → body.length < r * c →
      PtxFile T i (hd ++ body) (ps.map (placed m)) (some (.error (.index (i + 10 + body.length) .LoadFileEndReached)))
  | point {i c r : Nat} {hd body rest : List Bytes} {bad : Bytes} {m : Matrix4 α} {ps : List (Point3D α)} : PtxHead T hd c r m → r * c < 2 ^ 64 →
      List.Forall₂ (VertexWords T) body ps → body.length < r * c → (∀ p, ¬VertexWords T bad p) →
      PtxFile T i (hd ++ (body ++ bad :: rest)) (ps.map (placed m)) (some (.error (.line (i + 10 + body.length + 1) bad .Point)))
  | scan {i c r : Nat} {hd body rest : List Bytes} {m : Matrix4 α} {ps more : List (Point3D α)} {out : Panics (Except (LineInfo PtxError) Unit)} :
      PtxHead T hd c r m → r * c < 2 ^ 64 → List.Forall₂ (VertexWords T) body ps → body.length = r * c →
      PtxFile T (i + 10 + body.length) rest more out → PtxFile T i (hd ++ (body ++ rest)) (ps.map (placed m) ++ more) out

/-! ### proofs -/

theorem ptxHead_line {T : FloatText α} {k : Nat} {l : Bytes} (hk : 5 ≤ k) : PtxHeadLine T k l ↔ ∃ r, readMatrixRow T l = some r := by
  constructor
  · intro h
    obtain ⟨r, hr⟩ := h.2 hk
    exact ⟨r, readMatrixRow_of hr⟩
  · rintro ⟨r, hr⟩
    exact ⟨fun h => by omega, fun _ => ⟨r, readMatrixRow_iff.1 hr⟩⟩

theorem ptxHead_skip {T : FloatText α} {k : Nat} {l : Bytes} (h0 : k ≠ 0) (hk : k < 5) : PtxHeadLine T k l :=
  ⟨fun h => absurd h h0, fun h => by omega⟩

theorem ptxHead_norow {T : FloatText α} {k : Nat} {l : Bytes} (hk : 5 ≤ k) (h : readMatrixRow T l = none) : ¬PtxHeadLine T k l := by
  intro h'
  obtain ⟨r, hr⟩ := (ptxHead_line hk).1 h'
  simp [h] at hr

theorem ptxSkip_cases (ls : List Bytes) (i : Nat) :
    (ls = [] ∧ ptxSkip ls i = .error (.index i .LoadFileEndReached)) ∨ ∃ l rest, ls = l :: rest ∧ ptxSkip ls i = .ok rest := by
  cases ls with
  | nil => exact .inl ⟨rfl, rfl⟩
  | cons l rest => exact .inr ⟨l, rest, rfl, rfl⟩

theorem ptxRow_cases (T : FloatText α) (ls : List Bytes) (i : Nat) :
    (ls = [] ∧ ptxRow T ls i = .error (.index i .LoadFileEndReached)) ∨
    (∃ l rest, ls = l :: rest ∧ readMatrixRow T l = none ∧ ptxRow T ls i = .error (.line (i + 1) l .Matrix)) ∨
    ∃ l rest r, ls = l :: rest ∧ readMatrixRow T l = some r ∧ ptxRow T ls i = .ok (r, rest) := by
  cases ls with
  | nil => exact .inl ⟨rfl, rfl⟩
  | cons l rest =>
    cases h : readMatrixRow T l with
    | none => exact .inr (.inl ⟨l, rest, rfl, h, by simp [ptxRow, h]⟩)
    | some r => exact .inr (.inr ⟨l, rest, r, rfl, h, by simp [ptxRow, h]⟩)

theorem badHead_end {T : FloatText α} {a : List Bytes} {i : Nat} (hk : a.length < 9) (h : ∀ j l, a[j]? = some l → PtxHeadLine T j l) :
    PtxBadHead T a i (.index (i + a.length) .LoadFileEndReached) :=
  ⟨a.length, hk, fun j hj => ⟨a[j], by simp, h j _ (by simp)⟩, .inl ⟨by simp, rfl⟩⟩

theorem badHead_line {T : FloatText α} {a rest : List Bytes} {l : Bytes} {i : Nat} (hk : a.length < 9)
    (h : ∀ j l, a[j]? = some l → PtxHeadLine T j l) (hl : ¬PtxHeadLine T a.length l) :
    PtxBadHead T (a ++ l :: rest) i (.line (i + a.length + 1) l (if a.length = 0 then .Rows else .Matrix)) :=
  ⟨a.length, hk, fun j hj => ⟨a[j], by rw [List.getElem?_append_left hj]; simp, h j _ (by simp)⟩, .inr ⟨l, by simp, hl, rfl⟩⟩

theorem goodLines_snoc {T : FloatText α} {a : List Bytes} {l : Bytes} (h : ∀ j l, a[j]? = some l → PtxHeadLine T j l)
    (hl : PtxHeadLine T a.length l) : ∀ j l', (a ++ [l])[j]? = some l' → PtxHeadLine T j l' := by
  intro j l' hj
  rcases Nat.lt_trichotomy j a.length with h1 | h1 | h1
  · rw [List.getElem?_append_left h1] at hj
    exact h j l' hj
  · subst h1
    simp at hj
    exact hj ▸ hl
  · rw [List.getElem?_eq_none (by simp; omega)] at hj
    simp at hj

/-- `fetch_header` reads a header or fails -/
theorem ptxHeader_cases (T : FloatText α) (ls : List Bytes) (i : Nat) :
    (∃ e, ptxHeader T ls i = .error e ∧ PtxBadHead T ls i e) ∨
    ∃ lr s1 s2 s3 s4 m1 m2 m3 m4 rest rows, ∃ m : Matrix4 α, ls = lr :: s1 :: s2 :: s3 :: s4 :: m1 :: m2 :: m3 :: m4 :: rest ∧
      fromAscii parseNat lr = some rows ∧ RowWords T m1 (m.data 0) ∧ RowWords T m2 (m.data 1) ∧ RowWords T m3 (m.data 2) ∧ RowWords T m4 (m.data 3) := by
  have g0 : ∀ j l, ([] : List Bytes)[j]? = some l → PtxHeadLine T j l := by simp
  unfold ptxHeader
  cases ls with
  | nil => exact .inl ⟨_, rfl, badHead_end (a := []) (by simp) g0⟩
  | cons lr ls =>
    cases hr : fromAscii parseNat lr with
    | none =>
      refine .inl ⟨_, by simp only [ptxRows, hr, bind, Except.bind]; rfl, badHead_line (a := []) (by simp) g0 ?_⟩
      intro h
      obtain ⟨r, h⟩ := h.1 rfl
      simp [hr] at h
    | some rows =>
      simp only [ptxRows, hr, bind, Except.bind]
      have g1 := goodLines_snoc (T := T) (l := lr) g0 ⟨fun _ => ⟨rows, hr⟩, fun h => by simp at h⟩
      rcases ptxSkip_cases ls (i + 1) with ⟨rfl, e⟩ | ⟨s1, ls, rfl, e⟩
      · rw [e]; exact .inl ⟨_, rfl, badHead_end (by simp) g1⟩
      rw [e]; dsimp only
      have g2 := goodLines_snoc (l := s1) g1 (ptxHead_skip (by simp) (by simp))
      rcases ptxSkip_cases ls (i + 2) with ⟨rfl, e⟩ | ⟨s2, ls, rfl, e⟩
      · rw [e]; exact .inl ⟨_, rfl, badHead_end (by simp) g2⟩
      rw [e]; dsimp only
      have g3 := goodLines_snoc (l := s2) g2 (ptxHead_skip (by simp) (by simp))
      rcases ptxSkip_cases ls (i + 3) with ⟨rfl, e⟩ | ⟨s3, ls, rfl, e⟩
      · rw [e]; exact .inl ⟨_, rfl, badHead_end (by simp) g3⟩
      rw [e]; dsimp only
      have g4 := goodLines_snoc (l := s3) g3 (ptxHead_skip (by simp) (by simp))
      rcases ptxSkip_cases ls (i + 4) with ⟨rfl, e⟩ | ⟨s4, ls, rfl, e⟩
      · rw [e]; exact .inl ⟨_, rfl, badHead_end (by simp) g4⟩
      rw [e]; dsimp only
      have g5 := goodLines_snoc (l := s4) g4 (ptxHead_skip (by simp) (by simp))
      rcases ptxRow_cases T ls (i + 5) with ⟨rfl, e⟩ | ⟨m1, ls, rfl, hm, e⟩ | ⟨m1, ls, r1, rfl, h1, e⟩
      · rw [e]; exact .inl ⟨_, rfl, badHead_end (by simp) g5⟩
      · rw [e]; exact .inl ⟨_, rfl, badHead_line (by simp) g5 (ptxHead_norow (by simp) hm)⟩
      rw [e]; dsimp only
      have g6 := goodLines_snoc (l := m1) g5 ((ptxHead_line (by simp)).2 ⟨r1, h1⟩)
      rcases ptxRow_cases T ls (i + 6) with ⟨rfl, e⟩ | ⟨m2, ls, rfl, hm, e⟩ | ⟨m2, ls, r2, rfl, h2, e⟩
      · rw [e]; exact .inl ⟨_, rfl, badHead_end (by simp) g6⟩
      · rw [e]; exact .inl ⟨_, rfl, badHead_line (by simp) g6 (ptxHead_norow (by simp) hm)⟩
      rw [e]; dsimp only
      have g7 := goodLines_snoc (l := m2) g6 ((ptxHead_line (by simp)).2 ⟨r2, h2⟩)
      rcases ptxRow_cases T ls (i + 7) with ⟨rfl, e⟩ | ⟨m3, ls, rfl, hm, e⟩ | ⟨m3, ls, r3, rfl, h3, e⟩
      · rw [e]; exact .inl ⟨_, rfl, badHead_end (by simp) g7⟩
      · rw [e]; exact .inl ⟨_, rfl, badHead_line (by simp) g7 (ptxHead_norow (by simp) hm)⟩
      rw [e]; dsimp only
      have g8 := goodLines_snoc (l := m3) g7 ((ptxHead_line (by simp)).2 ⟨r3, h3⟩)
      rcases ptxRow_cases T ls (i + 8) with ⟨rfl, e⟩ | ⟨m4, ls, rfl, hm, e⟩ | ⟨m4, ls, r4, rfl, h4, e⟩
      · rw [e]; exact .inl ⟨_, rfl, badHead_end (by simp) g8⟩
      · rw [e]; exact .inl ⟨_, rfl, badHead_line (by simp) g8 (ptxHead_norow (by simp) hm)⟩
      exact .inr ⟨lr, s1, s2, s3, s4, m1, m2, m3, m4, ls, rows, ⟨![r1, r2, r3, r4]⟩, rfl, hr,
        readMatrixRow_iff.1 h1, readMatrixRow_iff.1 h2, readMatrixRow_iff.1 h3, readMatrixRow_iff.1 h4⟩

theorem badHead_unique {T : FloatText α} {ls : List Bytes} {i : Nat} {e e' : LineInfo PtxError} (h : PtxBadHead T ls i e) (h' : PtxBadHead T ls i e') :
    e = e' := by
  obtain ⟨k, hk, h1, h2⟩ := h
  obtain ⟨k', hk', h1', h2'⟩ := h'
  have no : ∀ {k k' : Nat} {e}, k < k' → (∀ j < k', ∃ l, ls[j]? = some l ∧ PtxHeadLine T j l) →
      ((ls[k]? = none ∧ e = LineInfo.index (i + k) PtxError.LoadFileEndReached) ∨ ∃ l, ls[k]? = some l ∧ ¬PtxHeadLine T k l ∧
        e = .line (i + k + 1) l (if k = 0 then .Rows else .Matrix)) → False := by
    intro k k' e hlt h1 h2
    obtain ⟨l, hl, hg⟩ := h1 k hlt
    rcases h2 with ⟨h2, -⟩ | ⟨l', h2, h3, -⟩
    · simp [hl] at h2
    · rw [hl] at h2
      exact h3 (Option.some.inj h2 ▸ hg)
  rcases Nat.lt_trichotomy k k' with h | rfl | h
  · exact (no h h1' h2).elim
  · rcases h2 with ⟨h2, rfl⟩ | ⟨l, h2, -, rfl⟩ <;> rcases h2' with ⟨h2', rfl⟩ | ⟨l', h2', -, rfl⟩
    · rfl
    · simp [h2] at h2'
    · simp [h2] at h2'
    · rw [h2] at h2'
      rw [Option.some.inj h2']
  · exact (no h h1 h2').elim

theorem ptxHeader_bad {T : FloatText α} {ls : List Bytes} {i : Nat} {e : LineInfo PtxError} (h : PtxBadHead T ls i e) : ptxHeader T ls i = .error e := by
  rcases ptxHeader_cases T ls i with ⟨e', h1, h2⟩ | ⟨lr, s1, s2, s3, s4, m1, m2, m3, m4, rest, rows, m, rfl, hr, h1, h2, h3, h4⟩
  · rw [h1, badHead_unique h h2]
  · exfalso
    obtain ⟨k, hk, -, h5⟩ := h
    have good : ∀ k < 9, ∃ l, (lr :: s1 :: s2 :: s3 :: s4 :: m1 :: m2 :: m3 :: m4 :: rest)[k]? = some l ∧ PtxHeadLine T k l := by
      intro k hk
      interval_cases k
      · exact ⟨lr, rfl, fun _ => ⟨rows, hr⟩, fun h => by simp at h⟩
      · exact ⟨s1, rfl, ptxHead_skip (by simp) (by simp)⟩
      · exact ⟨s2, rfl, ptxHead_skip (by simp) (by simp)⟩
      · exact ⟨s3, rfl, ptxHead_skip (by simp) (by simp)⟩
      · exact ⟨s4, rfl, ptxHead_skip (by simp) (by simp)⟩
      · exact ⟨m1, rfl, fun h => by simp at h, fun _ => ⟨_, h1⟩⟩
      · exact ⟨m2, rfl, fun h => by simp at h, fun _ => ⟨_, h2⟩⟩
      · exact ⟨m3, rfl, fun h => by simp at h, fun _ => ⟨_, h3⟩⟩
      · exact ⟨m4, rfl, fun h => by simp at h, fun _ => ⟨_, h4⟩⟩
    obtain ⟨l, hl, hg⟩ := good k hk
    rcases h5 with ⟨h5, -⟩ | ⟨l', h5, h6, -⟩
    · simp [hl] at h5
    · rw [hl] at h5
      exact h6 (Option.some.inj h5 ▸ hg)

theorem forEach_body [Scalar α] (T : FloatText α) (m : Matrix4 α) {body rest : List Bytes} {ps : List (Point3D α)}
    (hps : List.Forall₂ (VertexWords T) body ps) (i n N : Nat) (acc : List (Point3D α)) :
    forEach (ptxNext T) pushItem (body.length + N) ⟨body ++ rest, false, i, body.length + n, !(m.beq Matrix4.identity), m⟩ acc =
      forEach (ptxNext T) pushItem N ⟨rest, false, i + body.length, n, !(m.beq Matrix4.identity), m⟩ (acc ++ ps.map (placed m)) := by
  induction hps generalizing i acc with
  | nil => simp
  | @cons l p body ps hp _ ih =>
    have e : ptxNext T ⟨l :: body ++ rest, false, i, (l :: body).length + n, !(m.beq Matrix4.identity), m⟩ =
        some (some (.ok (.data (placed m p))), ⟨body ++ rest, false, i + 1, body.length + n, !(m.beq Matrix4.identity), m⟩) := by
      unfold ptxNext
      rw [if_neg (by simp), if_neg (by simp only [List.length_cons]; omega)]
      dsimp only [List.cons_append]
      rw [ptxFetchOne_ok m hp]
      have : (l :: body).length + n - 1 = body.length + n := by simp only [List.length_cons]; omega
      rw [this]
    rw [show (l :: body).length + N = (body.length + N) + 1 by simp only [List.length_cons]; omega]
    rw [forEach, e]
    dsimp only [pushItem]
    rw [ih]
    simp [Nat.add_assoc, Nat.add_comm 1]

/-- the lines of a scan: all its points, the end of the file, or a line that is no point -/
theorem body_cases (T : FloatText α) (n : Nat) (ls : List Bytes) :
    (∃ body rest ps, ls = body ++ rest ∧ List.Forall₂ (VertexWords T) body ps ∧ body.length = n) ∨
    (∃ ps, List.Forall₂ (VertexWords T) ls ps ∧ ls.length < n) ∨
    ∃ body bad rest ps, ls = body ++ bad :: rest ∧ List.Forall₂ (VertexWords T) body ps ∧ body.length < n ∧ ∀ p, ¬VertexWords T bad p := by
  induction n generalizing ls with
  | zero => exact .inl ⟨[], ls, [], rfl, .nil, rfl⟩
  | succ n ih =>
    cases ls with
    | nil => exact .inr (.inl ⟨[], .nil, by simp⟩)
    | cons l ls =>
      by_cases h : ∃ p, VertexWords T l p
      · obtain ⟨p, hp⟩ := h
        rcases ih ls with ⟨body, rest, ps, rfl, h1, h2⟩ | ⟨ps, h1, h2⟩ | ⟨body, bad, rest, ps, rfl, h1, h2, h3⟩
        · exact .inl ⟨l :: body, rest, p :: ps, rfl, .cons hp h1, by simp [h2]⟩
        · exact .inr (.inl ⟨p :: ps, .cons hp h1, by simp [h2]⟩)
        · exact .inr (.inr ⟨l :: body, bad, rest, p :: ps, rfl, .cons hp h1, by simp [h2], h3⟩)
      · exact .inr (.inr ⟨[], l, ls, [], rfl, .nil, by simp, fun p hp => h ⟨p, hp⟩⟩)

/-- every list of lines is such a file -/
theorem ptxFile_total [Scalar α] (T : FloatText α) (ls : List Bytes) (i : Nat) : ∃ pts out, PtxFile T i ls pts out := by
  induction hn : ls.length using Nat.strong_induction_on generalizing ls i with
  | _ n ih =>
    cases ls with
    | nil => exact ⟨_, _, .eof⟩
    | cons l rest =>
      cases hc : fromAscii parseNat l with
      | none => exact ⟨_, _, .columns hc⟩
      | some c =>
        rcases ptxHeader_cases T rest (i + 1) with ⟨e', -, h2⟩ | ⟨lr, s1, s2, s3, s4, m1, m2, m3, m4, rest, r, m, rfl, hr, h1, h2, h3, h4⟩
        · exact ⟨_, _, .header hc h2⟩
        · have hd : PtxHead T [l, lr, s1, s2, s3, s4, m1, m2, m3, m4] c r m := ⟨l, lr, s1, s2, s3, s4, m1, m2, m3, m4, rfl, hc, hr, h1, h2, h3, h4⟩
          by_cases ho : r * c < 2 ^ 64
          · rcases body_cases T (r * c) rest with ⟨body, rest, ps, rfl, hb, hl⟩ | ⟨ps, hb, hl⟩ | ⟨body, bad, rest, ps, rfl, hb, hl, hbad⟩
            · obtain ⟨more, out, h⟩ := ih rest.length (by rw [← hn]; simp only [List.length_cons, List.length_append]; omega) rest (i + 10 + body.length) rfl
              exact ⟨_, _, .scan hd ho hb hl h⟩
            · exact ⟨_, _, .cut hd ho hb hl⟩
            · exact ⟨_, _, .point hd ho hb hl hbad⟩
          · exact ⟨_, _, .overflow hd (not_lt.1 ho)⟩

theorem ptxFetchOne_bad [Scalar α] {T : FloatText α} {line : Bytes} (mt : Bool) (m : Matrix4 α) (h : ∀ p, ¬VertexWords T line p) :
    ptxFetchOne T line mt m = .error .Point := by
  unfold ptxFetchOne
  cases hv : vertexOf T PtxError.Point (toWords line) with
  | ok p => exact absurd ((vertexWords_iff (e := PtxError.Point)).1 hv) (h p)
  | error e => rw [vertexOf_error hv]

theorem forEach_file [Scalar α] (T : FloatText α) {i : Nat} {ls : List Bytes} {pts : List (Point3D α)} {out : Panics (Except (LineInfo PtxError) Unit)}
    (h : PtxFile T i ls pts out) (mt : Bool) (m0 : Matrix4 α) (N : Nat) (hN : ls.length < N) (acc : List (Point3D α)) :
    forEach (ptxNext T) pushItem N ⟨ls, false, i, 0, mt, m0⟩ acc = out.map fun r => (acc ++ pts, r) := by
  induction h generalizing mt m0 N acc with
  | eof =>
    obtain ⟨N, rfl⟩ : ∃ M, N = M + 1 := ⟨N - 1, by omega⟩
    simp [forEach, ptxNext]
  | columns hc =>
    obtain ⟨N, rfl⟩ : ∃ M, N = M + 1 := ⟨N - 1, by omega⟩
    simp [forEach, ptxNext, hc]
  | header hc hb =>
    obtain ⟨N, rfl⟩ : ∃ M, N = M + 1 := ⟨N - 1, by omega⟩
    simp [forEach, ptxNext, hc, ptxHeader_bad hb]
  | overflow hd ho =>
    obtain ⟨N, rfl⟩ : ∃ M, N = M + 1 := ⟨N - 1, by omega⟩
    obtain ⟨lc, lr, s1, s2, s3, s4, m1, m2, m3, m4, rfl, hc, hr, h1, h2, h3, h4⟩ := hd
    have e : ¬ _ := not_lt.2 ho
    rw [forEach]
    simp only [ptxNext, List.cons_append, List.nil_append, Bool.false_eq_true, if_false, if_true, hc, ptxHeader_ok hr h1 h2 h3 h4, if_neg e]
    rfl
  | @cut i c r hd body m ps hd ho hb hl =>
    obtain ⟨lc, lr, s1, s2, s3, s4, m1, m2, m3, m4, rfl, hc, hr, h1, h2, h3, h4⟩ := hd
    obtain ⟨N, rfl⟩ : ∃ M, N = (body.length + (M + 1)) + 1 := ⟨N - body.length - 2, by simp only [List.length_append, List.length_cons] at hN; omega⟩
    obtain ⟨n, hn⟩ : ∃ n, r * c = body.length + (n + 1) := ⟨r * c - body.length - 1, by omega⟩
    rw [forEach]
    simp only [List.cons_append, List.nil_append]
    rw [ptx_scan_head T hc hr h1 h2 h3 h4 ho i mt m0]
    dsimp only [pushItem]
    have := forEach_body T m (rest := []) hb (i + 10) (n + 1) (N + 1) acc
    rw [List.append_nil] at this
    rw [hn, this, forEach]
    simp [ptxNext]
  | @point i c r hd body rest bad m ps hd ho hb hl hbad =>
    obtain ⟨lc, lr, s1, s2, s3, s4, m1, m2, m3, m4, rfl, hc, hr, h1, h2, h3, h4⟩ := hd
    obtain ⟨N, rfl⟩ : ∃ M, N = (body.length + (M + 1)) + 1 := ⟨N - body.length - 2, by simp only [List.length_append, List.length_cons] at hN; omega⟩
    obtain ⟨n, hn⟩ : ∃ n, r * c = body.length + (n + 1) := ⟨r * c - body.length - 1, by omega⟩
    rw [forEach]
    simp only [List.cons_append, List.nil_append]
    rw [ptx_scan_head T hc hr h1 h2 h3 h4 ho i mt m0]
    dsimp only [pushItem]
    rw [hn, forEach_body T m hb (i + 10) (n + 1) (N + 1) acc, forEach]
    simp [ptxNext, ptxFetchOne_bad _ _ hbad]
  | @scan i c r hd body rest m ps more out hd ho hb hl _ ih =>
    obtain ⟨lc, lr, s1, s2, s3, s4, m1, m2, m3, m4, rfl, hc, hr, h1, h2, h3, h4⟩ := hd
    simp only [List.length_append, List.length_cons] at hN
    obtain ⟨N, rfl⟩ : ∃ M, N = (body.length + M) + 1 := ⟨N - body.length - 1, by omega⟩
    rw [forEach]
    simp only [List.cons_append, List.nil_append]
    rw [ptx_scan_head T hc hr h1 h2 h3 h4 ho i mt m0]
    dsimp only [pushItem]
    have := forEach_body T m (rest := rest) hb (i + 10) 0 N acc
    simp only [Nat.add_zero] at this
    rw [← hl, this, ih _ _ _ (by omega)]
    simp [List.append_assoc]

/-- **C82**: for every file, whether it follows the format or not, the points, the error and whether loading panics are those of
the file; and every file is such a file. -/
theorem c82_exact [Scalar α] (T : FloatText α) (input : Bytes) :
    (∃ pts out, PtxFile T 0 (lines input) pts out) ∧
    ∀ pts out, PtxFile T 0 (lines input) pts out → loadPtx T input = out.map fun r => (pts, r) :=
  ⟨ptxFile_total T _ 0, fun pts out h => by
    have := forEach_file T h false Matrix4.identity ((lines input).length + 1) (by omega) []
    rw [loadPtx, PtxIter.new, this, List.nil_append]⟩

/-- a scan of one point, then a line that is no number -/
def exampleScanBroken : Bytes := b!"1\n1\n0 0 0\n1 0 0\n0 1 0\n0 0 1\n1 0 0 10\n0 1 0 0\n0 0 1 0\n0 0 0 1\n1 2 3 50\nx\n"

/-- the hypothesis of `c82_exact` is met by a scan with a point that is followed by a line that is no number -/
example : ∃ pts, PtxFile natF64 0 (lines exampleScanBroken) pts (some (.error (.index 12 .Columns))) ∧ pts.length = 1 := by
  have e : lines exampleScanBroken = [b!"1", b!"1", b!"0 0 0", b!"1 0 0", b!"0 1 0", b!"0 0 1", b!"1 0 0 10", b!"0 1 0 0", b!"0 0 1 0", b!"0 0 0 1"] ++
      ([b!"1 2 3 50"] ++ [b!"x"]) := by decide +kernel
  rw [e]
  refine ⟨_, .scan (c := 1) (r := 1) (m := exampleScanMatrix) (ps := [⟨f 1, f 2, f 3⟩])
    ⟨_, _, _, _, _, _, _, _, _, _, rfl, by decide +kernel, by decide +kernel, ?_, ?_, ?_, ?_⟩ (by decide) ?_ rfl (.columns (by decide +kernel)), rfl⟩
  · exact readMatrixRow_iff.1 (by decide +kernel)
  · exact readMatrixRow_iff.1 (by decide +kernel)
  · exact readMatrixRow_iff.1 (by decide +kernel)
  · exact readMatrixRow_iff.1 (by decide +kernel)
  · exact .cons ((vertexWords_iff (e := PtxError.Point)).1 (by decide +kernel)) .nil

end R3D

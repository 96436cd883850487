import Verif.Model.TextLoad
import Verif.Props.Text
/-!
C57 (round trip of .xy / .xyz files) and C58 (malformed .xy / .xyz files).
-/
namespace R3D
open Spec

variable {α : Type}

/-! ### specifications -/

/-- the words of a line separated by `d`: three (two) numbers come first -/
def Spec.XyzLine (T : FloatText α) (d : UInt8) (line : Bytes) (p : Point3D α) : Prop :=
  ∃ wx wy wz ws, WordsOf (fun b => b == d) line (wx :: wy :: wz :: ws) ∧
    fromAscii T.parse wx = some p.x ∧ fromAscii T.parse wy = some p.y ∧ fromAscii T.parse wz = some p.z

/-- two numbers come first -/
def Spec.XyLine (T : FloatText α) (d : UInt8) (line : Bytes) (p : Point2D α) : Prop :=
  ∃ wx wy ws, WordsOf (fun b => b == d) line (wx :: wy :: ws) ∧
    fromAscii T.parse wx = some p.x ∧ fromAscii T.parse wy = some p.y

/-- Loading the lines `ls`: `k` lines are well formed (`Line d`, with the delimiter `d` taken from the first line), their
points are pushed in order, and unless the lines end there the next line is malformed and reported. -/
def Spec.LoadsLines {P : Type} (Line : UInt8 → Bytes → P → Prop) (minCount : Nat) (ls : List Bytes)
    (pts : List P) (r : Except (LineInfo XyzError) Unit) : Prop :=
  match ls with
  | [] => pts = [] ∧ r = .ok ()
  | first :: _ =>
    ((∀ d ∈ b!" ;,\t", first.count d < minCount) ∧ pts = [] ∧ r = .error (.line 1 first .EstimateDelimiter)) ∨
    ∃ d pre post, b!" ;,\t" = pre ++ d :: post ∧ minCount ≤ first.count d ∧ (∀ c ∈ pre, first.count c < minCount) ∧
      ∃ good, List.Forall₂ (Line d) good pts ∧
        ((ls = good ∧ r = .ok ()) ∨
          ∃ bad rest, ls = good ++ bad :: rest ∧ (¬∃ p, Line d bad p) ∧ r = .error (.line (good.length + 1) bad .Vertex))

/-! ### proofs -/

theorem nthNum_words {β : Type} {parse : Bytes → Option β} {ws : List Bytes} {n : Nat} {x : β} :
    nthNum parse ws n = some x ↔ ∃ w, ws[n]? = some w ∧ fromAscii parse w = some x := by
  unfold nthNum
  rw [Option.bind_eq_some_iff]

theorem words_iff {p : UInt8 → Bool} {line : Bytes} {ws : List Bytes} :
    skipEmpty (splitP p line) = ws ↔ WordsOf p line ws := by
  constructor
  · intro h
    obtain ⟨ws', h'⟩ := wordsOf_exists p line
    rw [words_of h'] at h
    exact h ▸ h'
  · exact words_of

theorem vertexOf_ok {ε : Type} {T : FloatText α} {e : ε} {ws : List Bytes} {p : Point3D α} :
    vertexOf T e ws = .ok p ↔ ∃ wx wy wz r, ws = wx :: wy :: wz :: r ∧ fromAscii T.parse wx = some p.x ∧
      fromAscii T.parse wy = some p.y ∧ fromAscii T.parse wz = some p.z := by
  unfold vertexOf
  constructor
  · intro h
    split at h
    · rename_i x y z hx hy hz
      cases h
      rw [nthNum_words] at hx hy hz
      obtain ⟨wx, ex, hx⟩ := hx
      obtain ⟨wy, ey, hy⟩ := hy
      obtain ⟨wz, ez, hz⟩ := hz
      match ws, ex, ey, ez with
      | a :: b :: c :: r, ex, ey, ez =>
        simp at ex ey ez
        subst ex ey ez
        exact ⟨_, _, _, _, rfl, hx, hy, hz⟩
    · cases h
  · rintro ⟨wx, wy, wz, r, rfl, hx, hy, hz⟩
    obtain ⟨x, y, z⟩ := p
    simp only [nthNum, List.getElem?_cons_zero, List.getElem?_cons_succ, Option.bind_some, hx, hy, hz]

theorem vertexOf_error {ε : Type} {T : FloatText α} {e e' : ε} {ws : List Bytes} (h : vertexOf T e ws = .error e') : e' = e := by
  unfold vertexOf at h
  split at h
  · cases h
  · cases h; rfl

/-- the decision taken for one line, for a known delimiter -/
structure LineLoad {P : Type} (fetchOne : Option UInt8 → Bytes → Option UInt8 × Except XyzError P)
    (Line : UInt8 → Bytes → P → Prop) (n : Nat) : Prop where
  ok : ∀ d line p, Line d line p → fetchOne (some d) line = (some d, .ok p)
  bad : ∀ d line, (¬∃ p, Line d line p) → fetchOne (some d) line = (some d, .error .Vertex)
  first : ∀ d line, estimateDelimiter n line = some d → fetchOne none line = fetchOne (some d) line
  none : ∀ line, estimateDelimiter n line = .none → fetchOne .none line = (.none, .error .EstimateDelimiter)

theorem lineLoad_xyz (T : FloatText α) : LineLoad (xyzFetchOne T) (XyzLine T) 2 where
  ok := by
    rintro d line p ⟨wx, wy, wz, r, hw, hx, hy, hz⟩
    simp only [xyzFetchOne]
    rw [vertexOf_ok.2 ⟨wx, wy, wz, r, words_iff.2 hw, hx, hy, hz⟩]
  bad := by
    intro d line h
    simp only [xyzFetchOne]
    cases hv : vertexOf T XyzError.Vertex (skipEmpty (splitP (fun b => b == d) line)) with
    | error e => rw [vertexOf_error hv]
    | ok p =>
      obtain ⟨wx, wy, wz, r, hw, h3⟩ := vertexOf_ok.1 hv
      exact absurd ⟨p, wx, wy, wz, r, words_iff.1 hw, h3⟩ h
  first := by
    intro d line h
    simp only [xyzFetchOne, h]
  none := by
    intro line h
    simp only [xyzFetchOne, h]

theorem lineLoad_xy (T : FloatText α) : LineLoad (xyFetchOne T) (XyLine T) 1 where
  ok := by
    rintro d line ⟨x, y⟩ ⟨wx, wy, r, hw, hx, hy⟩
    simp only [xyFetchOne]
    rw [words_iff.2 hw]
    simp only [nthNum, List.getElem?_cons_zero, List.getElem?_cons_succ, Option.bind_some, hx, hy]
  bad := by
    intro d line h
    simp only [xyFetchOne]
    split
    · rename_i x y hx hy
      exfalso
      apply h
      rw [nthNum_words] at hx hy
      obtain ⟨wx, ex, hx⟩ := hx
      obtain ⟨wy, ey, hy⟩ := hy
      cases hws : skipEmpty (splitP (fun b => b == d) line) with
      | nil => rw [hws] at ex; simp at ex
      | cons a ws =>
        cases ws with
        | nil => rw [hws] at ey; simp at ey
        | cons b r =>
          rw [hws] at ex ey
          simp at ex ey
          subst ex ey
          exact ⟨⟨x, y⟩, a, b, r, words_iff.1 hws, hx, hy⟩
    · rfl
  first := by
    intro d line h
    simp only [xyFetchOne, h]
  none := by
    intro line h
    simp only [xyFetchOne, h]

section
variable {P : Type} {fetchOne : Option UInt8 → Bytes → Option UInt8 × Except XyzError P}
  {Line : UInt8 → Bytes → P → Prop} {n : Nat}

/-- once the delimiter is known -/
theorem drain_known (hl : LineLoad fetchOne Line n) (d : UInt8) (ls : List Bytes) (i : Nat) (fuel : Nat)
    (hf : ls.length < fuel) : ∃ pts r, drain (XyzIter.next fetchOne) fuel ⟨ls, false, i, some d⟩ = some (pts, r) ∧
      ∃ good, List.Forall₂ (Line d) good pts ∧
        ((ls = good ∧ r = .ok ()) ∨
          ∃ bad rest, ls = good ++ bad :: rest ∧ (¬∃ p, Line d bad p) ∧ r = .error (.line (i + good.length + 1) bad .Vertex)) := by
  induction ls generalizing i fuel with
  | nil =>
    obtain ⟨fuel, rfl⟩ := Nat.exists_eq_succ_of_ne_zero (Nat.ne_of_gt (Nat.zero_lt_of_lt hf))
    refine ⟨[], .ok (), ?_, [], .nil, .inl ⟨rfl, rfl⟩⟩
    simp [drain, XyzIter.next]
  | cons l ls ih =>
    obtain ⟨fuel, rfl⟩ := Nat.exists_eq_succ_of_ne_zero (Nat.ne_of_gt (Nat.zero_lt_of_lt hf))
    rw [List.length_cons] at hf
    by_cases hp : ∃ p, Line d l p
    · obtain ⟨p, hp⟩ := hp
      obtain ⟨pts, r, h1, good, h2, h3⟩ := ih (i + 1) fuel (by omega)
      refine ⟨p :: pts, r, ?_, l :: good, .cons hp h2, ?_⟩
      · simp only [drain, XyzIter.next, hl.ok d l p hp]
        simp [h1]
      · rcases h3 with ⟨rfl, h⟩ | ⟨bad, rest, rfl, hb, rfl⟩
        · exact .inl ⟨rfl, h⟩
        · refine .inr ⟨bad, rest, rfl, hb, ?_⟩
          rw [List.length_cons, show i + 1 + good.length + 1 = i + (good.length + 1) + 1 by omega]
    · refine ⟨[], .error (.line (i + 1) l .Vertex), ?_, [], .nil, .inr ⟨l, ls, rfl, hp, rfl⟩⟩
      simp [drain, XyzIter.next, hl.bad d l hp]

theorem drain_lines (hl : LineLoad fetchOne Line n) (input : Bytes) :
    ∃ pts r, drain (XyzIter.next fetchOne) ((lines input).length + 1) (XyzIter.new input) = some (pts, r) ∧
      LoadsLines Line n (lines input) pts r := by
  unfold XyzIter.new
  cases hls : lines input with
  | nil => exact ⟨[], .ok (), by simp [drain, XyzIter.next], rfl, rfl⟩
  | cons l ls =>
    cases he : estimateDelimiter n l with
    | none =>
      refine ⟨[], .error (.line 1 l .EstimateDelimiter), ?_, .inl ⟨?_, rfl, rfl⟩⟩
      · simp [drain, XyzIter.next, hl.none l he]
      · unfold estimateDelimiter at he
        rw [List.find?_eq_none] at he
        intro d hd
        have := he d hd
        simp only [ge_iff_le, decide_eq_true_eq, not_le] at this
        rwa [← List.count_eq_length_filter] at this
    | some d =>
      obtain ⟨pre, post, e1, e2, e3⟩ := (c72_delimiter n l d).1 he
      obtain ⟨pts, r, h1, good, h2, h3⟩ := drain_known hl d (l :: ls) 0 (ls.length + 1 + 1) (by simp)
      refine ⟨pts, r, ?_, .inr ⟨d, pre, post, e1, e2, e3, good, h2, ?_⟩⟩
      · rw [List.length_cons, ← h1]
        have e : XyzIter.next fetchOne ⟨l :: ls, false, 0, none⟩ = XyzIter.next fetchOne ⟨l :: ls, false, 0, some d⟩ := by
          simp [XyzIter.next, hl.first d l he]
        rw [drain, drain, e]
      · simpa using h3
end

/-- C58: loading any .xyz file never runs out of its loop; the points of the well formed lines before the first malformed
one have been pushed, and the malformed line is reported with its number. -/
theorem c58_xyz (T : FloatText α) (input : Bytes) : ∃ pts r, loadXyz T input = some (pts, r) ∧
    LoadsLines (XyzLine T) 2 (lines input) pts r :=
  drain_lines (lineLoad_xyz T) input

/-- C58 for .xy files -/
theorem c58_xy (T : FloatText α) (input : Bytes) : ∃ pts r, loadXy T input = some (pts, r) ∧
    LoadsLines (XyLine T) 1 (lines input) pts r :=
  drain_lines (lineLoad_xy T) input

/-- a file with a malformed third line -/
example : loadXyz natText b!"1 2 3\n4 5 6\n7 8\n9 9 9\n" =
    some ([⟨1, 2, 3⟩, ⟨4, 5, 6⟩], .error (.line 3 b!"7 8" .Vertex)) := by decide +kernel

/-- C58: an iterator that has returned an error or the end returns the end from then on. -/
theorem c58_fused {P : Type} (fetchOne : Option UInt8 → Bytes → Option UInt8 × Except XyzError P) (s : XyzIter) :
    ((XyzIter.next fetchOne s).1 = none ∨ ∃ e, (XyzIter.next fetchOne s).1 = some (.error e)) →
      (XyzIter.next fetchOne (XyzIter.next fetchOne s).2).1 = none := by
  intro h
  have hd : (XyzIter.next fetchOne s).2.isDone = true := by
    revert h
    unfold XyzIter.next
    split
    · intro _; assumption
    · split
      · intro _; rfl
      · dsimp only
        split
        · rintro (h | ⟨e, h⟩) <;> simp at h
        · intro _; rfl
  generalize (XyzIter.next fetchOne s).2 = t at *
  unfold XyzIter.next
  simp [hd]

/-! ### round trip -/

/-- separators between coordinates the loader can detect: one delimiter, at least once -/
def Spec.DelimCoord (d : UInt8) (s : Bytes) : Prop := d ∈ b!" ;,\t" ∧ s ≠ [] ∧ ∀ b ∈ s, b = d

/-- separators between points: white space up to a line break -/
def Spec.DelimPos (s : Bytes) : Prop := ∃ w, s = w ++ [10] ∧ ∀ b ∈ w, b ∈ wsBytes ∧ b ≠ 10

theorem fmt_props {T : FloatText α} {ok : α → Prop} (hT : T.Lawful ok) {x : α} (hx : ok x) {d : UInt8} (hd : d ∈ b!" ;,\t") :
    T.fmt x ≠ [] ∧ (∀ b ∈ T.fmt x, (b == d) = false) ∧ (∀ b ∈ T.fmt x, b ∉ b!" ;,\t") ∧ (∀ b ∈ T.fmt x, b ∉ wsBytes) ∧
      (10 : UInt8) ∉ T.fmt x := by
  have h1 : ∀ b ∈ T.fmt x, b ∉ b!" ;,\t" ∧ b ∉ wsBytes := by
    intro b hb
    obtain ⟨_, h2, h3⟩ := isNumByte_spec b (hT.fmt_bytes x hx b hb)
    constructor
    · intro h
      apply h3
      simp only [List.mem_cons, List.not_mem_nil, or_false] at h ⊢
      tauto
    · intro h
      rw [(isWs_iff b).2 h] at h2
      cases h2
  refine ⟨hT.fmt_ne x hx, ?_, fun b hb => (h1 b hb).1, fun b hb => (h1 b hb).2, ?_⟩
  · intro b hb
    by_contra hc
    rw [Bool.not_eq_false, beq_iff_eq] at hc
    exact (h1 b hb).1 (hc ▸ hd)
  · intro h
    exact (h1 10 h).2 (by decide)

theorem mem_delims_cases {d : UInt8} (hd : d ∈ b!" ;,\t") : d ≠ 10 := by
  rintro rfl
  revert hd
  decide

theorem getLast?_not_ws {T : FloatText α} {ok : α → Prop} (hT : T.Lawful ok) {x : α} (hx : ok x) (s : Bytes) (b : UInt8)
    (h : (s ++ T.fmt x).getLast? = some b) : b ∉ wsBytes := by
  rw [List.getLast?_append_of_ne_nil _ (hT.fmt_ne x hx)] at h
  exact (fmt_props hT hx (d := 32) (by decide)).2.2.2.1 b (List.mem_of_getLast? h)

theorem count_delims {d c : UInt8} (hc : c ∈ b!" ;,\t") (hcd : c ≠ d) {s : Bytes} (hs : ∀ b ∈ s, b = d ∨ b ∉ b!" ;,\t") :
    s.count c = 0 := by
  rw [List.count_eq_zero]
  intro h
  rcases hs c h with h | h
  · exact hcd h
  · exact h hc

theorem count_all {d : UInt8} {s : Bytes} (hne : s ≠ []) (hs : ∀ b ∈ s, b = d) : 1 ≤ s.count d := by
  cases s with
  | nil => exact absurd rfl hne
  | cons b s => rw [hs b (by simp)]; simp

/-- the delimiter is recognised in every line whose only delimiter bytes are `d`, at least `n` times -/
theorem estimate_of {d : UInt8} (hd : d ∈ b!" ;,\t") {line : Bytes} {n : Nat} (hn : 0 < n) (h1 : n ≤ line.count d)
    (h2 : ∀ b ∈ line, b = d ∨ b ∉ b!" ;,\t") : estimateDelimiter n line = some d := by
  rw [c72_delimiter]
  obtain ⟨pre, post, e⟩ := List.append_of_mem hd
  refine ⟨pre, post, e, h1, ?_⟩
  intro c hc
  have hnd : (b!" ;,\t").Nodup := by decide
  rw [e] at hnd
  have hcd : c ≠ d := by
    rintro rfl
    rw [List.nodup_append] at hnd
    exact hnd.2.2 c hc c (by simp) rfl
  have : c ∈ b!" ;,\t" := by rw [e]; simp [hc]
  rw [count_delims this hcd h2]
  exact hn

theorem wordsOf_last {p : UInt8 → Bool} {w : Bytes} (hne : w ≠ []) (hw : ∀ b ∈ w, p b = false) : WordsOf p w [w] := by
  have := WordsOf.cons (p := p) (pre := []) (w := w) (rest := []) (ws := []) (by simp) hne hw (by simp) (.nil (by simp))
  simpa using this

theorem wordsOf_next {p : UInt8 → Bool} {w sep rest : Bytes} {ws : List Bytes} (hne : w ≠ []) (hw : ∀ b ∈ w, p b = false)
    (hs : sep ≠ []) (hsep : ∀ b ∈ sep, p b = true) (h : WordsOf p rest ws) : WordsOf p (w ++ sep ++ rest) (w :: ws) := by
  have hrest : WordsOf p (sep ++ rest) ws := by
    rw [← words_iff, words_blank sep hsep]
    exact words_iff.2 h
  have := WordsOf.cons (p := p) (pre := []) (w := w) (rest := sep ++ rest) (ws := ws) (by simp) hne hw (by
    intro b hb
    cases sep with
    | nil => exact absurd rfl hs
    | cons x sep => simp at hb; exact hsep b (by simp [hb])) hrest
  simpa [List.append_assoc] using this

/-- the text of one point without the line end -/
def line3 (T : FloatText α) (dc : Bytes) (p : Point3D α) : Bytes := T.fmt p.x ++ dc ++ T.fmt p.y ++ dc ++ T.fmt p.z
/-- the text of one point without the line end -/
def line2 (T : FloatText α) (dc : Bytes) (p : Point2D α) : Bytes := T.fmt p.x ++ dc ++ T.fmt p.y

theorem lines_save {P : Type} (text : P → Bytes) (pts : List P) (dp : Bytes) (hdp : DelimPos dp)
    (hnl : ∀ p ∈ pts, (10 : UInt8) ∉ text p) (hlast : ∀ p ∈ pts, ∀ b, (text p).getLast? = some b → b ∉ wsBytes) :
    lines (pts.flatMap fun p => text p ++ dp) = pts.map text := by
  obtain ⟨w, rfl, hw⟩ := hdp
  have e : (pts.flatMap fun p => text p ++ (w ++ [10])) = (pts.map fun p => text p ++ w).flatMap nl := by
    rw [List.flatMap_map]
    simp [nl, List.append_assoc]
  rw [e]
  apply c56_lines_partial.1
  · intro c hc
    obtain ⟨p, hp, rfl⟩ := List.mem_map.1 hc
    rw [List.mem_append, not_or]
    exact ⟨hnl p hp, fun h => (hw 10 h).2 rfl⟩
  · rw [List.forall₂_map_left_iff, List.forall₂_map_right_iff, List.forall₂_same]
    exact fun p hp => ⟨w, rfl, fun b hb => (hw b hb).1, hlast p hp⟩

/-- what is loaded if the delimiter is recognised and all lines are fine -/
theorem loads_all {P : Type} {Line : UInt8 → Bytes → P → Prop} {n : Nat} {d : UInt8} {text : P → Bytes} {pts pts' : List P}
    {r : Except (LineInfo XyzError) Unit} (h : LoadsLines Line n (pts.map text) pts' r)
    (hd : ∀ p ∈ pts, estimateDelimiter n (text p) = some d) (hL : ∀ p ∈ pts, ∀ q, Line d (text p) q ↔ q = p) :
    pts' = pts ∧ r = .ok () := by
  cases pts with
  | nil => exact h
  | cons p0 rest =>
    rw [List.map_cons] at h
    have hd0 := hd p0 (by simp)
    rcases h with ⟨h1, -, -⟩ | ⟨d', pre, post, e1, e2, e3, good, hg, h⟩
    · exfalso
      obtain ⟨pre, post, e1, e2, -⟩ := (c72_delimiter n (text p0) d).1 hd0
      have := h1 d (by rw [e1]; simp)
      omega
    · have : estimateDelimiter n (text p0) = some d' := (c72_delimiter n (text p0) d').2 ⟨pre, post, e1, e2, e3⟩
      rw [hd0] at this
      cases this
      rcases h with ⟨hgood, hr⟩ | ⟨bad, rest', hbad, hb, -⟩
      · refine ⟨?_, hr⟩
        subst hgood
        rw [← List.map_cons] at hg
        generalize p0 :: rest = l at *
        clear * - hg hL
        induction l generalizing pts' with
        | nil => cases hg; rfl
        | cons p l ih =>
          rw [List.map_cons] at hg
          cases hg with
          | cons h1 h2 =>
            rw [(hL p (by simp) _).1 h1, ih (fun q hq => hL q (by simp [hq])) h2]
      · exfalso
        have : bad ∈ (p0 :: rest).map text := by rw [List.map_cons, hbad]; simp
        obtain ⟨p, hp, rfl⟩ := List.mem_map.1 this
        exact hb ⟨p, (hL p hp p).2 rfl⟩

/-- C57: every list of points written with `save_xyz` is loaded again, for every coordinate delimiter the loader detects and
every line end; the assumptions about Rust's number formatting are those of `FloatText.Lawful`. -/
theorem c57_xyz (T : FloatText α) (ok : α → Prop) (hT : T.Lawful ok) (pts : List (Point3D α))
    (hok : ∀ p ∈ pts, ok p.x ∧ ok p.y ∧ ok p.z) (d : UInt8) (dc dp : Bytes) (hdc : DelimCoord d dc) (hdp : DelimPos dp) :
    loadXyz T (saveXyz T pts dc dp) = some (pts, .ok ()) := by
  obtain ⟨pts', r, h1, h2⟩ := c58_xyz T (saveXyz T pts dc dp)
  obtain ⟨hd, hne, hall⟩ := hdc
  have hdn : (10 : UInt8) ∉ dc := fun h => mem_delims_cases hd (hall 10 h).symm
  have e : lines (saveXyz T pts dc dp) = pts.map (line3 T dc) := by
    apply lines_save (line3 T dc) pts dp hdp
    · intro p hp
      obtain ⟨ox, oy, oz⟩ := hok p hp
      simp only [line3, List.mem_append, not_or]
      exact ⟨⟨⟨⟨(fmt_props hT ox hd).2.2.2.2, hdn⟩, (fmt_props hT oy hd).2.2.2.2⟩, hdn⟩, (fmt_props hT oz hd).2.2.2.2⟩
    · intro p hp b hb
      exact getLast?_not_ws hT (hok p hp).2.2 _ b hb
  rw [e] at h2
  obtain ⟨rfl, rfl⟩ := loads_all (d := d) h2 (by
    intro p hp
    obtain ⟨ox, oy, oz⟩ := hok p hp
    apply estimate_of hd (by norm_num)
    · have := count_all hne hall
      simp only [line3, List.count_append]
      omega
    · intro b hb
      simp only [line3, List.mem_append] at hb
      rcases hb with (((hb | hb) | hb) | hb) | hb
      · exact .inr ((fmt_props hT ox hd).2.2.1 b hb)
      · exact .inl (hall b hb)
      · exact .inr ((fmt_props hT oy hd).2.2.1 b hb)
      · exact .inl (hall b hb)
      · exact .inr ((fmt_props hT oz hd).2.2.1 b hb)) (by
    intro p hp q
    obtain ⟨ox, oy, oz⟩ := hok p hp
    obtain ⟨nx, wx, -⟩ := fmt_props hT ox hd
    obtain ⟨ny, wy, -⟩ := fmt_props hT oy hd
    obtain ⟨nz, wz, -⟩ := fmt_props hT oz hd
    have hdc' : ∀ b ∈ dc, (b == d) = true := fun b hb => by rw [beq_iff_eq]; exact hall b hb
    have hw : WordsOf (fun b => b == d) (line3 T dc p) [T.fmt p.x, T.fmt p.y, T.fmt p.z] := by
      have := wordsOf_next (p := fun b => b == d) nx wx hne hdc' (wordsOf_next (p := fun b => b == d) ny wy hne hdc'
        (wordsOf_last (p := fun b => b == d) nz wz))
      simpa [line3, List.append_assoc] using this
    constructor
    · rintro ⟨vx, vy, vz, ws, hv, hx, hy, hz⟩
      have := (words_of hw).symm.trans (words_of hv)
      simp only [List.cons.injEq] at this
      obtain ⟨rfl, rfl, rfl, -⟩ := this
      rw [hT.fromAscii _ ox] at hx
      rw [hT.fromAscii _ oy] at hy
      rw [hT.fromAscii _ oz] at hz
      cases p; cases q
      simp only [Option.some.injEq] at hx hy hz
      simp [← hx, ← hy, ← hz]
    · rintro rfl
      exact ⟨_, _, _, _, hw, hT.fromAscii _ ox, hT.fromAscii _ oy, hT.fromAscii _ oz⟩)
  exact h1

/-- C57 for .xy files -/
theorem c57_xy (T : FloatText α) (ok : α → Prop) (hT : T.Lawful ok) (pts : List (Point2D α))
    (hok : ∀ p ∈ pts, ok p.x ∧ ok p.y) (d : UInt8) (dc dp : Bytes) (hdc : DelimCoord d dc) (hdp : DelimPos dp) :
    loadXy T (saveXy T pts dc dp) = some (pts, .ok ()) := by
  obtain ⟨pts', r, h1, h2⟩ := c58_xy T (saveXy T pts dc dp)
  obtain ⟨hd, hne, hall⟩ := hdc
  have hdn : (10 : UInt8) ∉ dc := fun h => mem_delims_cases hd (hall 10 h).symm
  have e : lines (saveXy T pts dc dp) = pts.map (line2 T dc) := by
    apply lines_save (line2 T dc) pts dp hdp
    · intro p hp
      obtain ⟨ox, oy⟩ := hok p hp
      simp only [line2, List.mem_append, not_or]
      exact ⟨⟨(fmt_props hT ox hd).2.2.2.2, hdn⟩, (fmt_props hT oy hd).2.2.2.2⟩
    · intro p hp b hb
      exact getLast?_not_ws hT (hok p hp).2 _ b hb
  rw [e] at h2
  obtain ⟨rfl, rfl⟩ := loads_all (d := d) h2 (by
    intro p hp
    obtain ⟨ox, oy⟩ := hok p hp
    apply estimate_of hd (by norm_num)
    · have := count_all hne hall
      simp only [line2, List.count_append]
      omega
    · intro b hb
      simp only [line2, List.mem_append] at hb
      rcases hb with (hb | hb) | hb
      · exact .inr ((fmt_props hT ox hd).2.2.1 b hb)
      · exact .inl (hall b hb)
      · exact .inr ((fmt_props hT oy hd).2.2.1 b hb)) (by
    intro p hp q
    obtain ⟨ox, oy⟩ := hok p hp
    obtain ⟨nx, wx, -⟩ := fmt_props hT ox hd
    obtain ⟨ny, wy, -⟩ := fmt_props hT oy hd
    have hdc' : ∀ b ∈ dc, (b == d) = true := fun b hb => by rw [beq_iff_eq]; exact hall b hb
    have hw : WordsOf (fun b => b == d) (line2 T dc p) [T.fmt p.x, T.fmt p.y] := by
      have := wordsOf_next (p := fun b => b == d) nx wx hne hdc' (wordsOf_last (p := fun b => b == d) ny wy)
      simpa [line2, List.append_assoc] using this
    constructor
    · rintro ⟨vx, vy, ws, hv, hx, hy⟩
      have := (words_of hw).symm.trans (words_of hv)
      simp only [List.cons.injEq] at this
      obtain ⟨rfl, rfl, -⟩ := this
      rw [hT.fromAscii _ ox] at hx
      rw [hT.fromAscii _ oy] at hy
      cases p; cases q
      simp only [Option.some.injEq] at hx hy
      simp [← hx, ← hy]
    · rintro rfl
      exact ⟨_, _, _, hw, hT.fromAscii _ ox, hT.fromAscii _ oy⟩)
  exact h1

/-- two points, semicolons and Windows line ends -/
example : ∃ (pts : List (Point3D Nat)) (dc dp : Bytes), pts = [⟨1, 2, 3⟩, ⟨10, 20, 30⟩] ∧ dc = b!";" ∧ dp = b!"\r\n" ∧
    natText.Lawful (fun n => n < 2 ^ 64) ∧ (∀ p ∈ pts, p.x < 2 ^ 64 ∧ p.y < 2 ^ 64 ∧ p.z < 2 ^ 64) ∧ DelimCoord 59 dc ∧ DelimPos dp :=
  ⟨_, _, _, rfl, rfl, rfl, natText_lawful, by decide, ⟨by decide, by decide, by decide⟩, ⟨b!"\r", rfl, by decide⟩⟩

/-- a comma followed by a blank is not recognised: the blank is taken as the delimiter -/
theorem c57_mixed : ∃ pts : List (Point3D Nat), pts = [⟨1, 2, 3⟩] ∧
    loadXyz natText (saveXyz natText pts b!", " b!"\n") = some ([], .error (.line 1 b!"1, 2, 3" .Vertex)) := by
  refine ⟨_, rfl, ?_⟩; decide +kernel

end R3D

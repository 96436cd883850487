import Verif.Props.Layout
import Verif.Props.Join
/-!
C132: the layout of a text file does not matter: which lines without meaning it has and how the words of a line are separated.
-/
namespace R3D
open Scalar Spec

variable {α : Type}

/-! ### specification -/

/-- the file with these lines -/
def Spec.textOf (cs : List Bytes) : Bytes := cs.flatMap fun c => c ++ [10]

/-- the line without the white space at its end -/
def Spec.trimEnd (c : Bytes) : Bytes := (c.reverse.dropWhile fun b => decide (b ∈ wsBytes)).reverse

/-- what separates words -/
def Spec.blankByte (b : UInt8) : Bool := decide (b ∈ b!" \t")

/-- the two lines have the same words -/
def Spec.SameWords (c d : Bytes) : Prop := ∃ ws, WordsOf blankByte (trimEnd c) ws ∧ WordsOf blankByte (trimEnd d) ws

/-- both lines start with a blank, or none -/
def Spec.SameIndent (c d : Bytes) : Prop := (∃ b r, c = b :: r ∧ blankByte b = true) ↔ ∃ b r, d = b :: r ∧ blankByte b = true

/-- what is loaded and which error is reported, but for the number and the text of the line -/
def Spec.outcome {μ ε : Type} (r : Panics (μ × Except (LineInfo ε) Unit)) : Option (μ × Except ε Unit) :=
  r.map fun r => (r.1, r.2.mapError LineInfo.err)

/-- lines of a .pts file that are not blank -/
def Spec.ptsMatters (c : Bytes) : Bool := !(trimEnd c).isEmpty

/-- lines of an .off file that are neither blank nor comments -/
def Spec.offMatters (c : Bytes) : Bool := !(trimEnd c).isEmpty && (trimEnd c).head? != some 35

/-- lines of an .obj file that give a vertex or a face -/
def Spec.objMatters (c : Bytes) : Bool := b!"v ".isPrefixOf (trimEnd c) || b!"f ".isPrefixOf (trimEnd c)

/-- lines of an .obj file that give a vertex -/
def Spec.objPointMatters (c : Bytes) : Bool := b!"v ".isPrefixOf (trimEnd c)

/-- lines of a .gcode file that are G commands -/
def Spec.gcodeMatters (c : Bytes) : Bool := c.head? == some 71

/-! ### lines -/

theorem trimEnd_spec (c : Bytes) : Trimmed c (trimEnd c) := by
  obtain ⟨w, h1, h2, h3⟩ := dropWhile_reverse_spec (fun b => decide (b ∈ wsBytes)) c
  exact ⟨w, h1, fun b hb => by simpa using h2 b hb, fun b hb => by simpa using h3 b hb⟩

theorem cleanLine_trimEnd (c : Bytes) : cleanLine (nl c) = trimEnd c := cleanLine_nl _ _ (trimEnd_spec c)

theorem lines_textOf (cs : List Bytes) (h : ∀ c ∈ cs, (10 : UInt8) ∉ c) : lines (textOf cs) = cs.map trimEnd := by
  have := lines_flatMap cs [] h
  simp only [List.append_nil] at this
  show lines (cs.flatMap nl) = _
  rw [this]
  simp [lines, rawLines, cleanLine_trimEnd]

theorem toWords_of {l : Bytes} {ws : List Bytes} (h : WordsOf blankByte l ws) : toWords l = ws := (c72_words l ws).2 h

theorem toWords_same {c d : Bytes} (h : SameWords c d) : toWords (trimEnd c) = toWords (trimEnd d) := by
  obtain ⟨ws, h1, h2⟩ := h
  rw [toWords_of h1, toWords_of h2]

theorem forall₂_lines {R : Bytes → Bytes → Prop} {S : Bytes → Bytes → Prop} (p q : Bytes → Bool) (hpq : ∀ c, p c = q (trimEnd c))
    (hRS : ∀ c d, R c d → p c = true → p d = true → S (trimEnd c) (trimEnd d)) {cs ds : List Bytes} (h : List.Forall₂ R (cs.filter p) (ds.filter p)) :
    List.Forall₂ S ((cs.map trimEnd).filter q) ((ds.map trimEnd).filter q) := by
  have e : ∀ cs : List Bytes, (cs.map trimEnd).filter q = (cs.filter p).map trimEnd := by
    intro cs
    rw [List.filter_map]
    congr 1
    apply List.filter_congr
    intro c _
    exact (hpq c).symm
  rw [e, e, List.forall₂_map_left_iff, List.forall₂_map_right_iff]
  have hp : ∀ cs : List Bytes, ∀ c ∈ cs.filter p, p c = true := fun cs c hc => (List.mem_filter.1 hc).2
  have hl := hp cs
  have hr := hp ds
  revert h hl hr
  generalize cs.filter p = xs
  generalize ds.filter p = ys
  intro h
  induction h with
  | nil => intro _ _; exact .nil
  | cons h1 _ ih =>
    intro hl hr
    exact .cons (hRS _ _ h1 (hl _ (by simp)) (hr _ (by simp))) (ih (fun c hc => hl c (by simp [hc])) fun c hc => hr c (by simp [hc]))

/-- the first element a filter keeps -/
theorem filter_split {β : Type} (p : β → Bool) (ls : List β) : (ls.filter p = [] ∧ ∀ x ∈ ls, p x = false) ∨
    ∃ pre l post, ls = pre ++ l :: post ∧ (∀ x ∈ pre, p x = false) ∧ p l = true ∧ ls.filter p = l :: post.filter p := by
  induction ls with
  | nil => left; simp
  | cons x ls ih =>
    cases hx : p x with
    | true => right; exact ⟨[], x, ls, rfl, by simp, hx, by simp [hx]⟩
    | false =>
      rcases ih with ⟨h1, h2⟩ | ⟨pre, l, post, h1, h2, h3, h4⟩
      · left
        refine ⟨by simp [hx, h1], ?_⟩
        intro y hy
        rcases List.mem_cons.1 hy with rfl | hy
        · exact hx
        · exact h2 y hy
      · right
        refine ⟨x :: pre, l, post, by rw [h1]; rfl, ?_, h3, by simp [hx, h4]⟩
        intro y hy
        rcases List.mem_cons.1 hy with rfl | hy
        · exact hx
        · exact h2 y hy

/-! ### .pts -/

/-- two iterators that see the same words -/
def PtsSame (s t : PtsIter) : Prop :=
  s.isDone = false ∧ t.isDone = false ∧ s.nVertices = t.nVertices ∧ s.nVerticesAdded = t.nVerticesAdded ∧
  List.Forall₂ (fun l l' => toWords l = toWords l') (s.lines.filter fun l => !l.isEmpty) (t.lines.filter fun l => !l.isEmpty)

theorem ptsNext_skip (T : FloatText α) (pre ls : List Bytes) (h : ∀ l ∈ pre, (!l.isEmpty) = false) (i : Nat) (nv : Option Nat) (na : Nat) :
    ptsNext T ⟨pre ++ ls, false, i, nv, na⟩ = ptsNext T ⟨ls, false, i + pre.length, nv, na⟩ := by
  induction pre generalizing i with
  | nil => rfl
  | cons l pre ih =>
    rw [List.cons_append, ptsNext_empty T (by simpa using h l (by simp)), ih (fun l hl => h l (by simp [hl]))]
    simp only [List.length_cons]
    congr 2
    omega

/-- what follows from the same step of both iterators -/
def SameStep {σ τ ε ι : Type} (R : σ → τ → Prop) (len : σ → Nat) (len' : τ → Nat) (s : σ) (t : τ)
    (x : Option (Except (LineInfo ε) ι) × σ) (y : Option (Except (LineInfo ε) ι) × τ) : Prop :=
  (∃ s' t', x = (none, s') ∧ y = (none, t')) ∨
  (∃ e e' s' t', x = (some (.error e), s') ∧ y = (some (.error e'), t') ∧ LineInfo.err e = LineInfo.err e') ∨
  (∃ a s' t', x = (some (.ok a), s') ∧ y = (some (.ok a), t') ∧ R s' t' ∧ len s' < len s ∧ len' t' < len' t)

theorem forEach_sameStep {σ τ ε ι μ : Type} {R : σ → τ → Prop} {next : σ → Option (Except (LineInfo ε) ι) × σ}
    {next' : τ → Option (Except (LineInfo ε) ι) × τ} {push : μ → ι → μ × Except (LineInfo ε) Unit} (len : σ → Nat) (len' : τ → Nat)
    (step : ∀ s t, R s t → SameStep R len len' s t (next s) (next' t)) (n n' : Nat) (s : σ) (t : τ) (m : μ) (h : R s t) (hn : len s < n) (hn' : len' t < n') :
    outcome (forEach (fun s => some (next s)) push n s m) = outcome (forEach (fun s => some (next' s)) push n' t m) := by
  refine forEach_same (R := R) LineInfo.err len len' ?_ n n' s t m h hn hn'
  intro s t h
  right
  rcases step s t h with ⟨s', t', h1, h2⟩ | ⟨e, e', s', t', h1, h2, h3⟩ | ⟨a, s', t', h1, h2, h3⟩
  · left; exact ⟨s', t', by rw [h1], by rw [h2]⟩
  · right; left; exact ⟨e, e', s', t', by rw [h1], by rw [h2], h3⟩
  · right; right; exact ⟨a, s', t', by rw [h1], by rw [h2], h3⟩

theorem drain_sameStep {σ τ ε ι : Type} {R : σ → τ → Prop} {next : σ → Option (Except (LineInfo ε) ι) × σ}
    {next' : τ → Option (Except (LineInfo ε) ι) × τ} (len : σ → Nat) (len' : τ → Nat)
    (step : ∀ s t, R s t → SameStep R len len' s t (next s) (next' t)) (n n' : Nat) (s : σ) (t : τ) (h : R s t) (hn : len s < n) (hn' : len' t < n') :
    outcome (drain next n s) = outcome (drain next' n' t) := by
  have h1 := drain_eq_forEach next n s []
  have h2 := drain_eq_forEach next' n' t []
  simp only [List.nil_append, Option.map_id'] at h1 h2
  rw [h1, h2]
  exact forEach_sameStep len len' step n n' s t [] h hn hn'

theorem ptsLine_same (T : FloatText α) {l l' : Bytes} (hl : toWords l = toWords l') {s t : PtsIter} (h : PtsSame s t) :
    SameStep PtsSame (fun s => s.lines.length) (fun s => s.lines.length) ⟨l :: s.lines, s.isDone, s.iLine, s.nVertices, s.nVerticesAdded⟩
      ⟨l' :: t.lines, t.isDone, t.iLine, t.nVertices, t.nVerticesAdded⟩ (ptsLine T l s) (ptsLine T l' t) := by
  obtain ⟨sl, sd, si, sv, sa⟩ := s
  obtain ⟨tl, td, ti, tv, ta⟩ := t
  obtain ⟨h1, h2, h3, h4, h5⟩ := h
  dsimp only at h1 h2 h3 h4 h5
  subst h1 h2 h3 h4
  unfold ptsLine
  rw [hl]
  dsimp only
  have hok : ∀ (a : Item (Point3D α)) (v w : Option Nat) (k : Nat), SameStep PtsSame (fun s => s.lines.length) (fun s => s.lines.length) ⟨l :: sl, false, si, sv, sa⟩
      ⟨l' :: tl, false, ti, sv, sa⟩ ((some (.ok a) : Option (Except (LineInfo PtsError) (Item (Point3D α)))), ⟨sl, false, si, v, k⟩) (some (.ok a), ⟨tl, false, ti, v, k⟩) := by
    intro a v w k
    right; right
    exact ⟨a, _, _, rfl, rfl, ⟨rfl, rfl, rfl, rfl, h5⟩, by simp, by simp⟩
  cases sv with
  | none =>
    dsimp only
    cases nthNum parseNat (toWords l') 0 with
    | none => right; left; exact ⟨_, _, _, _, rfl, rfl, rfl⟩
    | some n => exact hok _ _ none _
  | some n =>
    dsimp only
    split_ifs
    · rcases vertexOf T PtsError.Vertex (toWords l') with e | p
      · right; left; exact ⟨_, _, _, _, rfl, rfl, rfl⟩
      · exact hok _ _ none _
    · cases nthNum parseNat (toWords l') 0 with
      | none => right; left; exact ⟨_, _, _, _, rfl, rfl, rfl⟩
      | some n => exact hok _ _ none _

theorem ptsNext_same (T : FloatText α) (s t : PtsIter) (h : PtsSame s t) :
    SameStep PtsSame (fun s => s.lines.length) (fun s => s.lines.length) s t (ptsNext T s) (ptsNext T t) := by
  obtain ⟨sl, sd, si, sv, sa⟩ := s
  obtain ⟨tl, td, ti, tv, ta⟩ := t
  obtain ⟨h1, h2, h3, h4, h5⟩ := h
  dsimp only at h1 h2 h3 h4 h5
  subst h1 h2 h3 h4
  rcases filter_split (fun l : Bytes => !l.isEmpty) sl with ⟨e1, e2⟩ | ⟨pre, l, post, e1, e2, e3, e4⟩
  · rw [e1] at h5
    have h6 := List.forall₂_nil_left_iff.1 h5
    rcases filter_split (fun l : Bytes => !l.isEmpty) tl with ⟨f1, f2⟩ | ⟨pre', l', post', f1, f2, f3, f4⟩
    · left
      have g1 := ptsNext_skip T sl [] e2 si sv sa
      have g2 := ptsNext_skip T tl [] f2 ti sv sa
      rw [List.append_nil] at g1 g2
      rw [g1, g2]
      exact ⟨_, _, rfl, rfl⟩
    · rw [f4] at h6; cases h6
  · rcases filter_split (fun l : Bytes => !l.isEmpty) tl with ⟨f1, f2⟩ | ⟨pre', l', post', f1, f2, f3, f4⟩
    · rw [e4, f1] at h5; cases h5
    · rw [e4, f4] at h5
      obtain ⟨h6, h7⟩ := List.forall₂_cons.1 h5
      rw [e1, f1, ptsNext_skip T pre _ e2, ptsNext_skip T pre' _ f2, ptsNext_line T (by simpa using e3), ptsNext_line T (by simpa using f3)]
      have := ptsLine_same T h6 (s := ⟨post, false, si + pre.length + 1, sv, sa⟩) (t := ⟨post', false, ti + pre'.length + 1, sv, sa⟩)
        ⟨rfl, rfl, rfl, rfl, h7⟩
      rcases this with h | h | ⟨a, s', t', g1, g2, g3, g4, g5⟩
      · exact .inl h
      · exact .inr (.inl h)
      · refine .inr (.inr ⟨a, s', t', g1, g2, g3, ?_, ?_⟩)
        · simp only [List.length_append, List.length_cons] at g4 ⊢; omega
        · simp only [List.length_append, List.length_cons] at g5 ⊢; omega

/-- **C132** for .pts files: blank lines, the ends of the lines and the spacing of the words have no effect -/
theorem c132_pts (T : FloatText α) (cs ds : List Bytes) (hc : ∀ c ∈ cs, (10 : UInt8) ∉ c) (hd : ∀ c ∈ ds, (10 : UInt8) ∉ c)
    (h : List.Forall₂ SameWords (cs.filter ptsMatters) (ds.filter ptsMatters)) :
    outcome (loadPts T (textOf cs)) = outcome (loadPts T (textOf ds)) := by
  unfold loadPts
  rw [lines_textOf cs hc, lines_textOf ds hd]
  refine forEach_sameStep (R := PtsSame) (fun s => s.lines.length) (fun s => s.lines.length) (ptsNext_same T) _ _ _ _ _
    ⟨rfl, rfl, rfl, rfl, ?_⟩ (by simp) (by simp)
  exact forall₂_lines (R := SameWords) ptsMatters (fun l => !l.isEmpty) (fun c => rfl) (fun c d h _ _ => toWords_same h) h

/-! ### .off -/

/-- a line of an .off file that is not skipped -/
def offKept (l : Bytes) : Bool := !l.isEmpty && !startsWith l b!"#"

/-- two lines of an .off file with the same meaning -/
def OffLine (l l' : Bytes) : Prop := toWords l = toWords l' ∧ startsWith l b!"OFF" = startsWith l' b!"OFF"

/-- two iterators that see the same words -/
def OffSame (s t : OffMeshIter) : Prop :=
  s.isDone = false ∧ t.isDone = false ∧ s.offSeen = t.offSeen ∧ s.counts = t.counts ∧ s.nVerticesAdded = t.nVerticesAdded ∧
  List.Forall₂ OffLine (s.lines.filter offKept) (t.lines.filter offKept)

/-- the loops of the two iterators of .off files, the `line` being what they do with a line -/
def offLoopWith {β : Type} (line : Bytes → OffMeshIter → β × OffMeshIter) (done : β) : List Bytes → OffMeshIter → β × OffMeshIter
  | [], s => (done, { s with lines := [], isDone := true })
  | l :: rest, s =>
    let s := { s with lines := rest, iLine := s.iLine + 1 }
    if !s.offSeen && startsWith l b!"OFF" then offLoopWith line done rest { s with offSeen := true }
    else if l.isEmpty || startsWith l b!"#" then offLoopWith line done rest s
    else line l s

theorem offMeshLoop_with (T : FloatText α) (ls : List Bytes) (s : OffMeshIter) : offMeshLoop T ls s = offLoopWith (offMeshLine T) none ls s := by
  induction ls generalizing s with
  | nil => rfl
  | cons l ls ih => unfold offMeshLoop offLoopWith; simp only [ih]

theorem offPointsLoop_with (T : FloatText α) (ls : List Bytes) (s : OffMeshIter) : offPointsLoop T ls s = offLoopWith (offPointsLine T) none ls s := by
  induction ls generalizing s with
  | nil => rfl
  | cons l ls ih => unfold offPointsLoop offLoopWith; simp only [ih]

theorem offKept_not {l : Bytes} (h : offKept l = false) : (l.isEmpty || startsWith l b!"#") = true ∧ startsWith l b!"OFF" = false := by
  unfold offKept at h
  cases l with
  | nil => exact ⟨rfl, rfl⟩
  | cons b l =>
    simp only [List.isEmpty_cons, Bool.not_false, Bool.true_and, Bool.not_eq_false'] at h
    refine ⟨by simp [h], ?_⟩
    simp only [startsWith, List.isPrefixOf, Bool.and_eq_true, beq_iff_eq, and_true] at h
    subst h
    rfl

theorem offKept_yes {l : Bytes} (h : offKept l = true) : (l.isEmpty || startsWith l b!"#") = false := by
  unfold offKept at h
  cases h1 : l.isEmpty <;> cases h2 : startsWith l b!"#" <;> simp_all

/-- both loops do the same when their treatment of single lines is the same -/
theorem offLoop_same {ι : Type} {line : Bytes → OffMeshIter → Option (Except (LineInfo OffError) ι) × OffMeshIter} {N N' : Nat}
    (hline : ∀ l l' s t, OffLine l l' → OffSame s t → s.lines.length < N → t.lines.length < N' →
      (∃ s' t', line l s = (none, s') ∧ line l' t = (none, t')) ∨
      (∃ e e' s' t', line l s = (some (.error e), s') ∧ line l' t = (some (.error e'), t') ∧ LineInfo.err e = LineInfo.err e') ∨
      (∃ a s' t', line l s = (some (.ok a), s') ∧ line l' t = (some (.ok a), t') ∧ OffSame s' t' ∧ s'.lines.length < N ∧ t'.lines.length < N')) :
    ∀ (k : Nat) (ls ls' : List Bytes) (s t : OffMeshIter), ls.length + ls'.length ≤ k → ls.length ≤ N → ls'.length ≤ N' → s.isDone = false → t.isDone = false →
      s.offSeen = t.offSeen → s.counts = t.counts → s.nVerticesAdded = t.nVerticesAdded → List.Forall₂ OffLine (ls.filter offKept) (ls'.filter offKept) →
      (∃ s' t', offLoopWith line none ls s = (none, s') ∧ offLoopWith line none ls' t = (none, t')) ∨
      (∃ e e' s' t', offLoopWith line none ls s = (some (.error e), s') ∧ offLoopWith line none ls' t = (some (.error e'), t') ∧ LineInfo.err e = LineInfo.err e') ∨
      (∃ a s' t', offLoopWith line none ls s = (some (.ok a), s') ∧ offLoopWith line none ls' t = (some (.ok a), t') ∧ OffSame s' t' ∧ s'.lines.length < N ∧ t'.lines.length < N') := by
  intro k
  induction k with
  | zero =>
    intro ls ls' s t hk _ _ h1 h2 h3 h4 h5 h6
    have e1 : ls = [] := List.eq_nil_of_length_eq_zero (by omega)
    have e2 : ls' = [] := List.eq_nil_of_length_eq_zero (by omega)
    subst e1 e2
    left; exact ⟨_, _, rfl, rfl⟩
  | succ k ih =>
    intro ls ls' s t hk hN hN' h1 h2 h3 h4 h5 h6
    -- a line that is skipped
    by_cases hskip : ∃ l ls1, ls = l :: ls1 ∧ offKept l = false
    · obtain ⟨l, ls1, rfl, hl⟩ := hskip
      obtain ⟨g1, g2⟩ := offKept_not hl
      have : offLoopWith line none (l :: ls1) s = offLoopWith line none ls1 { s with lines := ls1, iLine := s.iLine + 1 } := by
        conv_lhs => unfold offLoopWith
        simp only [g2, Bool.and_false, Bool.false_eq_true, if_false, g1, if_true]
      rw [this]
      rw [List.filter_cons_of_neg (by simp [hl])] at h6
      simp only [List.length_cons] at hk hN
      exact ih ls1 ls' _ t (by omega) (by omega) hN' h1 h2 h3 h4 h5 h6
    by_cases hskip' : ∃ l ls1, ls' = l :: ls1 ∧ offKept l = false
    · obtain ⟨l, ls1, rfl, hl⟩ := hskip'
      obtain ⟨g1, g2⟩ := offKept_not hl
      have : offLoopWith line none (l :: ls1) t = offLoopWith line none ls1 { t with lines := ls1, iLine := t.iLine + 1 } := by
        conv_lhs => unfold offLoopWith
        simp only [g2, Bool.and_false, Bool.false_eq_true, if_false, g1, if_true]
      rw [this]
      rw [List.filter_cons_of_neg (by simp [hl])] at h6
      simp only [List.length_cons] at hk hN'
      exact ih ls ls1 s _ (by omega) hN (by omega) h1 h2 h3 h4 h5 h6
    -- now both start with a line that is kept
    cases ls with
    | nil =>
      cases ls' with
      | nil => left; exact ⟨_, _, rfl, rfl⟩
      | cons l' ls1' =>
        have hl' : offKept l' = true := by
          by_contra hc
          exact hskip' ⟨l', ls1', rfl, by simpa using hc⟩
        rw [List.filter_cons_of_pos hl'] at h6
        cases h6
    | cons l ls1 =>
      have hl : offKept l = true := by
        by_contra hc
        exact hskip ⟨l, ls1, rfl, by simpa using hc⟩
      rw [List.filter_cons_of_pos hl] at h6
      cases ls' with
      | nil => cases h6
      | cons l' ls1' =>
        have hl' : offKept l' = true := by
          by_contra hc
          exact hskip' ⟨l', ls1', rfl, by simpa using hc⟩
        rw [List.filter_cons_of_pos hl'] at h6
        obtain ⟨h7, h8⟩ := List.forall₂_cons.1 h6
        simp only [List.length_cons] at hk hN hN'
        unfold offLoopWith
        simp only [offKept_yes hl, offKept_yes hl', Bool.false_eq_true, if_false]
        rw [← h3, ← h7.2]
        by_cases hoff : (!s.offSeen && startsWith l b!"OFF") = true
        · rw [if_pos hoff, if_pos hoff]
          exact ih ls1 ls1' _ _ (by omega) (by omega) (by omega) h1 h2 rfl h4 h5 h8
        · rw [if_neg hoff, if_neg hoff]
          exact hline l l' _ _ h7 ⟨h1, h2, rfl, h4, h5, h8⟩ (by dsimp only; omega) (by dsimp only; omega)

theorem offMeshLine_same (T : FloatText α) {N N' : Nat} : ∀ l l' s t, OffLine l l' → OffSame s t → s.lines.length < N → t.lines.length < N' →
      (∃ s' t', offMeshLine T l s = (none, s') ∧ offMeshLine T l' t = (none, t')) ∨
      (∃ e e' s' t', offMeshLine T l s = (some (.error e), s') ∧ offMeshLine T l' t = (some (.error e'), t') ∧ LineInfo.err e = LineInfo.err e') ∨
      (∃ a s' t', offMeshLine T l s = (some (.ok a), s') ∧ offMeshLine T l' t = (some (.ok a), t') ∧ OffSame s' t' ∧ s'.lines.length < N ∧ t'.lines.length < N') := by
  rintro l l' ⟨sl, sd, si, so, sc, sa⟩ ⟨tl, td, ti, tof, tc, ta⟩ ⟨hl, -⟩ ⟨h1, h2, h3, h4, h5, h6⟩ hN hN'
  dsimp only at h1 h2 h3 h4 h5 h6 hN hN'
  subst h1 h2 h3 h4 h5
  right
  unfold offMeshLine offFetchCounts offFetchVertex offFetchFace
  rw [hl]
  dsimp only
  cases sc with
  | none =>
    dsimp only
    cases nthNum parseNat (toWords l') 0 with
    | none => left; exact ⟨_, _, _, _, rfl, rfl, rfl⟩
    | some v =>
      dsimp only
      cases nthNum parseNat (toWords l') 1 with
      | none => left; exact ⟨_, _, _, _, rfl, rfl, rfl⟩
      | some f => right; exact ⟨_, _, _, rfl, rfl, ⟨rfl, rfl, rfl, rfl, rfl, h6⟩, hN, hN'⟩
  | some c =>
    obtain ⟨nv, nf⟩ := c
    dsimp only
    split_ifs
    · rcases vertexOf T OffError.Vertex (toWords l') with e | p
      · left; exact ⟨_, _, _, _, rfl, rfl, rfl⟩
      · right; exact ⟨_, _, _, rfl, rfl, ⟨rfl, rfl, rfl, rfl, rfl, h6⟩, hN, hN'⟩
    · cases toWords l' with
      | nil => left; exact ⟨_, _, _, _, rfl, rfl, rfl⟩
      | cons count words =>
        dsimp only
        split_ifs
        · rcases nthNum parseNat words 0 with _ | a
          · left; exact ⟨_, _, _, _, rfl, rfl, rfl⟩
          rcases nthNum parseNat words 1 with _ | b
          · left; exact ⟨_, _, _, _, rfl, rfl, rfl⟩
          rcases nthNum parseNat words 2 with _ | c
          · left; exact ⟨_, _, _, _, rfl, rfl, rfl⟩
          · right; exact ⟨_, _, _, rfl, rfl, ⟨rfl, rfl, rfl, rfl, rfl, h6⟩, hN, hN'⟩
        · left; exact ⟨_, _, _, _, rfl, rfl, rfl⟩

theorem offPointsLine_same (T : FloatText α) {N N' : Nat} : ∀ l l' s t, OffLine l l' → OffSame s t → s.lines.length < N → t.lines.length < N' →
      (∃ s' t', offPointsLine T l s = (none, s') ∧ offPointsLine T l' t = (none, t')) ∨
      (∃ e e' s' t', offPointsLine T l s = (some (.error e), s') ∧ offPointsLine T l' t = (some (.error e'), t') ∧ LineInfo.err e = LineInfo.err e') ∨
      (∃ a s' t', offPointsLine T l s = (some (.ok a), s') ∧ offPointsLine T l' t = (some (.ok a), t') ∧ OffSame s' t' ∧ s'.lines.length < N ∧ t'.lines.length < N') := by
  rintro l l' ⟨sl, sd, si, so, sc, sa⟩ ⟨tl, td, ti, tof, tc, ta⟩ ⟨hl, -⟩ ⟨h1, h2, h3, h4, h5, h6⟩ hN hN'
  dsimp only at h1 h2 h3 h4 h5 h6 hN hN'
  subst h1 h2 h3 h4 h5
  unfold offPointsLine offFetchVertex
  rw [hl]
  dsimp only
  cases sc with
  | none =>
    dsimp only
    right
    cases nthNum parseNat (toWords l') 0 with
    | none => left; exact ⟨_, _, _, _, rfl, rfl, rfl⟩
    | some v => right; exact ⟨_, _, _, rfl, rfl, ⟨rfl, rfl, rfl, rfl, rfl, h6⟩, hN, hN'⟩
  | some c =>
    obtain ⟨nv, nf⟩ := c
    dsimp only
    split_ifs
    · right
      rcases vertexOf T OffError.Vertex (toWords l') with e | p
      · left; exact ⟨_, _, _, _, rfl, rfl, rfl⟩
      · right; exact ⟨_, _, _, rfl, rfl, ⟨rfl, rfl, rfl, rfl, rfl, h6⟩, hN, hN'⟩
    · left; exact ⟨_, _, rfl, rfl⟩

/-- keywords without blanks at the beginning of a line are at the beginning of its first word -/
theorem startsWith_words {k c d : Bytes} (hk : k ≠ []) (hb : ∀ b ∈ k, blankByte b = false) (h : SameWords c d) (hi : SameIndent (trimEnd c) (trimEnd d)) :
    startsWith (trimEnd c) k = startsWith (trimEnd d) k := by
  obtain ⟨ws, h1, h2⟩ := h
  have key : ∀ {l ws}, WordsOf blankByte l ws → (startsWith l k = true ↔ (¬ ∃ b r, l = b :: r ∧ blankByte b = true) ∧ ∃ w ws', ws = w :: ws' ∧ k <+: w) := by
    intro l ws h
    unfold startsWith
    rw [List.isPrefixOf_iff_prefix]
    cases h with
    | nil h =>
      constructor
      · rintro ⟨r, rfl⟩
        exfalso
        obtain ⟨b, hm⟩ := List.exists_mem_of_ne_nil k hk
        have := h b (by simp [hm])
        rw [hb b hm] at this
        cases this
      · rintro ⟨-, w, ws', h1, -⟩
        cases h1
    | @cons pre w rest ws h1 h2 h3 h4 h5 =>
      constructor
      · intro h
        cases pre with
        | nil =>
          rw [List.nil_append] at h ⊢
          refine ⟨?_, w, ws, rfl, prefix_word (X := fun b => blankByte b = true) h (fun b hm => by simp [hb b hm]) h4⟩
          rintro ⟨b, r, e, hbb⟩
          cases w with
          | nil => exact h2 rfl
          | cons x w =>
            rw [List.cons_append] at e
            cases e
            rw [h3 _ (by simp)] at hbb
            cases hbb
        | cons x pre =>
          exfalso
          cases k with
          | nil => exact hk rfl
          | cons b k =>
            rw [List.cons_append, List.cons_append, List.cons_prefix_cons] at h
            have := h1 x (by simp)
            rw [← h.1, hb b (by simp)] at this
            cases this
      · rintro ⟨hn, w', ws', e, hp⟩
        cases e
        cases pre with
        | nil =>
          obtain ⟨r, rfl⟩ := hp
          exact ⟨r ++ rest, by simp⟩
        | cons x pre => exact absurd ⟨x, _, rfl, h1 x (by simp)⟩ hn
  have a1 := key h1
  have a2 := key h2
  have hi : (∃ b r, trimEnd c = b :: r ∧ blankByte b = true) ↔ ∃ b r, trimEnd d = b :: r ∧ blankByte b = true := hi
  rw [Bool.eq_iff_iff, a1, a2, hi]

theorem sameIndent_trim {c d : Bytes} (h : SameIndent c d) (hc : trimEnd c ≠ []) (hd : trimEnd d ≠ []) : SameIndent (trimEnd c) (trimEnd d) := by
  have key : ∀ {c : Bytes}, trimEnd c ≠ [] → ((∃ b r, trimEnd c = b :: r ∧ blankByte b = true) ↔ ∃ b r, c = b :: r ∧ blankByte b = true) := by
    intro c hc
    obtain ⟨w, h1, -, -⟩ := trimEnd_spec c
    constructor
    · rintro ⟨b, r, h2, h3⟩
      refine ⟨b, r ++ w, ?_, h3⟩
      rw [h1, h2]; rfl
    · rintro ⟨b, r, h2, h3⟩
      cases ht : trimEnd c with
      | nil => exact absurd ht hc
      | cons x t =>
        rw [ht, h2] at h1
        rw [List.cons_append] at h1
        refine ⟨x, t, rfl, ?_⟩
        rw [← (List.cons.inj h1).1]; exact h3
  unfold SameIndent
  rw [key hc, key hd]
  exact h

theorem offMatters_kept (c : Bytes) : offMatters c = offKept (trimEnd c) := by
  unfold offMatters offKept
  cases trimEnd c with
  | nil => rfl
  | cons b l =>
    by_cases hb : b = 35
    · subst hb; simp [startsWith, List.isPrefixOf]
    · have : ((35 : UInt8) == b) = false := by simpa using Ne.symm hb
      simp [startsWith, List.isPrefixOf, hb, this]

/-- **C132** for .off files: blank lines and comments, the ends of the lines and the spacing of the words have no effect -/
theorem c132_off (T : FloatText α) (cs ds : List Bytes) (hc : ∀ c ∈ cs, (10 : UInt8) ∉ c) (hd : ∀ c ∈ ds, (10 : UInt8) ∉ c)
    (h : List.Forall₂ (fun c d => SameWords c d ∧ SameIndent c d) (cs.filter offMatters) (ds.filter offMatters)) :
    (∀ m, outcome (loadOffMesh T (textOf cs) m) = outcome (loadOffMesh T (textOf ds) m)) ∧
    outcome (loadOffPoints T (textOf cs)) = outcome (loadOffPoints T (textOf ds)) := by
  have h0 : List.Forall₂ OffLine ((cs.map trimEnd).filter offKept) ((ds.map trimEnd).filter offKept) :=
    forall₂_lines (R := fun c d => SameWords c d ∧ SameIndent c d) offMatters offKept offMatters_kept
      (fun c d h hc hd => ⟨toWords_same h.1, startsWith_words (by simp) (by decide) h.1
        (sameIndent_trim h.2 (by rintro e; simp [offMatters, e] at hc) (by rintro e; simp [offMatters, e] at hd))⟩) h
  unfold loadOffMesh loadOffPoints
  rw [lines_textOf cs hc, lines_textOf ds hd]
  constructor
  · intro m
    refine forEach_sameStep (R := OffSame) (fun s => s.lines.length) (fun s => s.lines.length) ?_ _ _ _ _ _
      ⟨rfl, rfl, rfl, rfl, rfl, h0⟩ (by simp) (by simp)
    rintro s t ⟨h1, h2, h3, h4, h5, h6⟩
    unfold offMeshNext
    rw [h1, h2, offMeshLoop_with, offMeshLoop_with]
    exact offLoop_same (offMeshLine_same T) _ _ _ s t (Nat.le_refl _) (Nat.le_refl _) (Nat.le_refl _) h1 h2 h3 h4 h5 h6
  · refine forEach_sameStep (R := OffSame) (fun s => s.lines.length) (fun s => s.lines.length) ?_ _ _ _ _ _
      ⟨rfl, rfl, rfl, rfl, rfl, h0⟩ (by simp) (by simp)
    rintro s t ⟨h1, h2, h3, h4, h5, h6⟩
    unfold offPointsNext
    rw [h1, h2, offPointsLoop_with, offPointsLoop_with]
    exact offLoop_same (offPointsLine_same T) _ _ _ s t (Nat.le_refl _) (Nat.le_refl _) (Nat.le_refl _) h1 h2 h3 h4 h5 h6

/-! ### .obj -/

/-- a line of an .obj file that is not skipped -/
def objKept (l : Bytes) : Bool := startsWith l b!"v " || startsWith l b!"f "

/-- two iterators that see the same words -/
def ObjSame (kept : Bytes → Bool) (s t : LineIter) : Prop :=
  s.isDone = false ∧ t.isDone = false ∧ List.Forall₂ (fun l l' => toWords l = toWords l') (s.lines.filter kept) (t.lines.filter kept)

theorem toWords_key {l : Bytes} (x : UInt8) (hx : blankByte x = false) (h : startsWith l [x, 32] = true) : (toWords l).head? = some [x] := by
  unfold startsWith at h
  rw [List.isPrefixOf_iff_prefix] at h
  obtain ⟨r, rfl⟩ := h
  unfold toWords
  have hx' : (x == 32 || x == 9) = false := by
    simpa [blankByte] using hx
  have := words_word (p := fun b => b == 32 || b == 9) [x] (by simp) (by simpa using hx') (32 :: r) (by simp)
  rw [show [x, 32] ++ r = [x] ++ 32 :: r from rfl, this]
  rfl

theorem objKept_kind {l l' : Bytes} (hl : objKept l = true) (hl' : objKept l' = true) (h : toWords l = toWords l') :
    startsWith l b!"v " = startsWith l' b!"v " ∧ startsWith l b!"f " = startsWith l' b!"f " := by
  unfold objKept at hl hl'
  rw [Bool.or_eq_true] at hl hl'
  have hvf : ∀ l, startsWith l b!"v " = true → startsWith l b!"f " = false := by
    intro l h1
    by_contra h2
    rw [Bool.not_eq_false] at h2
    have e1 := toWords_key 118 (by decide) h1
    have e2 := toWords_key 102 (by decide) h2
    rw [e1] at e2
    revert e2; decide
  have hv : ∀ l l', objKept l' = true → toWords l = toWords l' → startsWith l b!"v " = true → startsWith l' b!"v " = true := by
    intro l l' hk hw h1
    have e1 := toWords_key 118 (by decide) h1
    unfold objKept at hk
    rw [Bool.or_eq_true] at hk
    rcases hk with hk | hk
    · exact hk
    · have e2 := toWords_key 102 (by decide) hk
      rw [hw, e2] at e1
      exact absurd e1 (by decide)
  rcases hl with h1 | h1
  · have h2 := hv l l' (by unfold objKept; rw [Bool.or_eq_true]; exact hl') h h1
    exact ⟨by rw [h1, h2], by rw [hvf _ h1, hvf _ h2]⟩
  · have h2 : startsWith l' b!"v " = false := by
      by_contra hc
      rw [Bool.not_eq_false] at hc
      have := hv l' l (by unfold objKept; rw [h1]; simp) h.symm hc
      rw [hvf _ this] at h1
      cases h1
    have h3 : startsWith l b!"v " = false := by
      by_contra hc
      rw [Bool.not_eq_false] at hc
      rw [hvf _ hc] at h1
      cases h1
    rw [h2] at hl'
    exact ⟨by rw [h2, h3], by rw [h1]; exact (hl'.resolve_left (by simp)).symm⟩

theorem objMeshLoop_skip (T : FloatText α) (pre ls : List Bytes) (h : ∀ l ∈ pre, objKept l = false) (i : Nat) :
    objMeshLoop T (pre ++ ls) i = objMeshLoop T ls (i + pre.length) := by
  induction pre generalizing i with
  | nil => rfl
  | cons l pre ih =>
    have hl := h l (by simp)
    unfold objKept at hl
    rw [Bool.or_eq_false_iff] at hl
    rw [List.cons_append, objMeshLoop, hl.1, hl.2]
    simp only [Bool.false_eq_true, if_false]
    rw [ih (fun l hl => h l (by simp [hl])), List.length_cons]
    congr 1; omega

theorem objPointsLoop_skip (T : FloatText α) (pre ls : List Bytes) (h : ∀ l ∈ pre, startsWith l b!"v " = false) (i : Nat) :
    objPointsLoop T (pre ++ ls) i = objPointsLoop T ls (i + pre.length) := by
  induction pre generalizing i with
  | nil => rfl
  | cons l pre ih =>
    rw [List.cons_append, objPointsLoop, h l (by simp)]
    simp only [Bool.false_eq_true, if_false]
    rw [ih (fun l hl => h l (by simp [hl])), List.length_cons]
    congr 1; omega

/-- **C132** for .obj files: lines that give neither a vertex nor a face, the ends of the lines and the spacing of the words have no effect -/
theorem c132_obj (T : FloatText α) (cs ds : List Bytes) (hc : ∀ c ∈ cs, (10 : UInt8) ∉ c) (hd : ∀ c ∈ ds, (10 : UInt8) ∉ c) :
    (List.Forall₂ SameWords (cs.filter objMatters) (ds.filter objMatters) →
      ∀ m, outcome (loadObjMesh T (textOf cs) m) = outcome (loadObjMesh T (textOf ds) m)) ∧
    (List.Forall₂ SameWords (cs.filter objPointMatters) (ds.filter objPointMatters) →
      outcome (loadObjPoints T (textOf cs)) = outcome (loadObjPoints T (textOf ds))) := by
  unfold loadObjMesh loadObjPoints
  rw [lines_textOf cs hc, lines_textOf ds hd]
  constructor
  · intro h m
    have h0 := forall₂_lines (R := SameWords) (S := fun l l' => toWords l = toWords l') objMatters objKept (fun c => rfl)
      (fun c d h _ _ => toWords_same h) h
    refine forEach_same (R := ObjSame objKept) LineInfo.err (fun s => s.lines.length) (fun s => s.lines.length) ?_ _ _ _ _ _
      ⟨rfl, rfl, h0⟩ (by simp) (by simp)
    rintro ⟨sl, sd, si⟩ ⟨tl, td, ti⟩ ⟨h1, h2, h5⟩
    dsimp only at h1 h2 h5
    subst h1 h2
    simp only [objMeshNext, Bool.false_eq_true, if_false]
    rcases filter_split objKept sl with ⟨e1, e2⟩ | ⟨pre, l, post, e1, e2, e3, e4⟩
    · rw [e1] at h5
      have h6 := List.forall₂_nil_left_iff.1 h5
      rcases filter_split objKept tl with ⟨f1, f2⟩ | ⟨pre', l', post', f1, f2, f3, f4⟩
      · right; left
        have g1 := objMeshLoop_skip T sl [] e2 si
        have g2 := objMeshLoop_skip T tl [] f2 ti
        rw [List.append_nil] at g1 g2
        rw [g1, g2]
        exact ⟨_, _, rfl, rfl⟩
      · rw [f4] at h6; cases h6
    · rcases filter_split objKept tl with ⟨f1, f2⟩ | ⟨pre', l', post', f1, f2, f3, f4⟩
      · rw [e4, f1] at h5; cases h5
      · rw [e4, f4] at h5
        obtain ⟨h6, h7⟩ := List.forall₂_cons.1 h5
        obtain ⟨k1, k2⟩ := objKept_kind e3 f3 h6
        rw [e1, f1, objMeshLoop_skip T pre _ e2, objMeshLoop_skip T pre' _ f2]
        simp only [objMeshLoop, objFetchVertex, objFetchFace, ← k1, ← k2, h6]
        have hlen : post.length < (pre ++ l :: post).length := by simp only [List.length_append, List.length_cons]; omega
        have hlen' : post'.length < (pre' ++ l' :: post').length := by simp only [List.length_append, List.length_cons]; omega
        split_ifs with hv hf
        · right; right
          cases toWords l' with
          | nil => left; exact ⟨_, _, _, _, rfl, rfl, rfl⟩
          | cons w ws =>
            dsimp only
            rcases vertexOf T ObjError.Vertex ws with e | p
            · left; exact ⟨_, _, _, _, rfl, rfl, rfl⟩
            · right; exact ⟨_, _, _, rfl, rfl, ⟨rfl, rfl, h7⟩, hlen, hlen'⟩
        · cases toWords l' with
          | nil => right; right; left; exact ⟨_, _, _, _, rfl, rfl, rfl⟩
          | cons w ws =>
            dsimp only
            rcases objCorner ws 0 with _ | a
            · right; right; left; exact ⟨_, _, _, _, rfl, rfl, rfl⟩
            rcases objCorner ws 1 with _ | b
            · right; right; left; exact ⟨_, _, _, _, rfl, rfl, rfl⟩
            rcases objCorner ws 2 with _ | c
            · right; right; left; exact ⟨_, _, _, _, rfl, rfl, rfl⟩
            dsimp only
            by_cases hz : a = 0 ∨ b = 0 ∨ c = 0
            · rw [if_pos hz]; left; exact ⟨rfl, rfl⟩
            · rw [if_neg hz]; right; right; right
              exact ⟨_, _, _, rfl, rfl, ⟨rfl, rfl, h7⟩, hlen, hlen'⟩
        · exfalso
          unfold objKept at e3
          simp [hv, hf] at e3
  · intro h
    have h0 := forall₂_lines (R := SameWords) (S := fun l l' => toWords l = toWords l') objPointMatters (fun l => startsWith l b!"v ") (fun c => rfl)
      (fun c d h _ _ => toWords_same h) h
    refine drain_sameStep (R := ObjSame fun l => startsWith l b!"v ") (fun s => s.lines.length) (fun s => s.lines.length) ?_ _ _ _ _
      ⟨rfl, rfl, h0⟩ (by simp) (by simp)
    rintro ⟨sl, sd, si⟩ ⟨tl, td, ti⟩ ⟨h1, h2, h5⟩
    dsimp only at h1 h2 h5
    subst h1 h2
    simp only [objPointsNext, Bool.false_eq_true, if_false]
    rcases filter_split (fun l => startsWith l b!"v ") sl with ⟨e1, e2⟩ | ⟨pre, l, post, e1, e2, e3, e4⟩
    · rw [e1] at h5
      have h6 := List.forall₂_nil_left_iff.1 h5
      rcases filter_split (fun l => startsWith l b!"v ") tl with ⟨f1, f2⟩ | ⟨pre', l', post', f1, f2, f3, f4⟩
      · left
        have g1 := objPointsLoop_skip T sl [] e2 si
        have g2 := objPointsLoop_skip T tl [] f2 ti
        rw [List.append_nil] at g1 g2
        rw [g1, g2]
        exact ⟨_, _, rfl, rfl⟩
      · rw [f4] at h6; cases h6
    · rcases filter_split (fun l => startsWith l b!"v ") tl with ⟨f1, f2⟩ | ⟨pre', l', post', f1, f2, f3, f4⟩
      · rw [e4, f1] at h5; cases h5
      · rw [e4, f4] at h5
        obtain ⟨h6, h7⟩ := List.forall₂_cons.1 h5
        rw [e1, f1, objPointsLoop_skip T pre _ e2, objPointsLoop_skip T pre' _ f2]
        simp only [objPointsLoop, objFetchVertex, e3, f3, if_true, h6]
        right
        have hlen : post.length < (pre ++ l :: post).length := by simp only [List.length_append, List.length_cons]; omega
        have hlen' : post'.length < (pre' ++ l' :: post').length := by simp only [List.length_append, List.length_cons]; omega
        cases toWords l' with
        | nil => left; exact ⟨_, _, _, _, rfl, rfl, rfl⟩
        | cons w ws =>
          dsimp only
          rcases vertexOf T ObjError.Vertex ws with e | p
          · left; exact ⟨_, _, _, _, rfl, rfl, rfl⟩
          · right; exact ⟨_, _, _, rfl, rfl, ⟨rfl, rfl, h7⟩, hlen, hlen'⟩

/-! ### .gcode -/

/-- a line of a .gcode file that may be a command -/
def gcodeKept (l : Bytes) : Bool := l.head? == some 71

/-- two iterators that see the same commands -/
def GcodeSame (s t : GcodeIter α) : Prop :=
  s.isDone = false ∧ t.isDone = false ∧ s.relative = t.relative ∧ s.pos = t.pos ∧ s.lines.filter gcodeKept = t.lines.filter gcodeKept

theorem gcodeLoop_skip [Add α] (T : FloatText α) {l : Bytes} (h : gcodeKept l = false) (ls : List Bytes) (s : GcodeIter α) :
    gcodeLoop T (l :: ls) s = gcodeLoop T ls { s with lines := ls, iLine := s.iLine + 1 } := by
  conv_lhs => unfold gcodeLoop
  rcases l with _ | ⟨c0, _ | ⟨c1, _ | ⟨c2, _ | ⟨c3, tail⟩⟩⟩⟩
  · rfl
  · rfl
  · rfl
  · rfl
  · have : c0 ≠ 71 := by
      rintro rfl
      simp [gcodeKept] at h
    dsimp only
    rw [if_neg this]

theorem gcodeLoop_same [Add α] (T : FloatText α) (N N' : Nat) : ∀ (k : Nat) (ls ls' : List Bytes) (s t : GcodeIter α), ls.length + ls'.length ≤ k →
    ls.length ≤ N → ls'.length ≤ N' → s.isDone = false → t.isDone = false → s.relative = t.relative → s.pos = t.pos →
    ls.filter gcodeKept = ls'.filter gcodeKept →
    (∃ s' t', gcodeLoop T ls s = (none, s') ∧ gcodeLoop T ls' t = (none, t')) ∨
    (∃ e e' s' t', gcodeLoop T ls s = (some (.error e), s') ∧ gcodeLoop T ls' t = (some (.error e'), t') ∧ LineInfo.err e = LineInfo.err e') ∨
    (∃ a s' t', gcodeLoop T ls s = (some (.ok a), s') ∧ gcodeLoop T ls' t = (some (.ok a), t') ∧ GcodeSame s' t' ∧ s'.lines.length < N ∧ t'.lines.length < N') := by
  intro k
  induction k with
  | zero =>
    intro ls ls' s t hk _ _ h1 h2 h3 h4 h5
    have e1 : ls = [] := List.eq_nil_of_length_eq_zero (by omega)
    have e2 : ls' = [] := List.eq_nil_of_length_eq_zero (by omega)
    subst e1 e2
    left; exact ⟨_, _, rfl, rfl⟩
  | succ k ih =>
    intro ls ls' s t hk hN hN' h1 h2 h3 h4 h5
    by_cases hskip : ∃ l ls1, ls = l :: ls1 ∧ gcodeKept l = false
    · obtain ⟨l, ls1, rfl, hl⟩ := hskip
      rw [gcodeLoop_skip T hl]
      rw [List.filter_cons_of_neg (by simp [hl])] at h5
      simp only [List.length_cons] at hk hN
      exact ih ls1 ls' _ t (by omega) (by omega) hN' h1 h2 h3 h4 h5
    by_cases hskip' : ∃ l ls1, ls' = l :: ls1 ∧ gcodeKept l = false
    · obtain ⟨l, ls1, rfl, hl⟩ := hskip'
      rw [gcodeLoop_skip T hl ls1 t]
      rw [List.filter_cons_of_neg (by simp [hl])] at h5
      simp only [List.length_cons] at hk hN'
      exact ih ls ls1 s _ (by omega) hN (by omega) h1 h2 h3 h4 h5
    cases ls with
    | nil =>
      cases ls' with
      | nil => left; exact ⟨_, _, rfl, rfl⟩
      | cons l' ls1' =>
        have hl' : gcodeKept l' = true := by
          by_contra hc
          exact hskip' ⟨l', ls1', rfl, by simpa using hc⟩
        rw [List.filter_cons_of_pos hl'] at h5
        cases h5
    | cons l ls1 =>
      have hl : gcodeKept l = true := by
        by_contra hc
        exact hskip ⟨l, ls1, rfl, by simpa using hc⟩
      rw [List.filter_cons_of_pos hl] at h5
      cases ls' with
      | nil => cases h5
      | cons l' ls1' =>
        have hl' : gcodeKept l' = true := by
          by_contra hc
          exact hskip' ⟨l', ls1', rfl, by simpa using hc⟩
        rw [List.filter_cons_of_pos hl'] at h5
        obtain ⟨rfl, h8⟩ := List.cons.inj h5
        simp only [List.length_cons] at hk hN hN'
        have hrec : ∀ s' t' : GcodeIter α, s'.isDone = false → t'.isDone = false → s'.relative = t'.relative → s'.pos = t'.pos → _ :=
          fun s' t' a1 a2 a3 a4 => ih ls1 ls1' s' t' (by omega) (by omega) (by omega) a1 a2 a3 a4 h8
        have hout : ∀ (p : Point3D α) (s' t' : GcodeIter α), s'.lines = ls1 → t'.lines = ls1' → s'.isDone = false → t'.isDone = false →
            s'.relative = t'.relative → s'.pos = t'.pos → GcodeSame s' t' ∧ s'.lines.length < N ∧ t'.lines.length < N' := by
          intro p s' t' a1 a2 a3 a4 a5 a6
          exact ⟨⟨a3, a4, a5, a6, by rw [a1, a2]; exact h8⟩, by rw [a1]; omega, by rw [a2]; omega⟩
        unfold gcodeLoop
        rcases l with _ | ⟨c0, _ | ⟨c1, _ | ⟨c2, _ | ⟨c3, tail⟩⟩⟩⟩
        · exact hrec _ _ h1 h2 h3 h4
        · exact hrec _ _ h1 h2 h3 h4
        · exact hrec _ _ h1 h2 h3 h4
        · exact hrec _ _ h1 h2 h3 h4
        · dsimp only
          rw [← h3, ← h4]
          by_cases hc0 : c0 = 71
          swap
          · rw [if_neg hc0, if_neg hc0]; exact hrec _ _ h1 h2 rfl rfl
          rw [if_pos hc0, if_pos hc0]
          by_cases hm : c2 = 32 ∧ (c1 = 49 ∨ c1 = 50 ∨ c1 = 51)
          · rw [if_pos hm, if_pos hm]
            rcases gcodeCommand T (c3 :: tail) with _ | ⟨ox, oy, oz⟩
            · right; left; exact ⟨_, _, _, _, rfl, rfl, rfl⟩
            dsimp only
            by_cases ho : (ox.isSome || oy.isSome || oz.isSome) = true
            · rw [if_pos ho, if_pos ho]
              right; right; exact ⟨_, _, _, rfl, rfl, hout ⟨s.pos.x, s.pos.x, s.pos.x⟩ _ _ rfl rfl h1 h2 rfl rfl⟩
            · rw [if_neg ho, if_neg ho]
              exact hrec _ _ h1 h2 rfl rfl
          rw [if_neg hm, if_neg hm]
          by_cases h9 : c1 = 57 ∧ c3 = 32
          swap
          · rw [if_neg h9, if_neg h9]; exact hrec _ _ h1 h2 rfl rfl
          rw [if_pos h9, if_pos h9]
          by_cases q0 : c2 = 48
          · rw [if_pos q0, if_pos q0]; exact hrec _ _ h1 h2 rfl rfl
          rw [if_neg q0, if_neg q0]
          by_cases q1 : c2 = 49
          · rw [if_pos q1, if_pos q1]; exact hrec _ _ h1 h2 rfl rfl
          rw [if_neg q1, if_neg q1]
          by_cases q2 : c2 = 50
          swap
          · rw [if_neg q2, if_neg q2]; exact hrec _ _ h1 h2 rfl rfl
          rw [if_pos q2, if_pos q2]
          rcases gcodeCommand T tail with _ | ⟨ox, oy, oz⟩
          · right; left; exact ⟨_, _, _, _, rfl, rfl, rfl⟩
          dsimp only
          by_cases ho : (ox.isSome || oy.isSome || oz.isSome) = true
          · rw [if_pos ho, if_pos ho]
            right; right; exact ⟨_, _, _, rfl, rfl, hout ⟨s.pos.x, s.pos.x, s.pos.x⟩ _ _ rfl rfl h1 h2 rfl rfl⟩
          · rw [if_neg ho, if_neg ho]
            exact hrec _ _ h1 h2 rfl rfl

theorem gcodeMatters_kept (c : Bytes) : gcodeMatters c = gcodeKept (trimEnd c) := by
  obtain ⟨w, h1, h2, -⟩ := trimEnd_spec c
  unfold gcodeMatters gcodeKept
  cases ht : trimEnd c with
  | nil =>
    rw [ht, List.nil_append] at h1
    cases c with
    | nil => rfl
    | cons b c =>
      have : b ∈ wsBytes := h2 b (by rw [← h1]; simp)
      have hb : b ≠ 71 := by rintro rfl; revert this; decide
      simp [hb]
  | cons x t =>
    rw [ht, List.cons_append] at h1
    rw [h1]
    rfl

/-- **C132** for .gcode files: lines that are no G commands and the ends of the lines have no effect -/
theorem c132_gcode [Add α] (T : FloatText α) (zero : α) (cs ds : List Bytes) (hc : ∀ c ∈ cs, (10 : UInt8) ∉ c) (hd : ∀ c ∈ ds, (10 : UInt8) ∉ c)
    (h : (cs.filter gcodeMatters).map trimEnd = (ds.filter gcodeMatters).map trimEnd) :
    outcome (loadGcode T zero (textOf cs)) = outcome (loadGcode T zero (textOf ds)) := by
  unfold loadGcode
  rw [lines_textOf cs hc, lines_textOf ds hd]
  have e : ∀ cs : List Bytes, (cs.map trimEnd).filter gcodeKept = (cs.filter gcodeMatters).map trimEnd := by
    intro cs
    rw [List.filter_map]
    congr 1
    apply List.filter_congr
    intro c _
    exact (gcodeMatters_kept c).symm
  refine drain_sameStep (R := GcodeSame) (fun s => s.lines.length) (fun s => s.lines.length) ?_ _ _ _ _
    ⟨rfl, rfl, rfl, rfl, by rw [e, e, h]⟩ (by simp) (by simp)
  rintro s t ⟨h1, h2, h3, h4, h5⟩
  unfold gcodeNext
  rw [h1, h2]
  exact gcodeLoop_same T _ _ _ s.lines t.lines s t (Nat.le_refl _) (Nat.le_refl _) (Nat.le_refl _) h1 h2 h3 h4 h5

/-! ### .xy and .xyz -/

/-- the two lines have the same words, separated by one or more spaces -/
def Spec.SameSpaced (c d : Bytes) : Prop :=
  ∃ ws, WordsOf (fun b => decide (b = 32)) (trimEnd c) ws ∧ WordsOf (fun b => decide (b = 32)) (trimEnd d) ws

/-- the line has at least `n` words, separated by spaces -/
def Spec.SpacedWords (n : Nat) (c : Bytes) : Prop := ∃ ws, WordsOf (fun b => decide (b = 32)) (trimEnd c) ws ∧ n ≤ ws.length

theorem spaced_words {l : Bytes} {ws : List Bytes} (h : WordsOf (fun b => decide (b = 32)) l ws) :
    skipEmpty (splitP (fun b => b == 32) l) = ws := by
  have e : (fun b : UInt8 => b == 32) = fun b => decide (b = 32) := by funext b; rfl
  rw [e]
  exact words_of h

theorem splitP_length (p : UInt8 → Bool) (s : Bytes) : (splitP p s).length = (s.filter p).length + 1 := by
  induction s with
  | nil => rfl
  | cons b s ih =>
    cases hb : p b with
    | true => simp [splitP, hb, ih]
    | false =>
      rw [splitP_cons_false hb, List.filter_cons_of_neg (by simp [hb]), ← ih]
      have : splitP p s ≠ [] := by
        intro e; rw [e] at ih; simp at ih
      cases hs : splitP p s with
      | nil => exact absurd hs this
      | cons x xs => simp

theorem spaced_delimiter {n : Nat} {l : Bytes} {ws : List Bytes} (h : WordsOf (fun b => decide (b = 32)) l ws) (hn : n + 1 ≤ ws.length) :
    estimateDelimiter n l = some 32 := by
  have h1 := spaced_words h
  have h2 := splitP_length (fun b => b == 32) l
  have h3 : ws.length ≤ (splitP (fun b => b == 32) l).length := by
    rw [← h1]; exact List.length_filter_le _ _
  unfold estimateDelimiter
  rw [List.find?_cons_of_pos]
  simp only [ge_iff_le, decide_eq_true_eq]
  omega

/-- two iterators that see the same words, the delimiter being known to be the space -/
def XyzSame (s t : XyzIter) : Prop :=
  s.isDone = false ∧ t.isDone = false ∧ s.delim = some 32 ∧ t.delim = some 32 ∧
  List.Forall₂ (fun l l' => skipEmpty (splitP (fun b => b == 32) l) = skipEmpty (splitP (fun b => b == 32) l')) s.lines t.lines

theorem xyz_same {P : Type} (fetch : Option UInt8 → Bytes → Option UInt8 × Except XyzError P) (est : Bytes → Option UInt8)
    (g : List Bytes → Except XyzError P)
    (hf : ∀ l, fetch (some 32) l = (some 32, g (skipEmpty (splitP (fun b => b == 32) l))))
    (hf0 : ∀ l, est l = some 32 → fetch none l = fetch (some 32) l)
    (ls ls' : List Bytes) (h : List.Forall₂ (fun l l' => skipEmpty (splitP (fun b => b == 32) l) = skipEmpty (splitP (fun b => b == 32) l')) ls ls')
    (h1 : ∀ l, ls.head? = some l → est l = some 32) (h2 : ∀ l, ls'.head? = some l → est l = some 32) :
    outcome (drain (XyzIter.next fetch) (ls.length + 1) ⟨ls, false, 0, none⟩) = outcome (drain (XyzIter.next fetch) (ls'.length + 1) ⟨ls', false, 0, none⟩) := by
  have hstart : ∀ (ls : List Bytes), (∀ l, ls.head? = some l → est l = some 32) →
      drain (XyzIter.next fetch) (ls.length + 1) ⟨ls, false, 0, none⟩ = drain (XyzIter.next fetch) (ls.length + 1) ⟨ls, false, 0, some 32⟩ := by
    intro ls h
    cases ls with
    | nil => rfl
    | cons l ls =>
      unfold drain XyzIter.next
      simp only [Bool.false_eq_true, if_false, hf0 l (h l rfl)]
  rw [hstart ls h1, hstart ls' h2]
  refine drain_sameStep (R := XyzSame) (fun s => s.lines.length) (fun s => s.lines.length) ?_ _ _ _ _ ⟨rfl, rfl, rfl, rfl, h⟩ (by simp) (by simp)
  rintro ⟨sl, sd, si, sm⟩ ⟨tl, td, ti, tm⟩ ⟨h1, h2, h3, h4, h5⟩
  dsimp only at h1 h2 h3 h4 h5
  subst h1 h2 h3 h4
  unfold XyzIter.next
  simp only [Bool.false_eq_true, if_false]
  cases h5 with
  | nil => left; exact ⟨_, _, rfl, rfl⟩
  | @cons l l' ls ls' h6 h7 =>
    right
    dsimp only
    rw [hf, hf, h6]
    rcases g (skipEmpty (splitP (fun b => b == 32) l')) with e | p
    · left; exact ⟨_, _, _, _, rfl, rfl, rfl⟩
    · right; exact ⟨_, _, _, rfl, rfl, ⟨rfl, rfl, rfl, rfl, h7⟩, by simp, by simp⟩

/-- **C132** for .xy and .xyz files with spaces: their number and the ends of the lines have no effect -/
theorem c132_xyz (T : FloatText α) (cs ds : List Bytes) (hc : ∀ c ∈ cs, (10 : UInt8) ∉ c) (hd : ∀ c ∈ ds, (10 : UInt8) ∉ c)
    (h : List.Forall₂ SameSpaced cs ds) :
    ((∀ c, cs.head? = some c → SpacedWords 2 c) → outcome (loadXy T (textOf cs)) = outcome (loadXy T (textOf ds))) ∧
    ((∀ c, cs.head? = some c → SpacedWords 3 c) → outcome (loadXyz T (textOf cs)) = outcome (loadXyz T (textOf ds))) := by
  have h0 : List.Forall₂ (fun l l' => skipEmpty (splitP (fun b => b == 32) l) = skipEmpty (splitP (fun b => b == 32) l')) (cs.map trimEnd) (ds.map trimEnd) := by
    rw [List.forall₂_map_left_iff, List.forall₂_map_right_iff]
    refine h.imp ?_
    rintro c d ⟨ws, h1, h2⟩
    rw [spaced_words h1, spaced_words h2]
  have hfirst : ∀ n, (∀ c, cs.head? = some c → SpacedWords (n + 1) c) →
      (∀ l, (cs.map trimEnd).head? = some l → estimateDelimiter n l = some 32) ∧ ∀ l, (ds.map trimEnd).head? = some l → estimateDelimiter n l = some 32 := by
    intro n hn
    cases h with
    | nil => exact ⟨by simp, by simp⟩
    | @cons c d cs ds hcd _ =>
      obtain ⟨ws, g1, g2⟩ := hn c rfl
      obtain ⟨ws', g3, g4⟩ := hcd
      have e : ws' = ws := by rw [← spaced_words g3, spaced_words g1]
      subst e
      constructor
      · intro l hl
        simp only [List.map_cons, List.head?_cons, Option.some.injEq] at hl
        rw [← hl]; exact spaced_delimiter g1 g2
      · intro l hl
        simp only [List.map_cons, List.head?_cons, Option.some.injEq] at hl
        rw [← hl]; exact spaced_delimiter g4 g2
  unfold loadXy loadXyz XyzIter.new
  rw [lines_textOf cs hc, lines_textOf ds hd]
  constructor
  · intro hn
    obtain ⟨g1, g2⟩ := hfirst 1 hn
    refine xyz_same _ (estimateDelimiter 1) (fun words => match nthNum T.parse words 0, nthNum T.parse words 1 with
      | some x, some y => .ok ⟨x, y⟩
      | _, _ => .error .Vertex) (fun l => rfl) ?_ _ _ h0 g1 g2
    intro l hl
    unfold xyFetchOne
    rw [hl]
  · intro hn
    obtain ⟨g1, g2⟩ := hfirst 2 hn
    refine xyz_same _ (estimateDelimiter 2) (fun words => vertexOf T .Vertex words) (fun l => rfl) ?_ _ _ h0 g1 g2
    intro l hl
    unfold xyzFetchOne
    rw [hl]

/-! ### .ptx -/

theorem parseNat_blank {l : Bytes} (h : ∃ b ∈ l, blankByte b = true) : parseNat l = none := by
  have hd : ∀ (l : Bytes) (acc : Nat), (∃ b ∈ l, blankByte b = true) → digitsVal acc l = none := by
    intro l
    induction l with
    | nil => rintro acc ⟨b, hb, -⟩; simp at hb
    | cons x l ih =>
      rintro acc ⟨b, hb, hbb⟩
      unfold digitsVal
      split_ifs with hx
      · rcases List.mem_cons.1 hb with rfl | hb
        · exfalso
          have : b = 32 ∨ b = 9 := by simpa [blankByte] using hbb
          rcases this with rfl | rfl <;> revert hx <;> decide
        · exact ih _ ⟨b, hb, hbb⟩
      · rfl
  have htail : ∃ b ∈ (if l.head? = some 43 then l.tail else l), blankByte b = true := by
    split_ifs with h1
    · cases l with
      | nil => simp at h1
      | cons x l =>
        simp only [List.head?_cons, Option.some.injEq] at h1
        subst h1
        obtain ⟨b, hb, hbb⟩ := h
        rcases List.mem_cons.1 hb with rfl | hb
        · exact absurd hbb (by decide)
        · exact ⟨b, hb, hbb⟩
    · exact h
  unfold parseNat
  dsimp only
  generalize (if l.head? = some 43 then l.tail else l) = ds at htail
  rw [hd ds 0 htail]
  simp

theorem fromAscii_blank {l : Bytes} (h : ∃ b ∈ l, blankByte b = true) : fromAscii parseNat l = none := by
  unfold fromAscii
  rw [parseNat_blank h]
  simp

theorem wordsOf_plain {l : Bytes} (h : ∀ b ∈ l, blankByte b = false) (hne : l ≠ []) : WordsOf blankByte l [l] := by
  have := WordsOf.cons (p := blankByte) (pre := []) (w := l) (rest := []) (ws := []) (by simp) hne h (by simp) (.nil (by simp))
  simpa using this

theorem trimEnd_nowords {c : Bytes} (h : toWords (trimEnd c) = []) : trimEnd c = [] := by
  have hw : WordsOf blankByte (trimEnd c) [] := (c72_words _ _).1 h
  obtain ⟨w, -, -, h3⟩ := trimEnd_spec c
  generalize trimEnd c = l at hw h3
  cases hw with
  | nil hall =>
    rcases List.eq_nil_or_concat l with rfl | ⟨l, x, rfl⟩
    · rfl
    · exfalso
      rw [List.concat_eq_append] at hall h3
      have h4 := h3 x (by simp)
      have h5 := hall x (by simp)
      apply h4
      have : x = 32 ∨ x = 9 := by simpa [blankByte] using h5
      rcases this with rfl | rfl <;> decide

/-- counts on a line of their own -/
theorem parseNat_words {c d : Bytes} (h : SameWords c d) (hi : SameIndent (trimEnd c) (trimEnd d)) :
    fromAscii parseNat (trimEnd c) = fromAscii parseNat (trimEnd d) := by
  have hne : ∀ c : Bytes, (∃ b ∈ trimEnd c, blankByte b = true) → toWords (trimEnd c) ≠ [] := by
    rintro c ⟨b, hb, -⟩ h
    rw [trimEnd_nowords h] at hb
    simp at hb
  -- a line with blanks against one without
  have mixed : ∀ c d : Bytes, toWords (trimEnd c) = toWords (trimEnd d) → SameIndent (trimEnd c) (trimEnd d) →
      (∃ b ∈ trimEnd c, blankByte b = true) → (∀ b ∈ trimEnd d, blankByte b = false) → False := by
    intro c d hw hi hb hd
    by_cases hdn : trimEnd d = []
    · apply hne c hb
      rw [hw, hdn]; rfl
    · have e := toWords_of (wordsOf_plain hd hdn)
      rw [e] at hw
      have hw' : WordsOf blankByte (trimEnd c) [trimEnd d] := (c72_words _ _).1 hw
      obtain ⟨w, -, -, h3⟩ := trimEnd_spec c
      generalize trimEnd c = l at hb hw' h3 hi
      cases hw' with
      | @cons pre _ rest _ h1 h2 h4 h5 h6 =>
        cases h6 with
        | nil h7 =>
          have hrest : rest = [] := by
            rcases List.eq_nil_or_concat rest with rfl | ⟨r, x, rfl⟩
            · rfl
            · exfalso
              rw [List.concat_eq_append] at h3 h7
              have a := h7 x (by simp)
              apply h3 x (by rw [← List.append_assoc]; simp)
              have : x = 32 ∨ x = 9 := by simpa [blankByte] using a
              rcases this with rfl | rfl <;> decide
          subst hrest
          have hpre : pre = [] := by
            cases pre with
            | nil => rfl
            | cons x pre =>
              exfalso
              obtain ⟨b, r, e, hbb⟩ := hi.1 ⟨x, _, rfl, h1 x (by simp)⟩
              rw [hd b (by rw [e]; simp)] at hbb
              cases hbb
          subst hpre
          obtain ⟨b, hb, hbb⟩ := hb
          simp only [List.nil_append, List.append_nil] at hb
          rw [hd b hb] at hbb
          cases hbb
  have hw := toWords_same h
  by_cases hc : ∃ b ∈ trimEnd c, blankByte b = true <;> by_cases hd : ∃ b ∈ trimEnd d, blankByte b = true
  · rw [fromAscii_blank hc, fromAscii_blank hd]
  · exfalso
    exact mixed c d hw hi hc fun b hb => by
      by_contra hx
      exact hd ⟨b, hb, by simpa using hx⟩
  · exfalso
    refine mixed d c hw.symm ?_ hd fun b hb => ?_
    · exact Iff.symm hi
    · by_contra hx
      exact hc ⟨b, hb, by simpa using hx⟩
  · have hc' : ∀ b ∈ trimEnd c, blankByte b = false := fun b hb => by
      by_contra hx
      exact hc ⟨b, hb, by simpa using hx⟩
    have hd' : ∀ b ∈ trimEnd d, blankByte b = false := fun b hb => by
      by_contra hx
      exact hd ⟨b, hb, by simpa using hx⟩
    by_cases e1 : trimEnd c = [] <;> by_cases e2 : trimEnd d = []
    · rw [e1, e2]
    · rw [e1, toWords_of (wordsOf_plain hd' e2)] at hw
      cases hw
    · rw [e2, toWords_of (wordsOf_plain hc' e1)] at hw
      cases hw
    · rw [toWords_of (wordsOf_plain hc' e1), toWords_of (wordsOf_plain hd' e2)] at hw
      rw [(List.cons.inj hw).1]

/-- two lines of a .ptx file with the same meaning -/
def PtxLine (l l' : Bytes) : Prop := toWords l = toWords l' ∧ fromAscii parseNat l = fromAscii parseNat l'

/-- two iterators that see the same words -/
def PtxSame (s t : PtxIter α) : Prop :=
  s.isDone = false ∧ t.isDone = false ∧ s.nPointsToFetch = t.nPointsToFetch ∧ s.mustTransform = t.mustTransform ∧
  s.transformation = t.transformation ∧ List.Forall₂ PtxLine s.lines t.lines

theorem ptxHeader_same (T : FloatText α) {ls ls' : List Bytes} (h : List.Forall₂ PtxLine ls ls') (i j : Nat) :
    (∃ e e', ptxHeader T ls i = .error e ∧ ptxHeader T ls' j = .error e' ∧ LineInfo.err e = LineInfo.err e') ∨
    ∃ rows m r r', ptxHeader T ls i = .ok (rows, m, r) ∧ ptxHeader T ls' j = .ok (rows, m, r') ∧ List.Forall₂ PtxLine r r' ∧
      r.length ≤ ls.length ∧ r'.length ≤ ls'.length := by
  have hrow : ∀ {ls ls' : List Bytes} (_ : List.Forall₂ PtxLine ls ls') (i j : Nat),
      (∃ e e', ptxRow T ls i = .error e ∧ ptxRow T ls' j = .error e' ∧ LineInfo.err e = LineInfo.err e') ∨
      ∃ v r r', ptxRow T ls i = .ok (v, r) ∧ ptxRow T ls' j = .ok (v, r') ∧ List.Forall₂ PtxLine r r' ∧ r.length ≤ ls.length ∧ r'.length ≤ ls'.length := by
    intro ls ls' h i j
    cases h with
    | nil => left; exact ⟨_, _, rfl, rfl, rfl⟩
    | @cons l l' ls ls' h1 h2 =>
      unfold ptxRow readMatrixRow
      dsimp only
      rw [h1.1]
      rcases nthNum T.parse (toWords l') 0 with _ | a
      · left; exact ⟨_, _, rfl, rfl, rfl⟩
      rcases nthNum T.parse (toWords l') 1 with _ | b
      · left; exact ⟨_, _, rfl, rfl, rfl⟩
      rcases nthNum T.parse (toWords l') 2 with _ | c
      · left; exact ⟨_, _, rfl, rfl, rfl⟩
      rcases nthNum T.parse (toWords l') 3 with _ | d
      · left; exact ⟨_, _, rfl, rfl, rfl⟩
      right; exact ⟨_, _, _, rfl, rfl, h2, by simp, by simp⟩
  have hskip : ∀ {ls ls' : List Bytes} (_ : List.Forall₂ PtxLine ls ls') (i j : Nat),
      (∃ e e', ptxSkip ls i = .error e ∧ ptxSkip ls' j = .error e' ∧ LineInfo.err e = LineInfo.err e') ∨
      ∃ r r', ptxSkip ls i = .ok r ∧ ptxSkip ls' j = .ok r' ∧ List.Forall₂ PtxLine r r' ∧ r.length ≤ ls.length ∧ r'.length ≤ ls'.length := by
    intro ls ls' h i j
    cases h with
    | nil => left; exact ⟨_, _, rfl, rfl, rfl⟩
    | @cons l l' ls ls' h1 h2 => right; exact ⟨_, _, rfl, rfl, h2, by simp, by simp⟩
  have hrows : ∀ {ls ls' : List Bytes} (_ : List.Forall₂ PtxLine ls ls') (i j : Nat),
      (∃ e e', ptxRows ls i = .error e ∧ ptxRows ls' j = .error e' ∧ LineInfo.err e = LineInfo.err e') ∨
      ∃ v r r', ptxRows ls i = .ok (v, r) ∧ ptxRows ls' j = .ok (v, r') ∧ List.Forall₂ PtxLine r r' ∧ r.length ≤ ls.length ∧ r'.length ≤ ls'.length := by
    intro ls ls' h i j
    cases h with
    | nil => left; exact ⟨_, _, rfl, rfl, rfl⟩
    | @cons l l' ls ls' h1 h2 =>
      unfold ptxRows
      dsimp only
      rw [h1.2]
      rcases fromAscii parseNat l' with _ | a
      · left; exact ⟨_, _, rfl, rfl, rfl⟩
      right; exact ⟨_, _, _, rfl, rfl, h2, by simp, by simp⟩
  unfold ptxHeader
  rcases hrows h i j with ⟨e, e', g1, g2, g3⟩ | ⟨v, a0, b0, g1, g2, g3, l0, m0⟩
  · left; refine ⟨e, e', ?_, ?_, g3⟩
    · rw [g1]; rfl
    · rw [g2]; rfl
  rw [g1, g2]
  rcases hskip g3 (i + 1) (j + 1) with ⟨e, e', g1, g2, g3⟩ | ⟨a1, b1, g1, g2, g3, l1, m1⟩
  · left; refine ⟨e, e', ?_, ?_, g3⟩
    · simp only [bind, Except.bind, g1]
    · simp only [bind, Except.bind, g2]
  rcases hskip g3 (i + 2) (j + 2) with ⟨e, e', k1, k2, k3⟩ | ⟨a2, b2, k1, k2, k3, l2, m2⟩
  · left; refine ⟨e, e', ?_, ?_, k3⟩
    · simp only [bind, Except.bind, g1, k1]
    · simp only [bind, Except.bind, g2, k2]
  rcases hskip k3 (i + 3) (j + 3) with ⟨e, e', p1, p2, p3⟩ | ⟨a3, b3, p1, p2, p3, l3, m3⟩
  · left; refine ⟨e, e', ?_, ?_, p3⟩
    · simp only [bind, Except.bind, g1, k1, p1]
    · simp only [bind, Except.bind, g2, k2, p2]
  rcases hskip p3 (i + 4) (j + 4) with ⟨e, e', q1, q2, q3⟩ | ⟨a4, b4, q1, q2, q3, l4, m4⟩
  · left; refine ⟨e, e', ?_, ?_, q3⟩
    · simp only [bind, Except.bind, g1, k1, p1, q1]
    · simp only [bind, Except.bind, g2, k2, p2, q2]
  rcases hrow q3 (i + 5) (j + 5) with ⟨e, e', r1, r2, r3⟩ | ⟨v5, a5, b5, r1, r2, r3, l5, m5⟩
  · left; refine ⟨e, e', ?_, ?_, r3⟩
    · simp only [bind, Except.bind, g1, k1, p1, q1, r1]
    · simp only [bind, Except.bind, g2, k2, p2, q2, r2]
  rcases hrow r3 (i + 6) (j + 6) with ⟨e, e', s1, s2, s3⟩ | ⟨v6, a6, b6, s1, s2, s3, l6, m6⟩
  · left; refine ⟨e, e', ?_, ?_, s3⟩
    · simp only [bind, Except.bind, g1, k1, p1, q1, r1, s1]
    · simp only [bind, Except.bind, g2, k2, p2, q2, r2, s2]
  rcases hrow s3 (i + 7) (j + 7) with ⟨e, e', t1, t2, t3⟩ | ⟨v7, a7, b7, t1, t2, t3, l7, m7⟩
  · left; refine ⟨e, e', ?_, ?_, t3⟩
    · simp only [bind, Except.bind, g1, k1, p1, q1, r1, s1, t1]
    · simp only [bind, Except.bind, g2, k2, p2, q2, r2, s2, t2]
  rcases hrow t3 (i + 8) (j + 8) with ⟨e, e', u1, u2, u3⟩ | ⟨v8, a8, b8, u1, u2, u3, l8, m8⟩
  · left; refine ⟨e, e', ?_, ?_, u3⟩
    · simp only [bind, Except.bind, g1, k1, p1, q1, r1, s1, t1, u1]
    · simp only [bind, Except.bind, g2, k2, p2, q2, r2, s2, t2, u2]
  right
  refine ⟨v, ⟨![v5, v6, v7, v8]⟩, a8, b8, ?_, ?_, u3, by omega, by omega⟩
  · simp only [bind, Except.bind, g1, k1, p1, q1, r1, s1, t1, u1]; rfl
  · simp only [bind, Except.bind, g2, k2, p2, q2, r2, s2, t2, u2]; rfl

/-- **C132** for .ptx files: the ends of the lines and the spacing of the words have no effect -/
theorem c132_ptx [Scalar α] (T : FloatText α) (cs ds : List Bytes) (hc : ∀ c ∈ cs, (10 : UInt8) ∉ c) (hd : ∀ c ∈ ds, (10 : UInt8) ∉ c)
    (h : List.Forall₂ (fun c d => SameWords c d ∧ SameIndent c d) cs ds) :
    outcome (loadPtx T (textOf cs)) = outcome (loadPtx T (textOf ds)) := by
  have h0 : List.Forall₂ PtxLine (cs.map trimEnd) (ds.map trimEnd) := by
    rw [List.forall₂_map_left_iff, List.forall₂_map_right_iff]
    refine h.imp fun c d h => ⟨toWords_same h.1, ?_⟩
    have hw := toWords_same h.1
    by_cases e1 : trimEnd c = []
    · rw [e1] at hw
      rw [e1, trimEnd_nowords hw.symm]
    · by_cases e2 : trimEnd d = []
      · rw [e2] at hw
        exact absurd (trimEnd_nowords hw) e1
      · exact parseNat_words h.1 (sameIndent_trim h.2 e1 e2)
  unfold loadPtx PtxIter.new
  rw [lines_textOf cs hc, lines_textOf ds hd]
  refine forEach_same (R := PtxSame) LineInfo.err (fun s => s.lines.length) (fun s => s.lines.length) ?_ _ _ _ _ _
    ⟨rfl, rfl, rfl, rfl, rfl, h0⟩ (by simp) (by simp)
  rintro ⟨sl, sd, si, sn, sm, st⟩ ⟨tl, td, ti, tn, tm, tt⟩ ⟨h1, h2, h3, h4, h5, h6⟩
  dsimp only at h1 h2 h3 h4 h5 h6
  subst h1 h2 h3 h4 h5
  unfold ptxNext
  simp only [Bool.false_eq_true, if_false]
  by_cases hn : sn = 0
  · rw [if_pos hn, if_pos hn]
    cases h6 with
    | nil => right; left; exact ⟨_, _, rfl, rfl⟩
    | @cons l l' ls ls' h7 h8 =>
      dsimp only
      rw [h7.2]
      rcases fromAscii parseNat l' with _ | columns
      · right; right; left; exact ⟨_, _, _, _, rfl, rfl, rfl⟩
      dsimp only
      rcases ptxHeader_same T h8 (si + 1) (ti + 1) with ⟨e, e', g1, g2, g3⟩ | ⟨rows, m, r, r', g1, g2, g3, g4, g5⟩
      · rw [g1, g2]; right; right; left; exact ⟨_, _, _, _, rfl, rfl, g3⟩
      · rw [g1, g2]
        dsimp only
        by_cases hb : rows * columns < 2 ^ 64
        · rw [if_pos hb, if_pos hb]
          right; right; right
          refine ⟨_, _, _, rfl, rfl, ⟨rfl, rfl, rfl, rfl, rfl, g3⟩, ?_, ?_⟩
          · simp only [List.length_cons]; omega
          · simp only [List.length_cons]; omega
        · rw [if_neg hb, if_neg hb]; left; exact ⟨rfl, rfl⟩
  · rw [if_neg hn, if_neg hn]
    right; right
    cases h6 with
    | nil => left; exact ⟨_, _, _, _, rfl, rfl, rfl⟩
    | @cons l l' ls ls' h7 h8 =>
      dsimp only
      unfold ptxFetchOne
      rw [h7.1]
      rcases vertexOf T PtxError.Point (toWords l') with e | p
      · left; exact ⟨_, _, _, _, rfl, rfl, rfl⟩
      · right; exact ⟨_, _, _, rfl, rfl, ⟨rfl, rfl, rfl, rfl, rfl, h8⟩, by simp, by simp⟩

/-! ### where the layout does matter -/

/-- .xyz: a blank line is an error, also at the end of the file -/
theorem c132_violated_blank : loadXyz natText b!"1 2 3\n4 5 6\n" = some ([⟨1, 2, 3⟩, ⟨4, 5, 6⟩], .ok ()) ∧
    loadXyz natText b!"1 2 3\n4 5 6\n\n" = some ([⟨1, 2, 3⟩, ⟨4, 5, 6⟩], .error (.line 3 [] .Vertex)) ∧
    loadXy natText b!"1 2\n\n3 4\n" = some ([⟨1, 2⟩], .error (.line 2 [] .Vertex)) := by decide +kernel

/-- .obj: a line that is indented or has a tab behind its `v` is not seen at all -/
theorem c132_violated_obj : loadObjPoints natText b!"v 1 2 3\nv 4 5 6\n" = some ([⟨1, 2, 3⟩, ⟨4, 5, 6⟩], .ok ()) ∧
    loadObjPoints natText b!" v 1 2 3\nv 4 5 6\n" = some ([⟨4, 5, 6⟩], .ok ()) ∧
    loadObjPoints natText b!"v\t1 2 3\nv 4 5 6\n" = some ([⟨4, 5, 6⟩], .ok ()) := by decide +kernel

/-- .gcode: tabs are no separators, a command with one is not seen; neither is one that is indented -/
theorem c132_violated_gcode : loadGcode natText 0 b!"G1 X1 Y2\n" = some ([⟨1, 2, 0⟩], .ok ()) ∧
    loadGcode natText 0 b!"G1\tX1 Y2\n" = some ([], .ok ()) ∧
    loadGcode natText 0 b!" G1 X1 Y2\n" = some ([], .ok ()) := by decide +kernel

/-- .off: the first line and comments must not be indented -/
theorem c132_violated_off : loadOffPoints natText b!"OFF\n1 0 0\n1 2 3\n" = some ([⟨1, 2, 3⟩], .ok ()) ∧
    loadOffPoints natText b!" OFF\n1 0 0\n1 2 3\n" = some ([], .error (.line 1 b!" OFF" .VertexCount)) ∧
    loadOffPoints natText b!"OFF\n #\n1 0 0\n1 2 3\n" = some ([], .error (.line 2 b!" #" .VertexCount)) := by decide +kernel

/-- .stl: blank lines are errors, so are two spaces within a keyword -/
theorem c132_violated_stl :
    (loadStlTriplets natF64 b!"solid\nfacet normal 0 0 1\nouter loop\nvertex 0 0 0\nvertex 1 0 0\nvertex 0 1 0\nendloop\nendfacet\nendsolid\n" .Auto [] []).map (·.2) = some (.ok ()) ∧
    (loadStlTriplets natF64 b!"solid\n\nfacet normal 0 0 1\nouter loop\nvertex 0 0 0\nvertex 1 0 0\nvertex 0 1 0\nendloop\nendfacet\nendsolid\n" .Auto [] []).map (·.2) =
      some (.error (.line 2 [] .Facet)) ∧
    (loadStlTriplets natF64 b!"solid\nfacet normal 0 0 1\nouter  loop\nvertex 0 0 0\nvertex 1 0 0\nvertex 0 1 0\nendloop\nendfacet\nendsolid\n" .Auto [] []).map (·.2) =
      some (.error (.line 3 b!"outer  loop" .Loop)) := by decide +kernel

/-- .ply: blank lines are errors, in the header and in the data -/
theorem c132_violated_ply :
    (loadPlyPoints natF64 b!"ply\nformat ascii 1.0\nelement vertex 1\nproperty float x\nproperty float y\nproperty float z\nend_header\n1 2 3\n" []).map (·.2) = some (.ok ()) ∧
    (loadPlyPoints natF64 b!"ply\n\nformat ascii 1.0\nelement vertex 1\nproperty float x\nproperty float y\nproperty float z\nend_header\n1 2 3\n" []).map (·.2) =
      some (.error (.line 2 [] .LoadFormatNotFound)) ∧
    (loadPlyPoints natF64 b!"ply\nformat ascii 1.0\nelement vertex 1\nproperty float x\nproperty float y\nproperty float z\nend_header\n\n1 2 3\n" []).map (·.2) =
      some (.error (.line 8 [] .InvalidVertex)) := by decide +kernel

/-! ### examples -/

example : outcome (loadOffMesh natText (textOf [b!"OFF", b!"# a comment", b!"3 1 0", b!"1 2 3", b!"", b!"4 5 6", b!"7 8 9", b!"3 0 1 2"]) ⟨[], []⟩) =
    some (⟨[⟨1, 2, 3⟩, ⟨4, 5, 6⟩, ⟨7, 8, 9⟩], [⟨0, 1, 2⟩]⟩, .ok ()) := by decide +kernel

example : List.filter offMatters [b!"OFF\r", b!"# a comment", b!"3 1 0", b!" \t "] = [b!"OFF\r", b!"3 1 0"] := by decide +kernel

example : SameWords b!"1 2  3\r" b!"1\t2 3 " :=
  ⟨[b!"1", b!"2", b!"3"], (c72_words _ _).1 (by decide +kernel), (c72_words _ _).1 (by decide +kernel)⟩

example : SameSpaced b!"1 2  3" b!"1 2 3\r" ∧ SpacedWords 3 b!"1 2  3" := by
  have h : ∀ l : Bytes, WordsOf (fun b => decide (b = 32)) l (skipEmpty (splitP (fun b => decide (b = 32)) l)) := by
    intro l
    obtain ⟨ws, h⟩ := wordsOf_exists (fun b => decide (b = 32)) l
    rw [words_of h]; exact h
  have h1 := h (trimEnd b!"1 2  3")
  have h2 := h (trimEnd b!"1 2 3\r")
  have e1 : skipEmpty (splitP (fun b => decide (b = 32)) (trimEnd b!"1 2  3")) = [b!"1", b!"2", b!"3"] := by decide +kernel
  have e2 : skipEmpty (splitP (fun b => decide (b = 32)) (trimEnd b!"1 2 3\r")) = [b!"1", b!"2", b!"3"] := by decide +kernel
  rw [e1] at h1
  rw [e2] at h2
  exact ⟨⟨_, h1, h2⟩, _, h1, by decide⟩

example : List.filter objMatters [b!"# x", b!"v 1 2 3", b!"vn 0 0 1", b!"f 1 2 3", b!"v"] = [b!"v 1 2 3", b!"f 1 2 3"] ∧
    List.filter gcodeMatters [b!"; x", b!"G1 X1", b!"M104"] = [b!"G1 X1"] ∧ List.filter ptsMatters [b!"", b!"1", b!" \r"] = [b!"1"] := by decide +kernel

example : SameIndent b!"OFF" b!"OFF  " := by
  constructor
  · rintro ⟨b, r, h, hb⟩; cases h; exact absurd hb (by decide)
  · rintro ⟨b, r, h, hb⟩; cases h; exact absurd hb (by decide)

end R3D

import Verif.Props.Agree
import Verif.Props.Join
/-!
C132: the layout of a text file does not matter: how its lines end, which lines without meaning it has and how the words
of a line are separated. This file: the ends of the lines.
-/
namespace R3D
open Scalar Spec

variable {α σ τ ε δ μ : Type}

/-! ### specification -/

/-- the two files differ in the white space before the line breaks only -/
inductive Spec.SameEnds : Bytes → Bytes → Prop
  | last {c : Bytes} : (10 : UInt8) ∉ c → SameEnds c c
  | line {c p q s t : Bytes} : (10 : UInt8) ∉ c ++ p ++ q → (∀ b ∈ p ++ q, b ∈ wsBytes) → SameEnds s t →
      SameEnds (c ++ p ++ 10 :: s) (c ++ q ++ 10 :: t)

/-- the file with Windows line ends -/
def Spec.crlf (s : Bytes) : Bytes := s.flatMap fun b => if b = 10 then [13, 10] else [b]

/-! ### lines -/

theorem sameEnds_symm {s t : Bytes} (h : SameEnds s t) : SameEnds t s := by
  induction h with
  | last h => exact .last h
  | line h1 h2 _ ih =>
    refine .line ?_ ?_ ih
    · simp only [List.mem_append, not_or] at h1 ⊢
      exact ⟨⟨h1.1.1, h1.2⟩, h1.1.2⟩
    · intro b hb
      apply h2
      simp only [List.mem_append] at hb ⊢
      exact hb.symm

/-- every file is made of lines and an unfinished one -/
theorem split_first (s : Bytes) : (10 : UInt8) ∉ s ∨ ∃ c r : Bytes, (10 : UInt8) ∉ c ∧ s = c ++ 10 :: r := by
  induction s with
  | nil => left; simp
  | cons b s ih =>
    by_cases hb : b = 10
    · right; exact ⟨[], s, by simp, by simp [hb]⟩
    · rcases ih with h | ⟨c, r, h1, h2⟩
      · left; simp only [List.mem_cons, not_or]; exact ⟨Ne.symm hb, h⟩
      · right
        refine ⟨b :: c, r, ?_, by rw [h2]; rfl⟩
        simp only [List.mem_cons, not_or]; exact ⟨Ne.symm hb, h1⟩

theorem sameEnds_refl (s : Bytes) : SameEnds s s := by
  induction hn : s.length using Nat.strong_induction_on generalizing s with
  | _ n ih =>
    rcases split_first s with h | ⟨c, r, h1, h2⟩
    · exact .last h
    · have := ih r.length (by rw [← hn, h2]; simp only [List.length_append, List.length_cons]; omega) r rfl
      have := SameEnds.line (c := c) (p := []) (q := []) (by simpa using h1) (by simp) this
      rw [h2]; simpa using this

theorem crlf_append (s t : Bytes) : crlf (s ++ t) = crlf s ++ crlf t := by simp [crlf]

theorem crlf_same {c : Bytes} (h : (10 : UInt8) ∉ c) : crlf c = c := by
  induction c with
  | nil => rfl
  | cons b c ih =>
    simp only [List.mem_cons, not_or] at h
    have : crlf (b :: c) = (if b = 10 then [13, 10] else [b]) ++ crlf c := rfl
    rw [this, ih h.2, if_neg (Ne.symm h.1)]; rfl

theorem crlf_sameEnds (s : Bytes) : SameEnds s (crlf s) := by
  induction hn : s.length using Nat.strong_induction_on generalizing s with
  | _ n ih =>
    rcases split_first s with h | ⟨c, r, h1, h2⟩
    · rw [crlf_same h]; exact .last h
    · have := ih r.length (by rw [← hn, h2]; simp only [List.length_append, List.length_cons]; omega) r rfl
      have := SameEnds.line (c := c) (p := []) (q := [13]) (by simpa using h1) (by simp [wsBytes]) this
      have e : crlf s = c ++ [13] ++ 10 :: crlf r := by
        have e' : crlf (10 :: r) = [13, 10] ++ crlf r := rfl
        rw [h2, crlf_append, crlf_same h1, e']
        simp
      rw [e, h2]; simpa using this

theorem readUntilNl_line (c s : Bytes) (h : (10 : UInt8) ∉ c) : readUntilNl (c ++ 10 :: s) = (nl c, s) := by
  induction c with
  | nil => simp [readUntilNl, nl]
  | cons b c ih =>
    simp only [List.mem_cons, not_or] at h
    simp only [List.cons_append, readUntilNl, if_neg (Ne.symm h.1), ih h.2]
    rfl

theorem fetchLine_line (c s : Bytes) (h : (10 : UInt8) ∉ c) : fetchLine (c ++ 10 :: s) = some (cleanLine (nl c), s) := by
  unfold fetchLine
  rw [readUntilNl_line c s h]
  simp [nl]

theorem readUntilNl_last (c : Bytes) (h : (10 : UInt8) ∉ c) : readUntilNl c = (c, []) := by
  induction c with
  | nil => rfl
  | cons b c ih =>
    simp only [List.mem_cons, not_or] at h
    simp only [readUntilNl, if_neg (Ne.symm h.1), ih h.2]

theorem cleanLine_pad (c p : Bytes) (h : ∀ b ∈ p, b ∈ wsBytes) : cleanLine (nl (c ++ p)) = cleanLine (nl c) := by
  obtain ⟨w, h1, h2, h3⟩ := cleanLine_spec (nl c)
  refine cleanLine_nl _ _ ⟨w ++ p, ?_, ?_, h3⟩
  · rw [show (nl c).dropLast = c from List.dropLast_concat] at h1
    rw [← List.append_assoc, ← h1]
  · intro b hb
    rcases List.mem_append.1 hb with hb | hb
    · exact h2 b hb
    · exact h b hb

theorem fetchLine_sameEnds {s t : Bytes} (h : SameEnds s t) :
    (fetchLine s = none ∧ fetchLine t = none) ∨
    ∃ l r u, fetchLine s = some (l, r) ∧ fetchLine t = some (l, u) ∧ SameEnds r u := by
  cases h with
  | last h =>
    cases hf : fetchLine s with
    | none => left; exact ⟨rfl, rfl⟩
    | some x => right; exact ⟨x.1, x.2, x.2, rfl, rfl, sameEnds_refl _⟩
  | @line c p q s t h1 h2 h3 =>
    right
    have hp : (10 : UInt8) ∉ c ++ p := fun hm => h1 (by rw [List.mem_append]; exact .inl hm)
    have hq : (10 : UInt8) ∉ c ++ q := fun hm => h1 (by
      simp only [List.mem_append] at hm ⊢
      tauto)
    refine ⟨cleanLine (nl c), s, t, ?_, ?_, h3⟩
    · rw [fetchLine_line _ _ hp, cleanLine_pad c p fun b hb => h2 b (by simp [hb])]
    · rw [fetchLine_line _ _ hq, cleanLine_pad c q fun b hb => h2 b (by simp [hb])]

theorem lines_sameEnds {s t : Bytes} (h : SameEnds s t) : lines s = lines t := by
  induction hn : s.length using Nat.strong_induction_on generalizing s t with
  | _ n ih =>
    rcases fetchLine_sameEnds h with ⟨h1, h2⟩ | ⟨l, r, u, h1, h2, h3⟩
    · rw [(lines_fetchLine s).2 h1, (lines_fetchLine t).2 h2]
    · rw [(lines_fetchLine s).1 _ _ h1, (lines_fetchLine t).1 _ _ h2]
      have := fetchLine_length h1
      rw [ih r.length (by omega) h3 rfl]

/-! ### loops -/

/-- the same steps give the same result, up to `k` of the errors -/
theorem forEach_same {R : σ → τ → Prop} (k : ε → δ) {next : σ → Panics (Option (Except ε α) × σ)}
    {next' : τ → Panics (Option (Except ε α) × τ)} {push : μ → α → μ × Except ε Unit} (len : σ → Nat) (len' : τ → Nat)
    (step : ∀ s t, R s t → (next s = none ∧ next' t = none) ∨
      (∃ s' t', next s = some (none, s') ∧ next' t = some (none, t')) ∨
      (∃ e e' s' t', next s = some (some (.error e), s') ∧ next' t = some (some (.error e'), t') ∧ k e = k e') ∨
      (∃ a s' t', next s = some (some (.ok a), s') ∧ next' t = some (some (.ok a), t') ∧ R s' t' ∧ len s' < len s ∧ len' t' < len' t)) :
    ∀ (n n' : Nat) (s : σ) (t : τ) (m : μ), R s t → len s < n → len' t < n' →
      (forEach next push n s m).map (fun r => (r.1, r.2.mapError k)) = (forEach next' push n' t m).map (fun r => (r.1, r.2.mapError k)) := by
  intro n
  induction n with
  | zero => intro n' s t m _ h; omega
  | succ n ih =>
    intro n' s t m hR h h'
    obtain ⟨n', rfl⟩ : ∃ j, n' = j + 1 := ⟨n' - 1, by omega⟩
    unfold forEach
    rcases step s t hR with ⟨h1, h2⟩ | ⟨s', t', h1, h2⟩ | ⟨e, e', s', t', h1, h2, h3⟩ | ⟨a, s', t', h1, h2, h3, h4, h5⟩
    · rw [h1, h2]
    · rw [h1, h2]
    · rw [h1, h2]; simp [Except.mapError, h3]
    · rw [h1, h2]
      dsimp only
      rcases push m a with ⟨m', e | u⟩
      · rfl
      · exact ih n' s' t' m' h3 (by omega) (by omega)

theorem mapError_id (r : Option (μ × Except ε Unit)) : r.map (fun r => (r.1, r.2.mapError id)) = r := by
  rcases r with _ | ⟨m, e | u⟩ <;> rfl

/-! ### STL -/

theorem stlLine_sameEnds {s t : Bytes} (h : SameEnds s t) (i : Nat) :
    (∃ e, stlLine (s, i) = (.error e, (s, i)) ∧ stlLine (t, i) = (.error e, (t, i))) ∨
    ∃ l r u, stlLine (s, i) = (.ok l, (r, i + 1)) ∧ stlLine (t, i) = (.ok l, (u, i + 1)) ∧ SameEnds r u ∧
      r.length < s.length ∧ u.length < t.length := by
  unfold stlLine
  rcases fetchLine_sameEnds h with ⟨h1, h2⟩ | ⟨l, r, u, h1, h2, h3⟩
  · left; exact ⟨_, by rw [h1], by rw [h2]⟩
  · right; exact ⟨l, r, u, by rw [h1], by rw [h2], h3, fetchLine_length h1, fetchLine_length h2⟩

/-- two results of parsing that differ in the ends of the lines left only; a success has consumed a line -/
def StlSame {β : Type} (s t : Bytes) (x y : Except (LineInfo StlError) β × (Bytes × Nat)) : Prop :=
  x.1 = y.1 ∧ SameEnds x.2.1 y.2.1 ∧ x.2.2 = y.2.2 ∧ x.2.1.length ≤ s.length ∧ y.2.1.length ≤ t.length ∧
    (∀ v, x.1 = .ok v → x.2.1.length < s.length ∧ y.2.1.length < t.length)

theorem stl_bind {β γ : Type} {f : StlM β} {g : β → StlM γ} (x : Bytes × Nat) :
    (f >>= g) x = match f x with
      | (.ok v, y) => g v y
      | (.error e, y) => (.error e, y) := by
  show (ExceptT.bind f g).run x = _
  simp only [ExceptT.bind, ExceptT.run, ExceptT.mk]
  show (StateT.bind f (ExceptT.bindCont g)) x = _
  simp only [StateT.bind]
  show (match f x with | (a, s) => ExceptT.bindCont g a s) = _
  rcases f x with ⟨e | v, y⟩ <;> rfl

theorem stlSame_bind {β γ : Type} {f : StlM β} {g : β → StlM γ} {s t : Bytes} {i : Nat}
    (hf : StlSame s t (f (s, i)) (f (t, i)))
    (hg : ∀ v s t i, SameEnds s t → (g v (s, i)).1 = (g v (t, i)).1 ∧ SameEnds (g v (s, i)).2.1 (g v (t, i)).2.1 ∧
      (g v (s, i)).2.2 = (g v (t, i)).2.2 ∧ (g v (s, i)).2.1.length ≤ s.length ∧ (g v (t, i)).2.1.length ≤ t.length) :
    StlSame s t ((f >>= g) (s, i)) ((f >>= g) (t, i)) := by
  rw [stl_bind, stl_bind]
  rcases hx : f (s, i) with ⟨a, r, j⟩
  rcases hy : f (t, i) with ⟨b, u, k⟩
  rw [hx, hy] at hf
  obtain ⟨h1, h2, h3, h4, h5, h6⟩ := hf
  dsimp only at h1 h2 h3 h4 h5 h6
  subst h1 h3
  rcases a with e | v
  · exact ⟨rfl, h2, rfl, h4, h5, fun v h => by cases h⟩
  · obtain ⟨h7, h8⟩ := h6 v rfl
    obtain ⟨g1, g2, g3, g4, g5⟩ := hg v r u j h2
    exact ⟨g1, g2, g3, by dsimp only; omega, by dsimp only; omega, fun _ _ => ⟨by dsimp only; omega, by dsimp only; omega⟩⟩

theorem stlSame_weak {β : Type} {s t : Bytes} {x y : Except (LineInfo StlError) β × (Bytes × Nat)} (h : StlSame s t x y) :
    x.1 = y.1 ∧ SameEnds x.2.1 y.2.1 ∧ x.2.2 = y.2.2 ∧ x.2.1.length ≤ s.length ∧ y.2.1.length ≤ t.length :=
  ⟨h.1, h.2.1, h.2.2.1, h.2.2.2.1, h.2.2.2.2.1⟩

theorem stlLine_same {s t : Bytes} (h : SameEnds s t) (i : Nat) : StlSame s t (stlLine (s, i)) (stlLine (t, i)) := by
  rcases stlLine_sameEnds h i with ⟨e, h1, h2⟩ | ⟨l, r, u, h1, h2, h3, h4, h5⟩
  · rw [h1, h2]; exact ⟨rfl, h, rfl, Nat.le_refl _, Nat.le_refl _, fun v h => by cases h⟩
  · rw [h1, h2]; exact ⟨rfl, h3, rfl, Nat.le_of_lt h4, Nat.le_of_lt h5, fun _ _ => ⟨h4, h5⟩⟩

theorem stlVertexLine_same (T : FloatText F64) {s t : Bytes} (h : SameEnds s t) (i : Nat) :
    StlSame s t (stlVertexLine T (s, i)) (stlVertexLine T (t, i)) := by
  refine stlSame_bind (stlLine_same h i) ?_
  intro v s t i h
  cases readStlVertex T v <;> exact ⟨rfl, h, rfl, Nat.le_refl _, Nat.le_refl _⟩

theorem stlKeywordLine_same (k : Bytes) (e : StlError) {s t : Bytes} (h : SameEnds s t) (i : Nat) :
    StlSame s t (stlKeywordLine k e (s, i)) (stlKeywordLine k e (t, i)) := by
  refine stlSame_bind (stlLine_same h i) ?_
  intro v s t i h
  split_ifs <;> exact ⟨rfl, h, rfl, Nat.le_refl _, Nat.le_refl _⟩

theorem stlFacetLine_same (T : FloatText F64) {s t : Bytes} (h : SameEnds s t) (i : Nat) :
    StlSame s t (stlFacetLine T (s, i)) (stlFacetLine T (t, i)) := by
  refine stlSame_bind (stlLine_same h i) ?_
  intro v s t i h
  split_ifs <;> exact ⟨rfl, h, rfl, Nat.le_refl _, Nat.le_refl _⟩

theorem readStlFacet_same (T : FloatText F64) {s t : Bytes} (h : SameEnds s t) (i : Nat) :
    StlSame s t (readStlFacet T (s, i)) (readStlFacet T (t, i)) := by
  unfold readStlFacet
  refine stlSame_bind (stlFacetLine_same T h i) fun n s t i h => stlSame_weak ?_
  refine stlSame_bind (stlKeywordLine_same _ _ h i) fun _ s t i h => stlSame_weak ?_
  refine stlSame_bind (stlVertexLine_same T h i) fun a s t i h => stlSame_weak ?_
  refine stlSame_bind (stlVertexLine_same T h i) fun b s t i h => stlSame_weak ?_
  refine stlSame_bind (stlVertexLine_same T h i) fun c s t i h => stlSame_weak ?_
  refine stlSame_bind (stlKeywordLine_same _ _ h i) fun _ s t i h => stlSame_weak ?_
  refine stlSame_bind (stlKeywordLine_same _ _ h i) fun _ s t i h => ?_
  exact ⟨rfl, h, rfl, Nat.le_refl _, Nat.le_refl _⟩

theorem prefix_word {k c w : Bytes} {X : UInt8 → Prop} (h : k <+: c ++ w) (hk : ∀ b ∈ k, ¬ X b)
    (hw : ∀ b, w.head? = some b → X b) : k <+: c := by
  induction c generalizing k with
  | nil =>
    cases k with
    | nil => exact List.prefix_refl _
    | cons b k =>
      cases w with
      | nil => exact h
      | cons x w =>
        rw [List.nil_append, List.cons_prefix_cons] at h
        exact absurd (hw x rfl) (h.1 ▸ hk b (by simp))
  | cons x c ih =>
    cases k with
    | nil => exact List.nil_prefix
    | cons b k =>
      rw [List.cons_append, List.cons_prefix_cons] at h
      rw [List.cons_prefix_cons]
      exact ⟨h.1, ih h.2 fun b hb => hk b (by simp [hb])⟩

theorem readUntilNl_length (s : Bytes) : (readUntilNl s).2.length ≤ s.length := by
  induction s with
  | nil => exact Nat.le_refl _
  | cons b s ih =>
    unfold readUntilNl
    split_ifs
    · simp
    · simp only [List.length_cons]; omega

/-- both iterators are at the same line -/
def StlBoth (a b : StlIter) : Prop :=
  ∃ s t : StlAsciiIter, a = .Ascii s ∧ b = .Ascii t ∧ s.isDone = false ∧ t.isDone = false ∧ s.headerRead = t.headerRead ∧ s.iLine = t.iLine ∧
    SameEnds (if s.headerRead then s.read else (readUntilNl s.read).2) (if t.headerRead then t.read else (readUntilNl t.read).2)

def stlLeft : StlIter → Nat
  | .Ascii s => s.read.length
  | .Binary s => s.read.length

theorem stlForEach_same (T : FloatText F64) {s t : Bytes} (h : SameEnds s t) (hs : b!"solid" <+: s) (format : StlFormat)
    (hf : format ≠ .Binary) (push : μ → StlItem StlPoint → μ) (m : μ) :
    stlForEach T push s format m = stlForEach T push t format m := by
  obtain ⟨s', rfl⟩ := hs
  have hrest : ∃ t', t = b!"solid" ++ t' ∧ SameEnds (readUntilNl s').2 (readUntilNl t').2 := by
    generalize hx : b!"solid" ++ s' = x at h
    cases h with
    | last h => exact ⟨s', hx.symm, sameEnds_refl _⟩
    | @line c p q s t h1 h2 h3 =>
      have hpre : b!"solid" <+: c := by
        have e1 : b!"solid" <+: c ++ (p ++ 10 :: s) := ⟨s', by rw [hx, List.append_assoc]⟩
        refine prefix_word (X := fun b => b ∈ wsBytes) e1 (by decide) ?_
        intro b hb
        cases p with
        | nil => cases hb; decide
        | cons x p => cases hb; exact h2 _ (by simp)
      obtain ⟨c', rfl⟩ := hpre
      refine ⟨c' ++ q ++ 10 :: t, by simp, ?_⟩
      have hp : (10 : UInt8) ∉ c' ++ p := fun hm => h1 (by simp only [List.mem_append] at hm ⊢; tauto)
      have hq : (10 : UInt8) ∉ c' ++ q := fun hm => h1 (by simp only [List.mem_append] at hm ⊢; tauto)
      have e : s' = c' ++ p ++ 10 :: s := by
        simpa using hx
      rw [e, readUntilNl_line _ _ hp, readUntilNl_line _ _ hq]
      exact h3
  obtain ⟨t', rfl, hst⟩ := hrest
  have hnew : ∀ r : Bytes, stlNew (b!"solid" ++ r) format = .ok (.Ascii ⟨r, false, false, 0⟩) := by
    intro r
    have e : readExact 5 (b!"solid" ++ r) = some (b!"solid", r) := by
      simp [readExact]
    unfold stlNew
    rw [e]
    cases format with
    | Binary => exact absurd rfl hf
    | Ascii => rfl
    | Auto => rfl
  unfold stlForEach
  rw [hnew, hnew]
  dsimp only
  rw [← mapError_id (forEach _ _ _ (StlIter.Ascii ⟨s', _, _, _⟩) _), ← mapError_id (forEach _ _ _ (StlIter.Ascii ⟨t', _, _, _⟩) _)]
  refine forEach_same (R := StlBoth) id stlLeft stlLeft ?_ _ _ _ _ _ ⟨_, _, rfl, rfl, rfl, rfl, rfl, rfl, by simpa using hst⟩
    (by simp only [stlLeft, List.length_append]; omega) (by simp only [stlLeft, List.length_append]; omega)
  rintro _ _ ⟨s, t, rfl, rfl, h1, h2, h3, h4, h5⟩
  obtain ⟨sr, sd, sh, si⟩ := s
  obtain ⟨tr, td, th, ti⟩ := t
  dsimp only at h1 h2 h3 h4 h5
  subst h1 h2 h3 h4
  right
  obtain ⟨x, y, k, hx, hy, hxy, hlx, hly⟩ : ∃ x y k, (if sh then (sr, si) else ((readUntilNl sr).2, si + 1)) = (x, k) ∧
      (if sh then (tr, si) else ((readUntilNl tr).2, si + 1)) = (y, k) ∧ SameEnds x y ∧ x.length ≤ sr.length ∧ y.length ≤ tr.length := by
    cases sh with
    | true => exact ⟨sr, tr, si, rfl, rfl, by simpa using h5, Nat.le_refl _, Nat.le_refl _⟩
    | false => exact ⟨_, _, _, rfl, rfl, by simpa using h5, readUntilNl_length _, readUntilNl_length _⟩
  have hsame := readStlFacet_same T hxy k
  simp only [stlNext, stlAsciiNext, Bool.false_eq_true, if_false, hx, hy]
  rcases e1 : readStlFacet T (x, k) with ⟨a, r, j⟩
  rcases e2 : readStlFacet T (y, k) with ⟨b, u, l⟩
  rw [e1, e2] at hsame
  obtain ⟨g1, g2, g3, g4, g5, g6⟩ := hsame
  dsimp only at g1 g2 g3 g4 g5 g6
  subst g1 g3
  rcases a with e | v
  · dsimp only
    by_cases he : e.err = .LoadFileEndReached
    · left; rw [if_pos he, if_pos he]; exact ⟨_, _, rfl, rfl⟩
    · right; left; rw [if_neg he, if_neg he]; exact ⟨_, _, _, _, rfl, rfl, rfl⟩
  · right; right
    obtain ⟨g7, g8⟩ := g6 v rfl
    refine ⟨_, _, _, rfl, rfl, ⟨_, _, rfl, rfl, rfl, rfl, rfl, rfl, by simpa using g2⟩, ?_, ?_⟩
    · simp only [stlLeft]; omega
    · simp only [stlLeft]; omega

/-! ### PLY -/

/-- the data is the same, for text up to the ends of the lines -/
def PlyRest (f : PlyFormat) (r u : Bytes) : Prop := r = u ∨ (f = .Ascii ∧ SameEnds r u)

/-- two cursors at the same place -/
def PlyCursorSame (f : PlyFormat) (a b : PlyCursor) : Prop :=
  PlyRest f a.read b.read ∧ a.isDone = b.isDone ∧ a.current = b.current ∧ a.iLine = b.iLine

theorem plyCursor_eq {f : PlyFormat} {a b : PlyCursor} (h : PlyCursorSame f a b) : a = b ∨ (f = .Ascii ∧ SameEnds a.read b.read ∧
    b = ⟨b.read, a.isDone, a.current, a.iLine⟩) := by
  obtain ⟨ar, ad, ac, ai⟩ := a
  obtain ⟨br, bd, bc, bi⟩ := b
  obtain ⟨h1, h2, h3, h4⟩ := h
  dsimp only at h1 h2 h3 h4
  subst h2 h3 h4
  rcases h1 with rfl | ⟨h1, h2⟩
  · left; rfl
  · right; exact ⟨h1, h2, rfl⟩

theorem plyCursorSame_refl (f : PlyFormat) (a : PlyCursor) : PlyCursorSame f a a := ⟨.inl rfl, rfl, rfl, rfl⟩

theorem plyPointsInner_same (T : FloatText F64) (f : PlyFormat) (h : PlyVertexData) {a b : PlyCursor} (hab : PlyCursorSame f a b) :
    (plyPointsInner T f h a).1 = (plyPointsInner T f h b).1 ∧ PlyCursorSame f (plyPointsInner T f h a).2 (plyPointsInner T f h b).2 := by
  rcases plyCursor_eq hab with rfl | ⟨rfl, he, hb⟩
  · exact ⟨rfl, plyCursorSame_refl _ _⟩
  obtain ⟨r, d, c, i⟩ := a
  rw [hb]
  generalize b.read = u at he ⊢
  dsimp only at he
  show (plyAsciiPointsNext T h _).1 = _ ∧ PlyCursorSame _ (plyAsciiPointsNext T h _).2 (plyAsciiPointsNext T h _).2
  unfold plyAsciiPointsNext plyPointsInner plyAsciiPointsNext plyAsciiPointsEnd
  dsimp only
  split_ifs with h1 h2
  all_goals try exact ⟨rfl, .inr ⟨rfl, he⟩, rfl, rfl, rfl⟩
  all_goals
    rcases fetchLine_sameEnds he with ⟨e1, e2⟩ | ⟨l, r', u', e1, e2, e3⟩
    · rw [e1, e2]
      exact ⟨rfl, .inr ⟨rfl, he⟩, rfl, rfl, rfl⟩
    · rw [e1, e2]
      dsimp only
      cases plyAsciiVertex T h l <;> exact ⟨rfl, .inr ⟨rfl, e3⟩, rfl, rfl, rfl⟩

theorem plyFacesInner_same (f : PlyFormat) (h : PlyFaceData) {a b : PlyCursor} (hab : PlyCursorSame f a b) :
    (plyFacesInner f h a).1 = (plyFacesInner f h b).1 ∧ PlyCursorSame f (plyFacesInner f h a).2 (plyFacesInner f h b).2 := by
  rcases plyCursor_eq hab with rfl | ⟨rfl, he, hb⟩
  · exact ⟨rfl, plyCursorSame_refl _ _⟩
  obtain ⟨r, d, c, i⟩ := a
  rw [hb]
  generalize b.read = u at he ⊢
  dsimp only at he
  unfold plyFacesInner plyAsciiFacesNext
  dsimp only
  split_ifs with h1 h2
  all_goals try exact ⟨rfl, .inr ⟨rfl, he⟩, rfl, rfl, rfl⟩
  all_goals
    rcases fetchLine_sameEnds he with ⟨e1, e2⟩ | ⟨l, r', u', e1, e2, e3⟩
    · rw [e1, e2]
      exact ⟨rfl, .inr ⟨rfl, he⟩, rfl, rfl, rfl⟩
    · rw [e1, e2]
      dsimp only
      cases plyIndexLine l <;> exact ⟨rfl, .inr ⟨rfl, e3⟩, rfl, rfl, rfl⟩

/-- two mesh cursors at the same place -/
def PlyMeshSame (f : PlyFormat) : PlyMeshCursor → PlyMeshCursor → Prop
  | .points a, .points b => PlyCursorSame f a b
  | .faces a, .faces b => PlyCursorSame f a b
  | _, _ => False

theorem plyMeshFaces_same (f : PlyFormat) (h : PlyFaceData) {a b : PlyCursor} (hab : PlyCursorSame f a b) :
    (plyMeshFaces f h a).1 = (plyMeshFaces f h b).1 ∧ PlyMeshSame f (plyMeshFaces f h a).2 (plyMeshFaces f h b).2 := by
  obtain ⟨h1, h2⟩ := plyFacesInner_same f h hab
  unfold plyMeshFaces
  rcases ea : plyFacesInner f h a with ⟨x, a'⟩
  rcases eb : plyFacesInner f h b with ⟨y, b'⟩
  rw [ea, eb] at h1 h2
  change x = y at h1
  subst h1
  rcases x with _ | e | ⟨p, q, r⟩ <;> exact ⟨rfl, h2⟩

theorem plyMeshInner_same (T : FloatText F64) (f : PlyFormat) (hv : PlyVertexData) (hf : PlyFaceData) {a b : PlyMeshCursor}
    (hab : PlyMeshSame f a b) :
    (plyMeshInner T f hv hf a).1 = (plyMeshInner T f hv hf b).1 ∧ PlyMeshSame f (plyMeshInner T f hv hf a).2 (plyMeshInner T f hv hf b).2 := by
  match a, b, hab with
  | .faces a, .faces b, hab => exact plyMeshFaces_same f hf hab
  | .points a, .points b, hab =>
    obtain ⟨h1, h2⟩ := plyPointsInner_same T f hv hab
    unfold plyMeshInner
    rcases ea : plyPointsInner T f hv a with ⟨x, a'⟩
    rcases eb : plyPointsInner T f hv b with ⟨y, b'⟩
    rw [ea, eb] at h1 h2
    change x = y at h1
    change PlyCursorSame f a' b' at h2
    subst h1
    dsimp only
    rw [ea, eb]
    rcases x with _ | e | p
    · exact plyMeshFaces_same f hf ⟨h2.1, rfl, rfl, h2.2.2.2⟩
    · exact ⟨rfl, h2⟩
    · exact ⟨rfl, h2⟩

/-- two results of reading the header -/
def PlyHeadSame (x y : Panics (Except (LineInfo PlyError) (PlyHeader × Bytes × Nat))) : Prop :=
  (x = none ∧ y = none) ∨ (∃ e, x = some (.error e) ∧ y = some (.error e)) ∨
  ∃ h r u i, x = some (.ok (h, r, i)) ∧ y = some (.ok (h, u, i)) ∧ PlyRest h.format r u

theorem plyHeaderLoop_length : ∀ (n : Nat) (s : Bytes) (i : Nat) (st : PlyHeaderState) (h r j),
    plyHeaderLoop n s i st = some (.ok (h, r, j)) → r.length < s.length := by
  intro n
  induction n with
  | zero => intro s i st h r j e; cases e
  | succ n ih =>
    intro s i st h r j e
    unfold plyHeaderLoop at e
    cases hf : fetchLine s with
    | none => rw [hf] at e; simp at e
    | some lr =>
      obtain ⟨l, r'⟩ := lr
      have hl := fetchLine_length hf
      rw [hf] at e
      dsimp only at e
      rcases hp : plyHeaderLine l st with _ | (x | (st' | hd))
      · rw [hp] at e; simp at e
      · rw [hp] at e; simp at e
      · rw [hp] at e
        have := ih _ _ _ _ _ _ e
        omega
      · rw [hp] at e
        simp only [Option.some.injEq, Except.ok.injEq, Prod.mk.injEq] at e
        obtain ⟨-, rfl, -⟩ := e
        exact hl

theorem plyHeaderLoop_same : ∀ (n n' : Nat) (s t : Bytes) (i : Nat) (st : PlyHeaderState), SameEnds s t → s.length < n → t.length < n' →
    (plyHeaderLoop n s i st = none ∧ plyHeaderLoop n' t i st = none) ∨
    (∃ e, plyHeaderLoop n s i st = some (.error e) ∧ plyHeaderLoop n' t i st = some (.error e)) ∨
    ∃ h r u j, plyHeaderLoop n s i st = some (.ok (h, r, j)) ∧ plyHeaderLoop n' t i st = some (.ok (h, u, j)) ∧ SameEnds r u := by
  intro n
  induction n with
  | zero => intro n' s t i st _ h; omega
  | succ n ih =>
    intro n' s t i st hst hn hn'
    obtain ⟨n', rfl⟩ : ∃ j, n' = j + 1 := ⟨n' - 1, by omega⟩
    unfold plyHeaderLoop
    rcases fetchLine_sameEnds hst with ⟨e1, e2⟩ | ⟨l, r', u', e1, e2, e3⟩
    · rw [e1, e2]; right; left; exact ⟨_, rfl, rfl⟩
    · have h1 := fetchLine_length e1
      have h2 := fetchLine_length e2
      rw [e1, e2]
      dsimp only
      rcases hp : plyHeaderLine l st with _ | (x | (st' | hd))
      · left; exact ⟨rfl, rfl⟩
      · right; left; exact ⟨_, rfl, rfl⟩
      · exact ih n' r' u' (i + 1) st' e3 (by omega) (by omega)
      · right; right; exact ⟨_, _, _, _, rfl, rfl, e3⟩

theorem plyHeaderLine_done {l : Bytes} {s : PlyHeaderState} {h : PlyHeader} (e : plyHeaderLine l s = some (.ok (.done h))) :
    l = b!"end_header" := by
  have hrest : plyHeaderRest l s = some (.ok (.done h)) → l = b!"end_header" := by
    intro e
    unfold plyHeaderRest at e
    split_ifs at e with h1 h2
    · cases hs : s.readState with
      | Vertex =>
        rw [hs] at e
        rcases hv : plyVertexProperty l s with _ | (x | x) <;> rw [hv] at e <;> simp [Except.map] at e
      | Face =>
        rw [hs] at e
        rcases hv : plyFaceProperty l s with x | x <;> rw [hv] at e <;> simp [Except.map] at e
      | Meta => rw [hs] at e; simp at e
    · exact h2.1
    · simp at e
  unfold plyHeaderLine at e
  split_ifs at e
  all_goals first
    | exact hrest e
    | (split at e <;> simp at e)
    | simp at e

theorem endsLine_tail {c s : Bytes} (h : EndsLine (c ++ 10 :: s)) : EndsLine s := by
  rcases List.eq_nil_or_concat s with rfl | ⟨s, x, rfl⟩
  · exact .inl rfl
  · right
    rcases h with h | ⟨d, h⟩
    · simp at h
    · rw [List.concat_eq_append] at h ⊢
      rw [← List.cons_append, ← List.append_assoc] at h
      have := (List.append_inj' h rfl).2
      exact ⟨s, by rw [this]⟩

theorem lines_line (c s : Bytes) (h : (10 : UInt8) ∉ c) : lines (c ++ 10 :: s) = cleanLine (nl c) :: lines s :=
  (lines_fetchLine _).1 _ _ (fetchLine_line c s h)

theorem lines_eq_nil {s : Bytes} (h : lines s = []) : s = [] := by
  rcases split_first s with h1 | ⟨c, r, h1, h2⟩
  · by_contra hne
    have := rawLines_last s h1 hne
    unfold lines at h
    rw [this] at h
    simp at h
  · rw [h2, lines_line c r h1] at h
    simp at h

theorem plyHeaderLoop_body {a b : Bytes} (hab : SameEnds a b) : ∀ (ls : List Bytes) (body : Bytes) (n n' i : Nat) (st : PlyHeaderState),
    EndsLine a → lines a = ls ++ [b!"end_header"] → b!"end_header" ∉ ls → (a ++ body).length < n → (b ++ body).length < n' →
    (plyHeaderLoop n (a ++ body) i st = none ∧ plyHeaderLoop n' (b ++ body) i st = none) ∨
    (∃ e, plyHeaderLoop n (a ++ body) i st = some (.error e) ∧ plyHeaderLoop n' (b ++ body) i st = some (.error e)) ∨
    ∃ h r j, plyHeaderLoop n (a ++ body) i st = some (.ok (h, r, j)) ∧ plyHeaderLoop n' (b ++ body) i st = some (.ok (h, r, j)) := by
  induction hab with
  | @last c h =>
    intro ls body n n' i st ha hl
    rcases ha with rfl | ⟨d, rfl⟩
    · simp [lines, rawLines] at hl
    · simp at h
  | @line c p q s t h1 h2 h3 ih =>
    intro ls body n n' i st ha hl hne hn hn'
    obtain ⟨n, rfl⟩ : ∃ j, n = j + 1 := ⟨n - 1, by omega⟩
    obtain ⟨n', rfl⟩ : ∃ j, n' = j + 1 := ⟨n' - 1, by omega⟩
    have hp : (10 : UInt8) ∉ c ++ p := fun hm => h1 (by rw [List.mem_append]; exact .inl hm)
    have hq : (10 : UInt8) ∉ c ++ q := fun hm => h1 (by simp only [List.mem_append] at hm ⊢; tauto)
    have e1 : fetchLine (c ++ p ++ 10 :: s ++ body) = some (cleanLine (nl c), s ++ body) := by
      rw [List.append_assoc, List.cons_append, fetchLine_line _ _ hp, cleanLine_pad c p fun b hb => h2 b (by simp [hb])]
    have e2 : fetchLine (c ++ q ++ 10 :: t ++ body) = some (cleanLine (nl c), t ++ body) := by
      rw [List.append_assoc, List.cons_append, fetchLine_line _ _ hq, cleanLine_pad c q fun b hb => h2 b (by simp [hb])]
    have e3 : lines (c ++ p ++ 10 :: s) = cleanLine (nl c) :: lines s := by
      rw [lines_line _ _ hp, cleanLine_pad c p fun b hb => h2 b (by simp [hb])]
    have e4 := fetchLine_length e1
    have e5 := fetchLine_length e2
    rw [e3] at hl
    have hempty : lines s = [] → s = [] ∧ t = [] := fun e => ⟨lines_eq_nil e, lines_eq_nil (by rw [← lines_sameEnds h3, e])⟩
    unfold plyHeaderLoop
    rw [e1, e2]
    dsimp only
    rcases hs : plyHeaderLine (cleanLine (nl c)) st with _ | (x | (st' | hd))
    · left; exact ⟨rfl, rfl⟩
    · right; left; exact ⟨_, rfl, rfl⟩
    · dsimp only
      cases ls with
      | nil =>
        simp only [List.nil_append, List.cons.injEq] at hl
        obtain ⟨rfl, rfl⟩ := hempty hl.2
        simp only [List.nil_append] at e4 e5 ⊢
        have : ∀ k k' (u : Bytes) i st, u.length < k → u.length < k' → plyHeaderLoop k u i st = plyHeaderLoop k' u i st := by
          intro k
          induction k with
          | zero => intro k' u i st h; omega
          | succ k ih =>
            intro k' u i st hk hk'
            obtain ⟨k', rfl⟩ : ∃ j, k' = j + 1 := ⟨k' - 1, by omega⟩
            unfold plyHeaderLoop
            cases hf : fetchLine u with
            | none => rfl
            | some lr =>
              obtain ⟨l, r⟩ := lr
              have := fetchLine_length hf
              dsimp only
              rcases plyHeaderLine l st with _ | (x | (st' | hd))
              · rfl
              · rfl
              · exact ih k' r (i + 1) st' (by omega) (by omega)
              · rfl
        rw [this n n' body (i + 1) st' (by omega) (by omega)]
        rcases plyHeaderLoop n' body (i + 1) st' with _ | (x | ⟨h, r, j⟩)
        · left; exact ⟨rfl, rfl⟩
        · right; left; exact ⟨_, rfl, rfl⟩
        · right; right; exact ⟨_, _, _, rfl, rfl⟩
      | cons l ls =>
        simp only [List.cons_append, List.cons.injEq] at hl
        exact ih ls body n n' (i + 1) st' (endsLine_tail ha) hl.2 (fun hm => hne (by simp [hm])) (by omega) (by omega)
    · have hend := plyHeaderLine_done hs
      cases ls with
      | nil =>
        simp only [List.nil_append, List.cons.injEq] at hl
        obtain ⟨rfl, rfl⟩ := hempty hl.2
        right; right; exact ⟨_, _, _, rfl, rfl⟩
      | cons l ls =>
        simp only [List.cons_append, List.cons.injEq] at hl
        exact absurd (by rw [← hl.1, hend]; simp) hne

/-- two files for which the header says the same and the data is the same -/
theorem ply_same (T : FloatText F64) {s t : Bytes} (h : PlyHeadSame (plyLoadHeader s) (plyLoadHeader t)) (m : TMesh PlyPoint) (ip : List PlyPoint) :
    loadPlyMesh T s m = loadPlyMesh T t m ∧ loadPlyPoints T s ip = loadPlyPoints T t ip ∧ loadPlyEither T s m ip = loadPlyEither T t m ip := by
  unfold loadPlyMesh loadPlyPoints loadPlyEither PlyMeshIter.new PlyPointsIter.new
  rcases h with ⟨h1, h2⟩ | ⟨e, h1, h2⟩ | ⟨h, r, u, i, h1, h2, h3⟩
  · rw [h1, h2]; exact ⟨rfl, rfl, rfl⟩
  · rw [h1, h2]; exact ⟨rfl, rfl, rfl⟩
  · have l1 : r.length < s.length := plyHeaderLoop_length _ _ _ _ _ _ _ h1
    have l2 : u.length < t.length := plyHeaderLoop_length _ _ _ _ _ _ _ h2
    rw [h1, h2]
    dsimp only
    have hmesh : ∀ f n n', r.length + 1 < n → u.length + 1 < n' →
        forEach (fun s => some (plyMeshInner T h.format h.vertex f s)) plyPush n (.points ⟨r, false, 0, i⟩) m =
        forEach (fun s => some (plyMeshInner T h.format h.vertex f s)) plyPush n' (.points ⟨u, false, 0, i⟩) m := by
      intro f n n' hn hn'
      rw [← mapError_id (forEach _ _ n _ _), ← mapError_id (forEach _ _ n' _ _)]
      refine forEach_same (R := PlyMeshSame h.format) id (fun s => s.read.length) (fun s => s.read.length) ?_ _ _ _ _ _
        ⟨h3, rfl, rfl, rfl⟩ (by simp only [PlyMeshCursor.read]; omega) (by simp only [PlyMeshCursor.read]; omega)
      intro a b hab
      obtain ⟨g1, g2⟩ := plyMeshInner_same T h.format h.vertex f hab
      right
      rcases ea : plyMeshInner T h.format h.vertex f a with ⟨x, a'⟩
      rcases eb : plyMeshInner T h.format h.vertex f b with ⟨y, b'⟩
      rw [ea, eb] at g1 g2
      change x = y at g1
      subst g1
      rcases x with _ | (e | v)
      · left; exact ⟨_, _, rfl, rfl⟩
      · right; left; exact ⟨_, _, _, _, rfl, rfl, rfl⟩
      · right; right
        exact ⟨_, _, _, rfl, rfl, g2, (plyMeshInner_shorter _ _ _ _ _ _ _ ea).1, (plyMeshInner_shorter _ _ _ _ _ _ _ eb).1⟩
    have hpoints : ∀ n n', r.length + 1 < n → u.length + 1 < n' →
        forEach (fun s => let r := plyPointsInner T h.format h.vertex s; some (plyData r.1, r.2)) pushItem n ⟨r, false, 0, i⟩ ip =
        forEach (fun s => let r := plyPointsInner T h.format h.vertex s; some (plyData r.1, r.2)) pushItem n' ⟨u, false, 0, i⟩ ip := by
      intro n n' hn hn'
      rw [← mapError_id (forEach _ _ n _ _), ← mapError_id (forEach _ _ n' _ _)]
      refine forEach_same (R := PlyCursorSame h.format) id (fun s => s.read.length) (fun s => s.read.length) ?_ _ _ _ _ _
        ⟨h3, rfl, rfl, rfl⟩ (by dsimp only; omega) (by dsimp only; omega)
      intro a b hab
      obtain ⟨g1, g2⟩ := plyPointsInner_same T h.format h.vertex hab
      right
      dsimp only
      rcases ea : plyPointsInner T h.format h.vertex a with ⟨x, a'⟩
      rcases eb : plyPointsInner T h.format h.vertex b with ⟨y, b'⟩
      rw [ea, eb] at g1 g2
      change x = y at g1
      subst g1
      rcases x with _ | (e | v)
      · left; exact ⟨_, _, rfl, rfl⟩
      · right; left; exact ⟨_, _, _, _, rfl, rfl, rfl⟩
      · right; right
        exact ⟨_, _, _, rfl, rfl, g2, (plyPointsInner_shorter _ _ _ _ _).1 _ ea, (plyPointsInner_shorter _ _ _ _ _).1 _ eb⟩
    refine ⟨?_, ?_, ?_⟩
    · cases h.face with
      | none => rfl
      | some f =>
        dsimp only
        have hw : ∀ n c, forEach (fun s => some (plyMeshNext T s)) plyPush (n + 1) ⟨h.format, h.vertex, f, c, some (h.vertex.count, f.count)⟩ m =
            forEach (fun s => some (plyMeshInner T h.format h.vertex f s)) plyPush n c m := by
          intro n c
          show forEach (fun s => some (plyMeshNext T s)) plyPush n ⟨h.format, h.vertex, f, c, none⟩ m = _
          exact forEach_wrap (fun c => (⟨h.format, h.vertex, f, c, none⟩ : PlyMeshIter)) (fun c => rfl) n c m
        rw [hw, hw, hmesh f (s.length + 2) (t.length + 2) (by omega) (by omega)]
    · have hw : ∀ n c, forEach (fun s => some (plyPointsNext T s)) pushItem (n + 1) ⟨h.format, h.vertex, c, some h.vertex.count⟩ ip =
          forEach (fun s => let r := plyPointsInner T h.format h.vertex s; some (plyData r.1, r.2)) pushItem n c ip := by
        intro n c
        show forEach (fun s => some (plyPointsNext T s)) pushItem n ⟨h.format, h.vertex, c, none⟩ ip = _
        exact forEach_wrap (fun c => (⟨h.format, h.vertex, c, none⟩ : PlyPointsIter)) (fun c => rfl) n c ip
      rw [hw, hw, hpoints (s.length + 2) (t.length + 2) (by omega) (by omega)]
    · cases h.face with
      | none =>
        dsimp only
        rw [hpoints (s.length + 3) (t.length + 3) (by omega) (by omega)]
      | some f =>
        dsimp only
        rw [hmesh f (s.length + 3) (t.length + 3) (by omega) (by omega)]

/-! ### the property -/

/-- two .ply files that differ in the ends of the lines only: of all lines of a text file, of the header of a binary one -/
def Spec.PlySameEnds (s t : Bytes) : Prop :=
  (SameEnds s t ∧ ∀ h r i, plyLoadHeader s = some (.ok (h, r, i)) → h.format = .Ascii) ∨
  ∃ a b body ls, s = a ++ body ∧ t = b ++ body ∧ EndsLine a ∧ SameEnds a b ∧ lines a = ls ++ [b!"end_header"] ∧ b!"end_header" ∉ ls

/-- **C132**, the ends of the lines: Windows line ends, or any white space before the line breaks, change nothing: neither what is loaded nor
the error, its line and the number of its line. -/
theorem c132_line_ends [Scalar α] (T : FloatText α) {s t : Bytes} (h : SameEnds s t) :
    loadXy T s = loadXy T t ∧ loadXyz T s = loadXyz T t ∧ loadObjPoints T s = loadObjPoints T t ∧
    (∀ m, loadObjMesh T s m = loadObjMesh T t m) ∧ loadOffPoints T s = loadOffPoints T t ∧ (∀ m, loadOffMesh T s m = loadOffMesh T t m) ∧
    loadPts T s = loadPts T t ∧ loadPtx T s = loadPtx T t ∧ (∀ zero, loadGcode T zero s = loadGcode T zero t) := by
  have e := lines_sameEnds h
  unfold loadXy loadXyz loadObjPoints loadObjMesh loadOffPoints loadOffMesh loadPts loadPtx loadGcode XyzIter.new PtxIter.new
  rw [e]
  exact ⟨rfl, rfl, rfl, fun _ => rfl, rfl, fun _ => rfl, rfl, rfl, fun _ => rfl⟩

/-- **C132**, the ends of the lines of ASCII .stl files -/
theorem c132_line_ends_stl (T : FloatText F64) {s t : Bytes} (h : SameEnds s t) (hs : b!"solid" <+: s) (format : StlFormat)
    (hf : format ≠ .Binary) (same : StlPoint → StlPoint → Bool) :
    (∀ m ns, loadStlMeshDuped T s format m ns = loadStlMeshDuped T t format m ns) ∧
    (∀ m ns, loadStlMeshUnique same T s format m ns = loadStlMeshUnique same T t format m ns) ∧
    (∀ ip ns, loadStlTriplets T s format ip ns = loadStlTriplets T t format ip ns) := by
  unfold loadStlMeshDuped loadStlMeshUnique loadStlTriplets
  refine ⟨fun _ _ => stlForEach_same T h hs format hf _ _, fun _ _ => ?_, fun _ _ => stlForEach_same T h hs format hf _ _⟩
  rw [stlForEach_same T h hs format hf]

/-- **C132**, the ends of the lines of .ply files -/
theorem c132_line_ends_ply (T : FloatText F64) {s t : Bytes} (h : PlySameEnds s t) (m : TMesh PlyPoint) (ip : List PlyPoint) :
    loadPlyMesh T s m = loadPlyMesh T t m ∧ loadPlyPoints T s ip = loadPlyPoints T t ip ∧
    loadPlyEither T s m ip = loadPlyEither T t m ip := by
  refine ply_same T ?_ m ip
  rcases h with ⟨h1, h2⟩ | ⟨a, b, body, ls, rfl, rfl, h1, h2, h3, h4⟩
  · rcases plyHeaderLoop_same (s.length + 1) (t.length + 1) s t 0 .init h1 (by omega) (by omega) with h | h | ⟨h, r, u, j, e1, e2, e3⟩
    · exact .inl h
    · exact .inr (.inl h)
    · exact .inr (.inr ⟨h, r, u, j, e1, e2, .inr ⟨h2 _ _ _ e1, e3⟩⟩)
  · rcases plyHeaderLoop_body h2 ls body ((a ++ body).length + 1) ((b ++ body).length + 1) 0 .init h1 h3 h4 (by omega) (by omega)
      with h | h | ⟨h, r, j, e1, e2⟩
    · exact .inl h
    · exact .inr (.inl h)
    · exact .inr (.inr ⟨h, r, r, j, e1, e2, .inl rfl⟩)

/-- Windows line ends are an instance -/
theorem c132_crlf (s : Bytes) : SameEnds s (crlf s) := crlf_sameEnds s

/-! ### examples -/

example : crlf b!"OFF\n1 0 0\n" = b!"OFF\r\n1 0 0\r\n" := by decide +kernel

example : SameEnds b!"1 2 3  \n4 5 6" b!"1 2 3\r\n4 5 6" :=
  .line (c := b!"1 2 3") (p := b!"  ") (q := b!"\r") (by decide) (by decide) (.last (by decide))

example : loadXyz natText (crlf b!"1 2 3\n4 5 x6\n") = some ([⟨1, 2, 3⟩], .error (.line 2 b!"4 5 x6" .Vertex)) := by decide +kernel

example : b!"solid" <+: exampleSolid ∧ SameEnds exampleSolid (crlf exampleSolid) ∧ StlFormat.Auto ≠ .Binary ∧
    (loadStlTriplets natF64 (crlf exampleSolid) .Auto [] []).map (fun r => (r.1.1.length, r.2)) = some (3, .ok ()) :=
  ⟨by decide +kernel, crlf_sameEnds _, by decide, by decide +kernel⟩

example (body : Bytes) : PlySameEnds (cutPlyHeader ++ body) (crlf cutPlyHeader ++ body) := by
  refine .inr ⟨cutPlyHeader, crlf cutPlyHeader, body, (lines cutPlyHeader).dropLast, rfl, rfl, ?_, crlf_sameEnds _, by decide +kernel, by decide +kernel⟩
  exact .inr ⟨cutPlyHeader.dropLast, by decide +kernel⟩

end R3D

import Verif.Model.Text
import Mathlib.Data.List.Infix
import Mathlib.Tactic.Common
import Mathlib.Tactic.Linarith
/-!
C56 (reading lines) and C72 (byte utilities).
-/
namespace R3D

/-! ### specifications -/

/-- the white space bytes -/
def Spec.wsBytes : List UInt8 := [9, 10, 11, 12, 13, 32, 0x85, 0xA0]

/-- `t` is `c` without its trailing white space -/
def Spec.Trimmed (c t : Bytes) : Prop :=
  ∃ w, c = t ++ w ∧ (∀ b ∈ w, b ∈ wsBytes) ∧ ∀ b, t.getLast? = some b → b ∉ wsBytes

/-- `ws` are the maximal runs of bytes outside `p`, in order -/
inductive Spec.WordsOf (p : UInt8 → Bool) : Bytes → List Bytes → Prop
  | nil {s : Bytes} : (∀ b ∈ s, p b = true) → WordsOf p s []
  | cons {pre w rest : Bytes} {ws : List Bytes} : (∀ b ∈ pre, p b = true) → w ≠ [] → (∀ b ∈ w, p b = false) →
      (∀ b, rest.head? = some b → p b = true) → WordsOf p rest ws → WordsOf p (pre ++ w ++ rest) (w :: ws)

open Spec

/-! ### lines -/

theorem isWs_iff (b : UInt8) : isWs b = true ↔ b ∈ wsBytes := by
  have h : ∀ b : Fin 256, isWs (UInt8.ofFin b) = true ↔ UInt8.ofFin b ∈ wsBytes := by decide +kernel
  exact h b.toFin

theorem mem_takeWhile {p : UInt8 → Bool} {l : Bytes} {b : UInt8} (h : b ∈ l.takeWhile p) : p b = true := by
  induction l with
  | nil => simp at h
  | cons x l ih =>
    rw [List.takeWhile_cons] at h
    split_ifs at h with hx
    · rcases List.mem_cons.1 h with rfl | h
      · exact hx
      · exact ih h
    · simp at h

theorem dropWhile_reverse_spec (p : UInt8 → Bool) (l : Bytes) :
    ∃ w, l = (l.reverse.dropWhile p).reverse ++ w ∧ (∀ b ∈ w, p b = true) ∧
      ∀ b, ((l.reverse.dropWhile p).reverse).getLast? = some b → p b = false := by
  refine ⟨(l.reverse.takeWhile p).reverse, ?_, ?_, ?_⟩
  · rw [← List.reverse_append, List.takeWhile_append_dropWhile, List.reverse_reverse]
  · intro b hb
    rw [List.mem_reverse] at hb
    exact mem_takeWhile hb
  · intro b hb
    rw [List.getLast?_reverse] at hb
    have := List.head?_dropWhile_not p l.reverse
    rw [hb] at this
    simpa using this

theorem cleanLine_spec (buf : Bytes) : Trimmed buf.dropLast (cleanLine buf) := by
  obtain ⟨w, h1, h2, h3⟩ := dropWhile_reverse_spec isWs buf.dropLast
  exact ⟨w, h1, fun b hb => (isWs_iff b).1 (h2 b hb), fun b hb hm => by
    have := h3 b hb
    rw [(isWs_iff b).2 hm] at this
    cases this⟩

theorem Spec.Trimmed.unique {c t t' : Bytes} (h : Trimmed c t) (h' : Trimmed c t') : t = t' := by
  obtain ⟨w, e, hw, ht⟩ := h
  obtain ⟨w', e', hw', ht'⟩ := h'
  rw [e] at e'
  rcases List.append_eq_append_iff.1 e' with ⟨a, e1, e2⟩ | ⟨a, e1, e2⟩
  · rcases List.eq_nil_or_concat a with rfl | ⟨a, x, rfl⟩
    · simpa using e1.symm
    · exfalso
      apply ht' x
      · rw [e1, List.concat_eq_append, ← List.append_assoc]; simp
      · apply hw; rw [e2]; simp
  · rcases List.eq_nil_or_concat a with rfl | ⟨a, x, rfl⟩
    · simpa using e1
    · exfalso
      apply ht x
      · rw [e1, List.concat_eq_append, ← List.append_assoc]; simp
      · apply hw'; rw [e2]; simp

theorem rawLines_step (s : Bytes) : rawLines s = if s = [] then [] else (readUntilNl s).1 :: rawLines (readUntilNl s).2 := by
  induction s with
  | nil => rfl
  | cons b s ih =>
    simp only [rawLines, readUntilNl]
    by_cases hb : b = 10
    · simp [hb]
    · simp only [hb, if_false, reduceCtorEq]
      by_cases hs : s = []
      · subst hs; simp [rawLines, readUntilNl]
      · rw [ih, if_neg hs]

theorem readUntilNl_ne {s : Bytes} (h : s ≠ []) : (readUntilNl s).1 ≠ [] := by
  cases s with
  | nil => exact absurd rfl h
  | cons b s => simp only [readUntilNl]; split_ifs <;> simp

/-- the list of lines is what repeated calls of `fetch_line` return -/
theorem lines_fetchLine (s : Bytes) :
    (∀ l r, fetchLine s = some (l, r) → lines s = l :: lines r) ∧ (fetchLine s = none → lines s = []) := by
  unfold fetchLine lines
  by_cases hs : s = []
  · subst hs; simp [readUntilNl, rawLines]
  · have hne := readUntilNl_ne hs
    rw [rawLines_step s, if_neg hs]
    simp only [List.length_eq_zero_iff, hne, if_false, Option.some.injEq, Prod.mk.injEq]
    constructor
    · rintro l r ⟨rfl, rfl⟩; rfl
    · intro h; cases h

theorem rawLines_append (c s : Bytes) (hc : (10 : UInt8) ∉ c) : rawLines (c ++ 10 :: s) = (c ++ [10]) :: rawLines s := by
  induction c with
  | nil => simp [rawLines]
  | cons b c ih =>
    simp only [List.mem_cons, not_or] at hc
    simp only [List.cons_append, rawLines]
    rw [if_neg (Ne.symm hc.1), ih hc.2]

theorem rawLines_last (c : Bytes) (hc : (10 : UInt8) ∉ c) (hne : c ≠ []) : rawLines c = [c] := by
  induction c with
  | nil => exact absurd rfl hne
  | cons b c ih =>
    simp only [List.mem_cons, not_or] at hc
    simp only [rawLines]
    rw [if_neg (Ne.symm hc.1)]
    by_cases h : c = []
    · subst h; simp [rawLines]
    · rw [ih hc.2 h]

/-- a line that ends with a line break -/
def nl (c : Bytes) : Bytes := c ++ [10]

theorem lines_nl (c s : Bytes) (hc : (10 : UInt8) ∉ c) : lines (nl c ++ s) = cleanLine (nl c) :: lines s := by
  unfold lines nl
  rw [List.append_assoc, List.singleton_append, rawLines_append c s hc]
  rfl

theorem lines_flatMap (cs : List Bytes) (s : Bytes) (hc : ∀ c ∈ cs, (10 : UInt8) ∉ c) :
    lines (cs.flatMap nl ++ s) = cs.map (fun c => cleanLine (nl c)) ++ lines s := by
  induction cs with
  | nil => rfl
  | cons c cs ih =>
    rw [List.flatMap_cons, List.append_assoc, lines_nl c _ (hc c (by simp)), ih (fun c h => hc c (by simp [h]))]
    rfl

theorem cleanLine_nl (c t : Bytes) (h : Trimmed c t) : cleanLine (nl c) = t := by
  have := cleanLine_spec (nl c)
  rw [nl, List.dropLast_concat] at this
  exact this.unique h

/-- C56: `fetch_line` called until it fails returns, for every file whose last line is terminated, every line without
its line break and trailing white space. A last line that is not terminated loses its last byte: the
full property does not hold, see `c56_violated`. Every file is of one of the two forms. -/
theorem c56_lines_partial :
    (∀ cs ts : List Bytes, (∀ c ∈ cs, (10 : UInt8) ∉ c) → List.Forall₂ Trimmed cs ts → lines (cs.flatMap nl) = ts) ∧
    (∀ (cs ts : List Bytes) (c : Bytes) (t : Bytes), (∀ c ∈ cs, (10 : UInt8) ∉ c) → (10 : UInt8) ∉ c → c ≠ [] →
      List.Forall₂ Trimmed cs ts → Trimmed c.dropLast t → lines (cs.flatMap nl ++ c) = ts ++ [t]) ∧
    (∀ s : Bytes, ∃ (cs : List Bytes) (c : Bytes), (∀ c ∈ cs, (10 : UInt8) ∉ c) ∧ (10 : UInt8) ∉ c ∧ s = cs.flatMap nl ++ c) ∧
    ∀ s, (∀ l r, fetchLine s = some (l, r) → lines s = l :: lines r) ∧ (fetchLine s = none → lines s = []) := by
  have map : ∀ cs ts : List Bytes, List.Forall₂ Trimmed cs ts → cs.map (fun c => cleanLine (nl c)) = ts := by
    intro cs ts h
    induction h with
    | nil => rfl
    | cons h _ ih => rw [List.map_cons, cleanLine_nl _ _ h, ih]
  refine ⟨?_, ?_, ?_, lines_fetchLine⟩
  · intro cs ts hc h
    have := lines_flatMap cs [] hc
    rw [List.append_nil] at this
    rw [this, map cs ts h]
    simp [lines, rawLines]
  · intro cs ts c t hcs hc hne h ht
    rw [lines_flatMap cs c hcs, map cs ts h]
    congr 1
    unfold lines
    rw [rawLines_last c hc hne]
    simp only [List.map_cons, List.map_nil, List.cons.injEq, and_true]
    exact (cleanLine_spec c).unique ht
  · intro s
    induction s with
    | nil => exact ⟨[], [], by simp, by simp, by simp⟩
    | cons b s ih =>
      obtain ⟨cs, c, h1, h2, rfl⟩ := ih
      by_cases hb : b = 10
      · subst hb
        exact ⟨[] :: cs, c, by simpa using h1, h2, by simp [nl]⟩
      · cases cs with
        | nil => exact ⟨[], b :: c, by simp, by simp [h2, Ne.symm hb], by simp⟩
        | cons d cs =>
          refine ⟨(b :: d) :: cs, c, ?_, h2, by simp [nl]⟩
          intro x hx
          rcases List.mem_cons.1 hx with rfl | hx
          · simp only [List.mem_cons, not_or]
            exact ⟨Ne.symm hb, h1 d (by simp)⟩
          · exact h1 x (by simp [hx])

/-- two lines, the first one with trailing blanks and a carriage return -/
example : ∃ cs ts : List Bytes, cs = [b!"1 2 \r", b!"3"] ∧ ts = [b!"1 2", b!"3"] ∧ (∀ c ∈ cs, (10 : UInt8) ∉ c) ∧
    List.Forall₂ Trimmed cs ts := by
  refine ⟨_, _, rfl, rfl, by decide, ?_⟩
  refine .cons ⟨b!" \r", rfl, by decide, ?_⟩ (.cons ⟨[], rfl, by decide, ?_⟩ .nil) <;> rintro b ⟨⟩ <;> decide

/-- C56 is violated: the last line of a file without a final line break loses its last character. -/
theorem c56_violated : ∃ s : Bytes, s = b!"1 2\n3 42" ∧ lines s = [b!"1 2", b!"3 4"] := by
  refine ⟨_, rfl, ?_⟩; decide +kernel

/-! ### words -/

theorem splitP_cons_false {p : UInt8 → Bool} {b : UInt8} (h : p b = false) (s : Bytes) :
    splitP p (b :: s) = (b :: (splitP p s).headD []) :: (splitP p s).tail := by
  cases hs : splitP p s <;> simp [splitP, h, hs]

theorem splitP_ne (p : UInt8 → Bool) (s : Bytes) : splitP p s ≠ [] := by
  cases s with
  | nil => simp [splitP]
  | cons b s =>
    cases hb : p b with
    | true => simp [splitP, hb]
    | false => rw [splitP_cons_false hb]; simp

theorem words_blank {p : UInt8 → Bool} (s : Bytes) (h : ∀ b ∈ s, p b = true) (r : Bytes) :
    skipEmpty (splitP p (s ++ r)) = skipEmpty (splitP p r) := by
  induction s with
  | nil => rfl
  | cons b s ih =>
    rw [List.cons_append]
    simp only [splitP]
    rw [if_pos (h b (by simp)), ← ih (fun b hb => h b (by simp [hb]))]
    simp [skipEmpty]

theorem splitP_word {p : UInt8 → Bool} (w : Bytes) (hw : ∀ b ∈ w, p b = false) (r : Bytes)
    (hr : ∀ b, r.head? = some b → p b = true) : splitP p (w ++ r) = w :: (if r = [] then [] else splitP p r.tail) := by
  induction w with
  | nil =>
    cases r with
    | nil => simp [splitP]
    | cons b r => simp [splitP, hr b rfl]
  | cons b w ih =>
    rw [List.cons_append, splitP_cons_false (hw b (by simp)), ih (fun b hb => hw b (by simp [hb]))]
    rfl

theorem words_word {p : UInt8 → Bool} (w : Bytes) (hne : w ≠ []) (hw : ∀ b ∈ w, p b = false) (r : Bytes)
    (hr : ∀ b, r.head? = some b → p b = true) : skipEmpty (splitP p (w ++ r)) = w :: skipEmpty (splitP p r) := by
  rw [splitP_word w hw r hr]
  cases r with
  | nil => simp [skipEmpty, splitP, hne]
  | cons b r =>
    have := hr b rfl
    simp [skipEmpty, splitP, hne, this]

theorem words_of {p : UInt8 → Bool} {s : Bytes} {ws : List Bytes} (h : WordsOf p s ws) : skipEmpty (splitP p s) = ws := by
  induction h with
  | nil h =>
    have := words_blank _ h []
    rw [List.append_nil] at this
    rw [this]; rfl
  | cons h1 h2 h3 h4 _ ih =>
    rw [List.append_assoc, words_blank _ h1, words_word _ h2 h3 _ h4, ih]

/-- every byte string has words -/
theorem wordsOf_exists (p : UInt8 → Bool) (s : Bytes) : ∃ ws, WordsOf p s ws := by
  induction hn : s.length using Nat.strong_induction_on generalizing s with
  | _ n ih =>
    have e1 : s.takeWhile p ++ s.dropWhile p = s := List.takeWhile_append_dropWhile
    cases hd : s.dropWhile p with
    | nil =>
      refine ⟨[], .nil ?_⟩
      rw [hd, List.append_nil] at e1
      intro b hb
      rw [← e1] at hb
      exact mem_takeWhile hb
    | cons x r =>
      have hx : p x = false := by
        have := List.head?_dropWhile_not p s
        rw [hd] at this
        simpa using this
      have e2 : (x :: r).takeWhile (fun b => !p b) ++ (x :: r).dropWhile (fun b => !p b) = x :: r :=
        List.takeWhile_append_dropWhile
      have hlen : ((x :: r).dropWhile (fun b => !p b)).length < n := by
        have h1 := congrArg List.length e1
        have h2 := congrArg List.length e2
        rw [hd] at h1
        simp only [List.length_append, List.takeWhile_cons, hx, Bool.not_false, if_true, List.length_cons] at h1 h2
        omega
      obtain ⟨ws, hws⟩ := ih _ hlen _ rfl
      refine ⟨(x :: r).takeWhile (fun b => !p b) :: ws, ?_⟩
      rw [hd, ← e2, ← List.append_assoc] at e1
      rw [← e1]
      refine .cons (fun b hb => mem_takeWhile hb) (by simp [List.takeWhile_cons, hx])
        (fun b hb => by simpa using mem_takeWhile hb) ?_ hws
      intro b hb
      have := List.head?_dropWhile_not (fun b => !p b) (x :: r)
      rw [hb] at this
      simpa using this

/-- C72: words are the maximal runs without the separators. -/
theorem c72_words (line : Bytes) (ws : List Bytes) :
    (toWords line = ws ↔ WordsOf (fun b => decide (b ∈ b!" \t")) line ws) := by
  have e : (fun b : UInt8 => b == 32 || b == 9) = fun b => decide (b ∈ b!" \t") := by
    funext b
    simp only [List.mem_cons, List.not_mem_nil, or_false, Bool.decide_or]
    rfl
  unfold toWords
  rw [e]
  constructor
  · intro h
    obtain ⟨ws', h'⟩ := wordsOf_exists (fun b => decide (b ∈ b!" \t")) line
    rw [words_of h'] at h
    exact h ▸ h'
  · exact words_of

/-- a line with runs of blanks -/
example : WordsOf (fun b => decide (b ∈ b!" \t")) b!" ab  c" [b!"ab", b!"c"] := by
  rw [← c72_words]; decide +kernel

theorem untilByte_spec (line : Bytes) (d : UInt8) :
    ∃ r, line = untilByte line d ++ r ∧ d ∉ untilByte line d ∧ ∀ b, r.head? = some b → b = d := by
  unfold untilByte
  induction line with
  | nil => exact ⟨[], by simp [splitP]⟩
  | cons b s ih =>
    obtain ⟨r, h1, h2, h3⟩ := ih
    by_cases hb : b = d
    · subst hb
      exact ⟨b :: s, by simp [splitP], by simp [splitP], by simp⟩
    · have hb' : (fun x => x == d) b = false := by simpa using hb
      rw [splitP_cons_false (p := fun x => x == d) hb']
      cases hs : splitP (fun x => x == d) s with
      | nil => exact absurd hs (splitP_ne _ _)
      | cons l ls =>
        rw [hs] at h1 h2
        refine ⟨r, ?_, ?_, h3⟩
        · simpa using h1
        · simp only [List.head?_cons, Option.getD_some, List.headD_cons] at h2 ⊢
          simp only [List.mem_cons, not_or]
          exact ⟨Ne.symm hb, h2⟩

/-- C72: `until_bytes` returns the prefix before the first stop byte, or everything. -/
theorem c72_until (line : Bytes) (d : UInt8) (u : Bytes) :
    untilByte line d = u ↔ d ∉ u ∧ (line = u ∨ ∃ r, line = u ++ d :: r) := by
  obtain ⟨r, h1, h2, h3⟩ := untilByte_spec line d
  constructor
  · rintro rfl
    refine ⟨h2, ?_⟩
    cases r with
    | nil => left; simpa using h1
    | cons b r => right; exact ⟨r, by rw [h3 b rfl] at h1; exact h1⟩
  · rintro ⟨hu, h | ⟨r', h⟩⟩
    · subst h
      cases r with
      | nil => simpa using h1.symm
      | cons b r =>
        rw [h3 b rfl] at h1
        exfalso
        apply hu
        rw [h1]
        simp
    · generalize untilByte line d = v at *
      rw [h] at h1
      rcases List.append_eq_append_iff.1 h1 with ⟨a, e1, e2⟩ | ⟨a, e1, e2⟩
      · cases a with
        | nil => simpa using e1
        | cons x a =>
          simp only [List.cons_append, List.cons.injEq] at e2
          exfalso; apply h2; rw [e1, ← e2.1]; simp
      · cases a with
        | nil => simpa using e1.symm
        | cons x a =>
          exfalso; apply hu
          have := h3 x (by rw [e2]; rfl)
          rw [e1, this]
          simp

/-- C72: `contains` decides whether the needle occurs as a run of consecutive bytes; an empty needle panics. -/
theorem c72_contains (haystack needle : Bytes) :
    (needle = [] → containsBytes haystack needle = none) ∧
    (needle ≠ [] → ∃ r, containsBytes haystack needle = some r ∧ (r = true ↔ ∃ pre post, haystack = pre ++ needle ++ post)) := by
  unfold containsBytes
  constructor
  · intro h; rw [if_pos (by rw [h]; rfl)]
  · intro hne
    have hl : needle.length ≠ 0 := by simpa using hne
    rw [if_neg hl]
    refine ⟨_, rfl, ?_⟩
    simp only [windows, List.any_map, List.any_eq_true, List.mem_range, Function.comp_apply, beq_iff_eq]
    constructor
    · rintro ⟨i, hi, h⟩
      refine ⟨haystack.take i, (haystack.drop i).drop needle.length, ?_⟩
      have e : (haystack.drop i).take needle.length ++ (haystack.drop i).drop needle.length = haystack.drop i :=
        List.take_append_drop _ _
      rw [h] at e
      rw [List.append_assoc, e, List.take_append_drop]
    · rintro ⟨pre, post, rfl⟩
      refine ⟨pre.length, by rw [List.length_append, List.length_append]; omega, ?_⟩
      simp

/-- C72: `trim_start` drops exactly the leading blanks. -/
theorem c72_trim_start (s t : Bytes) : trimStart s = t ↔
    ∃ w, s = w ++ t ∧ (∀ b ∈ w, b ∈ b!" \t") ∧ ∀ b, t.head? = some b → b ∉ b!" \t" := by
  induction s generalizing t with
  | nil =>
    simp only [trimStart]
    constructor
    · rintro rfl; exact ⟨[], by simp⟩
    · rintro ⟨w, h, -⟩; simp at h; exact h.2.symm
  | cons b s ih =>
    simp only [trimStart]
    by_cases hb : b ∈ b!" \t"
    · have hb' : (b == 32 || b == 9) = true := by simpa using hb
      rw [hb', if_pos rfl, ih]
      constructor
      · rintro ⟨w, rfl, h2, h3⟩
        exact ⟨b :: w, rfl, by intro x hx; rcases List.mem_cons.1 hx with rfl | hx <;> [exact hb; exact h2 x hx], h3⟩
      · rintro ⟨w, h1, h2, h3⟩
        cases w with
        | nil =>
          rw [List.nil_append] at h1
          subst h1
          exact absurd hb (h3 b rfl)
        | cons x w =>
          simp only [List.cons_append, List.cons.injEq] at h1
          exact ⟨w, h1.2, fun y hy => h2 y (by simp [hy]), h3⟩
    · have hb' : (b == 32 || b == 9) = false := by simpa using hb
      rw [hb']
      simp only [Bool.false_eq_true, if_false]
      constructor
      · rintro rfl
        exact ⟨[], rfl, by simp, by rintro x ⟨⟩; exact hb⟩
      · rintro ⟨w, h1, h2, h3⟩
        cases w with
        | nil => simpa using h1
        | cons x w =>
          simp only [List.cons_append, List.cons.injEq] at h1
          exact absurd (h2 x (by simp)) (h1.1 ▸ hb)

/-- C72: the first of space, semicolon, comma, tab occurring at least the given number of times. -/
theorem c72_delimiter (n : Nat) (line : Bytes) (d : UInt8) : estimateDelimiter n line = some d ↔
    ∃ pre post, b!" ;,\t" = pre ++ d :: post ∧ n ≤ line.count d ∧ ∀ c ∈ pre, line.count c < n := by
  have e : ∀ c : UInt8, (line.filter fun x => x == c).length = line.count c := by
    intro c; rw [List.count_eq_length_filter]
  unfold estimateDelimiter
  rw [List.find?_eq_some_iff_append]
  simp only [e, ge_iff_le, decide_eq_true_eq, decide_eq_false_iff_not, Bool.not_eq_true', not_le]
  constructor
  · rintro ⟨h, as, bs, h1, h2⟩
    exact ⟨as, bs, h1, h, h2⟩
  · rintro ⟨as, bs, h1, h, h2⟩
    exact ⟨h, as, bs, h1, h2⟩

/-- C72: skipping elements and bytes drops that many; skipping bytes fails if there are fewer. -/
theorem c72_skip (n : Nat) : (∀ (α : Type) (l : List α), skipN n l = l.drop n) ∧
    ∀ s : Bytes, skipBytes n s = if n ≤ s.length then some (s.drop n) else none := by
  constructor
  · intro α l
    induction n generalizing l with
    | zero => rfl
    | succ n ih => rw [skipN, ih, List.drop_tail]
  · intro s
    induction n generalizing s with
    | zero => simp [skipBytes]
    | succ n ih =>
      cases s with
      | nil => simp [skipBytes]
      | cons b s => rw [skipBytes, ih]; simp

/-! ### decimal numbers -/

theorem digitsVal_append (acc : Nat) (s t : Bytes) :
    digitsVal acc (s ++ t) = (digitsVal acc s).bind fun v => digitsVal v t := by
  induction s generalizing acc with
  | nil => rfl
  | cons b s ih =>
    simp only [List.cons_append, digitsVal]
    split_ifs
    · exact ih _
    · rfl

theorem digitChar_byte (d : Nat) (h : d < 10) : (d.digitChar).toNat.toUInt8.toNat = 48 + d := by
  revert h
  revert d
  decide

theorem fmtNat_rec (n : Nat) : fmtNat n = if n < 10 then [(48 + n).toUInt8] else fmtNat (n / 10) ++ [(48 + n % 10).toUInt8] := by
  have hd : ∀ d < 10, (d.digitChar).toNat.toUInt8 = (48 + d).toUInt8 := by decide
  unfold fmtNat
  split_ifs with h
  · rw [Nat.toDigits_of_lt_base h, List.map_cons, List.map_nil, hd n h]
  · rw [Nat.toDigits_of_base_le (by norm_num) (by omega), List.map_append, List.map_cons, List.map_nil, hd _ (Nat.mod_lt _ (by norm_num))]

theorem fmtNat_digits (n : Nat) : fmtNat n ≠ [] ∧ ∀ b ∈ fmtNat n, 48 ≤ b.toNat ∧ b.toNat ≤ 57 := by
  induction n using Nat.strong_induction_on with
  | _ n ih =>
    have hd : ∀ d < 10, 48 ≤ ((48 + d).toUInt8).toNat ∧ ((48 + d).toUInt8).toNat ≤ 57 := by decide
    rw [fmtNat_rec]
    split_ifs with h
    · exact ⟨by simp, by simpa using hd n h⟩
    · refine ⟨by simp, ?_⟩
      intro b hb
      rcases List.mem_append.1 hb with hb | hb
      · exact (ih (n / 10) (by omega)).2 b hb
      · rw [List.mem_singleton] at hb
        subst hb
        exact hd _ (Nat.mod_lt _ (by norm_num))

theorem digitsVal_fmtNat (n : Nat) : digitsVal 0 (fmtNat n) = some n := by
  induction n using Nat.strong_induction_on with
  | _ n ih =>
    have hd : ∀ d < 10, ((48 + d).toUInt8).toNat = 48 + d := by decide
    rw [fmtNat_rec]
    split_ifs with h
    · simp only [digitsVal, hd n h]
      rw [if_pos (by omega)]
      simp
    · rw [digitsVal_append, ih (n / 10) (by omega)]
      have hm := Nat.mod_lt n (show 10 > 0 by norm_num)
      simp only [Option.bind_some, digitsVal, hd _ hm]
      rw [if_pos (by omega)]
      congr 1
      omega

theorem parseNat_fmtNat (n : Nat) : parseNat (fmtNat n) = if n < 2 ^ 64 then some n else none := by
  obtain ⟨h1, h2⟩ := fmtNat_digits n
  have hs : ¬(fmtNat n).head? = some 43 := by
    intro h
    have := h2 43 (List.mem_of_mem_head? h)
    revert this
    decide
  unfold parseNat
  simp only [hs, if_false, h1, digitsVal_fmtNat]

/-- C72: indices written in decimal are read back, unless they do not fit into 64 bits. -/
theorem c72_decimal (n : Nat) : fromAscii parseNat (fmtNat n) = if n < 2 ^ 64 then some n else none := by
  unfold fromAscii
  rw [if_pos, parseNat_fmtNat]
  rw [List.all_eq_true]
  intro b hb
  have := (fmtNat_digits n).2 b hb
  simp; omega

/-- number bytes are ASCII, no white space and no delimiter -/
theorem isNumByte_spec (b : UInt8) (h : isNumByte b = true) : b.toNat < 128 ∧ isWs b = false ∧ b ∉ b!" \t\n\r;,/#" := by
  have key : ∀ b : Fin 256, isNumByte (UInt8.ofFin b) = true → (UInt8.ofFin b).toNat < 128 ∧ isWs (UInt8.ofFin b) = false ∧
      UInt8.ofFin b ∉ b!" \t\n\r;,/#" := by decide +kernel
  exact key b.toFin h

theorem FloatText.Lawful.fromAscii {α : Type} {T : FloatText α} {ok : α → Prop} (h : T.Lawful ok) (x : α) (hx : ok x) :
    R3D.fromAscii T.parse (T.fmt x) = some x := by
  unfold R3D.fromAscii
  rw [if_pos, h.parse_fmt x hx]
  rw [List.all_eq_true]
  intro b hb
  simpa using (isNumByte_spec b (h.fmt_bytes x hx b hb)).1

/-- the natural numbers below `2^64` with decimal notation: the assumptions about number texts can be met -/
def natText : FloatText Nat := ⟨fmtNat, parseNat⟩

theorem natText_lawful : natText.Lawful (fun n => n < 2 ^ 64) where
  parse_fmt x hx := by rw [show natText.parse (natText.fmt x) = _ from parseNat_fmtNat x, if_pos hx]
  fmt_ne x _ := (fmtNat_digits x).1
  fmt_bytes x _ b hb := by
    have := (fmtNat_digits x).2 b hb
    simp only [isNumByte, Bool.or_eq_true, Bool.and_eq_true, decide_eq_true_eq]
    tauto

end R3D

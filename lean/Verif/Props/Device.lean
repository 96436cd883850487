import Verif.Model.Device
import Verif.Props.Text
/-!
C128: how a reader hands over a file, and what happens if it fails.
-/
namespace R3D
open Spec

/-- a reader of the standard library's contract: an empty portion would be the end of the file -/
def Spec.Proper (d : Device) : Prop := Portion.data [] ∉ d.portions

/-- the part of a file up to and including its last line break -/
def Spec.wholeLines (s : Bytes) : Bytes := (s.reverse.dropWhile (· ≠ 10)).reverse

/-- the part of the data the line based loaders get to see -/
def Spec.seen (d : Device) : Bytes := if d.fails then wholeLines d.content else d.content

/-- whole lines are a beginning, and what follows contains no line break -/
theorem wholeLines_spec (s : Bytes) : ∃ rest, s = wholeLines s ++ rest ∧ (10 : UInt8) ∉ rest ∧
    (wholeLines s = [] ∨ ∃ t, wholeLines s = t ++ [10]) := by
  refine ⟨(s.reverse.takeWhile (· ≠ 10)).reverse, ?_, ?_, ?_⟩
  · rw [wholeLines, ← List.reverse_append, List.takeWhile_append_dropWhile, List.reverse_reverse]
  · intro h
    have := List.all_eq_true.1 (List.all_takeWhile (p := (· ≠ (10 : UInt8))) (l := s.reverse)) _ (List.mem_reverse.1 h)
    simp at this
  · rcases h : s.reverse.dropWhile (· ≠ 10) with _ | ⟨b, t⟩
    · left; rw [wholeLines, h]; rfl
    · right
      refine ⟨t.reverse, ?_⟩
      have hb := List.head?_dropWhile_not (· ≠ (10 : UInt8)) s.reverse
      rw [h] at hb
      simp only [List.head?_cons] at hb
      rw [wholeLines, h, List.reverse_cons]
      simpa using hb

/-- and they are determined by that -/
theorem wholeLines_unique {a rest : Bytes} (hr : (10 : UInt8) ∉ rest) (ha : a = [] ∨ ∃ t, a = t ++ [10]) :
    wholeLines (a ++ rest) = a := by
  have h1 : ∀ x ∈ rest.reverse, (x ≠ 10) = true := by
    intro x hx
    simp only [ne_eq, eq_iff_iff, iff_true]
    rintro rfl
    exact hr (List.mem_reverse.1 hx)
  unfold wholeLines
  rw [List.reverse_append, List.dropWhile_append_of_pos (by simpa using h1)]
  rcases ha with rfl | ⟨t, rfl⟩
  · rfl
  · simp

theorem readUntilNl_mem {s : Bytes} (h : (10 : UInt8) ∈ s) : ∃ c, (10 : UInt8) ∉ c ∧ (readUntilNl s).1 = c ++ [10] ∧ s = c ++ 10 :: (readUntilNl s).2 := by
  induction s with
  | nil => simp at h
  | cons b s ih =>
    unfold readUntilNl
    by_cases hb : b = 10
    · subst hb
      exact ⟨[], by simp, by simp, by simp⟩
    · have : (10 : UInt8) ∈ s := by
        rcases List.mem_cons.1 h with h | h
        · exact absurd h.symm hb
        · exact h
      obtain ⟨c, h1, h2, h3⟩ := ih this
      simp only [hb, if_false]
      refine ⟨b :: c, ?_, by rw [h2]; rfl, by rw [List.cons_append, ← h3]⟩
      simp only [List.mem_cons, not_or]
      exact ⟨fun e => hb e.symm, h1⟩

theorem readUntilNl_not_mem {s : Bytes} (h : (10 : UInt8) ∉ s) : readUntilNl s = (s, []) := by
  induction s with
  | nil => rfl
  | cons b s ih =>
    simp only [List.mem_cons, not_or] at h
    unfold readUntilNl
    rw [if_neg (fun e => h.1 e.symm), ih h.2]

theorem readUntilNl_append {s t : Bytes} (h : (10 : UInt8) ∉ s) : readUntilNl (s ++ t) = (s ++ (readUntilNl t).1, (readUntilNl t).2) := by
  induction s with
  | nil => rfl
  | cons b s ih =>
    simp only [List.mem_cons, not_or] at h
    rw [List.cons_append, readUntilNl, if_neg (fun e => h.1 e.symm), ih h.2]
    rfl

theorem readUntilNl_append_mem {s t : Bytes} (h : (10 : UInt8) ∈ s) : readUntilNl (s ++ t) = ((readUntilNl s).1, (readUntilNl s).2 ++ t) := by
  obtain ⟨c, h1, h2, h3⟩ := readUntilNl_mem h
  have e : s ++ t = c ++ 10 :: ((readUntilNl s).2 ++ t) := by
    conv_lhs => rw [h3]
    simp
  rw [e, readUntilNl_append h1, h2]
  simp [readUntilNl]

/-- the content of a list of portions -/
def allBytes (ps : List Portion) : Bytes := (Device.mk ps false).content

theorem content_eq (d : Device) : d.content = allBytes d.portions := rfl
theorem allBytes_data (bs : Bytes) (ps : List Portion) : allBytes (.data bs :: ps) = bs ++ allBytes ps := rfl
theorem allBytes_int (ps : List Portion) : allBytes (.interrupted :: ps) = allBytes ps := rfl
theorem allBytes_putBack (bs : Bytes) (ps : List Portion) : allBytes (putBack bs ps) = bs ++ allBytes ps := by
  unfold putBack
  split_ifs with h
  · rw [h]; rfl
  · rfl
theorem proper_putBack {bs : Bytes} {ps : List Portion} (h : Portion.data [] ∉ ps) : Portion.data [] ∉ putBack bs ps := by
  unfold putBack
  split_ifs with hb
  · exact h
  · simp only [List.mem_cons, Portion.data.injEq, not_or]
    exact ⟨fun e => hb e.symm, h⟩

theorem devUntil_spec (fails : Bool) : ∀ (ps : List Portion), Portion.data [] ∉ ps →
    (fails = true → (10 : UInt8) ∉ allBytes ps → (devUntil fails ps).1 = none) ∧
    ((fails = false ∨ (10 : UInt8) ∈ allBytes ps) → (devUntil fails ps).1 = some (readUntilNl (allBytes ps)).1 ∧
      allBytes (devUntil fails ps).2 = (readUntilNl (allBytes ps)).2 ∧ Portion.data [] ∉ (devUntil fails ps).2)
  | [], _ => by
    constructor
    · rintro rfl _; rfl
    · rintro (rfl | h)
      · exact ⟨rfl, rfl, by simp [devUntil]⟩
      · simp [allBytes, Device.content] at h
  | .interrupted :: ps, h => by
    rw [devUntil, allBytes_int]
    exact devUntil_spec fails ps (fun hm => h (List.mem_cons_of_mem _ hm))
  | .data bs :: ps, h => by
    simp only [List.mem_cons, Portion.data.injEq, not_or] at h
    rw [devUntil, allBytes_data]
    by_cases hb : (10 : UInt8) ∈ bs
    · rw [if_pos hb]
      refine ⟨fun _ hn => absurd (List.mem_append_left _ hb) hn, fun _ => ?_⟩
      rw [readUntilNl_append_mem hb, allBytes_putBack]
      exact ⟨rfl, rfl, proper_putBack h.2⟩
    · rw [if_neg hb, if_neg (fun e => h.1 e.symm), readUntilNl_append hb]
      obtain ⟨h1, h2⟩ := devUntil_spec fails ps h.2
      constructor
      · intro hf hn
        show (devUntil fails ps).1.map _ = none
        rw [h1 hf (fun hm => hn (List.mem_append_right _ hm))]
        rfl
      · intro ho
        obtain ⟨e1, e2, e3⟩ := h2 (ho.imp id (fun hm => (List.mem_append.1 hm).resolve_left hb))
        refine ⟨?_, e2, e3⟩
        show (devUntil fails ps).1.map _ = _
        rw [e1]
        rfl

theorem wholeLines_step {s : Bytes} (h : (10 : UInt8) ∈ s) : wholeLines s = (readUntilNl s).1 ++ wholeLines (readUntilNl s).2 := by
  obtain ⟨c, h1, h2, h3⟩ := readUntilNl_mem h
  obtain ⟨rest, r1, r2, r3⟩ := wholeLines_spec (readUntilNl s).2
  have e : s = ((readUntilNl s).1 ++ wholeLines (readUntilNl s).2) ++ rest := by
    rw [List.append_assoc, ← r1, h2]
    simpa using h3
  conv_lhs => rw [e]
  refine wholeLines_unique r2 (.inr ?_)
  rcases r3 with h0 | ⟨t, ht⟩
  · exact ⟨c, by rw [h0, h2, List.append_nil]⟩
  · exact ⟨(readUntilNl s).1 ++ t, by rw [ht, List.append_assoc]⟩

theorem wholeLines_not_mem {s : Bytes} (h : (10 : UInt8) ∉ s) : wholeLines s = [] := by
  simpa using wholeLines_unique (a := []) h (.inl rfl)

theorem devLines_spec : ∀ (fuel : Nat) (d : Device), Proper d → d.content.length ≤ fuel → devLines fuel d = lines (seen d)
  | 0, d, _, h => by
    have : d.content = [] := by simpa using h
    unfold seen
    rw [this]
    split_ifs <;> rfl
  | fuel + 1, d, hd, h => by
    obtain ⟨h1, h2⟩ := devUntil_spec d.fails d.portions hd
    rw [devLines]
    unfold Device.fetchLine
    by_cases hg : d.fails = true ∧ (10 : UInt8) ∉ d.content
    · have := h1 hg.1 hg.2
      rcases hu : devUntil d.fails d.portions with ⟨_ | b, ps⟩
      · simp only
        unfold seen
        rw [if_pos hg.1, wholeLines_not_mem hg.2]
        rfl
      · rw [hu] at this; cases this
    · have hor : d.fails = false ∨ (10 : UInt8) ∈ allBytes d.portions := by
        rw [← content_eq]
        by_cases hf : d.fails = true
        · exact .inr (by by_contra hn; exact hg ⟨hf, hn⟩)
        · exact .inl (by simpa using hf)
      obtain ⟨e1, e2, e3⟩ := h2 hor
      rcases hu : devUntil d.fails d.portions with ⟨b, ps⟩
      rw [hu] at e1 e2 e3
      simp only at e1 e2 e3
      subst e1
      simp only
      rw [← content_eq] at e2 hor ⊢
      have hrest : allBytes ps = (readUntilNl d.content).2 := e2
      by_cases hc : d.content = []
      · have hs : seen d = [] := by
          unfold seen
          rw [hc]
          split_ifs <;> rfl
        rw [hc, hs]
        simp [readUntilNl, lines, rawLines]
      · have hne := readUntilNl_ne hc
        rw [if_neg (by simpa using hne)]
        simp only
        have hlen : (Device.mk ps d.fails).content.length ≤ fuel := by
          show (allBytes ps).length ≤ fuel
          rw [hrest]
          have hsplit : d.content.length = (readUntilNl d.content).1.length + (readUntilNl d.content).2.length := by
            by_cases hm : (10 : UInt8) ∈ d.content
            · obtain ⟨c, -, q2, q3⟩ := readUntilNl_mem hm
              rw [q2]
              conv_lhs => rw [q3]
              simp; omega
            · rw [readUntilNl_not_mem hm]; simp
          have := List.length_pos_iff.2 hne
          omega
        rw [devLines_spec fuel ⟨ps, d.fails⟩ e3 hlen]
        have hstep : lines (seen d) = cleanLine (readUntilNl d.content).1 :: lines (seen ⟨ps, d.fails⟩) := by
          unfold seen
          show _ = _ :: lines (if d.fails then wholeLines (allBytes ps) else allBytes ps)
          rw [hrest]
          by_cases hf : d.fails = true
          · have hm := hor.resolve_left (by simp [hf])
            rw [if_pos hf, if_pos hf, wholeLines_step hm]
            obtain ⟨c, q1, q2, -⟩ := readUntilNl_mem hm
            rw [q2]
            exact lines_nl c _ q1
          · rw [if_neg hf, if_neg hf]
            refine (lines_fetchLine d.content).1 _ _ ?_
            unfold fetchLine
            rw [if_neg (by simpa using hne)]
        exact hstep.symm

/-- **C128** the lines fetched from a reader are those of its data, however it is portioned and interrupted; of a reader
that fails they are those of the lines handed over completely. -/
theorem c128_lines (d : Device) (hd : Proper d) : d.lines = lines (seen d) := devLines_spec _ d hd le_rfl

/-- **C128** so every line based loader returns, reader by reader, what it returns for the bytes seen; portions and
interruptions do not matter -/
theorem c128_loads {α : Type} [Scalar α] (T : FloatText α) (d : Device) (hd : Proper d) (m : TMesh (Point3D α)) :
    d.loadXyz T = loadXyz T (seen d) ∧ d.loadXy T = loadXy T (seen d) ∧
    d.loadObjMesh T m = loadObjMesh T (seen d) m ∧ d.loadObjPoints T = loadObjPoints T (seen d) ∧
    d.loadOffMesh T m = loadOffMesh T (seen d) m ∧ d.loadOffPoints T = loadOffPoints T (seen d) ∧
    d.loadPts T = loadPts T (seen d) ∧ d.loadGcode T Scalar.zero = loadGcode T Scalar.zero (seen d) ∧
    d.loadPtx T = loadPtx T (seen d) := by
  have h := c128_lines d hd
  refine ⟨?_, ?_, ?_, ?_, ?_, ?_, ?_, ?_, ?_⟩
  · rw [Device.loadXyz, h]; rfl
  · rw [Device.loadXy, h]; rfl
  · rw [Device.loadObjMesh, h]; rfl
  · rw [Device.loadObjPoints, h]; rfl
  · rw [Device.loadOffMesh, h]; rfl
  · rw [Device.loadOffPoints, h]; rfl
  · rw [Device.loadPts, h]; rfl
  · rw [Device.loadGcode, h]; rfl
  · rw [Device.loadPtx, h]; rfl

/-- **C128** a single line: of a reader that does not fail it is that of the data, and what is left is the rest -/
theorem c128_fetch_line (d : Device) (hd : Proper d) (hf : d.fails = false) :
    (d.fetchLine).1 = (fetchLine d.content).map Prod.fst ∧ Proper (d.fetchLine).2 ∧ (d.fetchLine).2.fails = false ∧
    ∀ l rest, fetchLine d.content = some (l, rest) → (d.fetchLine).2.content = rest := by
  obtain ⟨e1, e2, e3⟩ := (devUntil_spec d.fails d.portions hd).2 (.inl hf)
  unfold Device.fetchLine fetchLine
  rcases hu : devUntil d.fails d.portions with ⟨b, ps⟩
  rw [hu] at e1 e2 e3
  simp only at e1 e2 e3
  subst e1
  rw [← content_eq] at *
  simp only
  refine ⟨by split_ifs <;> rfl, e3, hf, ?_⟩
  intro l rest h
  split_ifs at h
  simp only [Option.some.injEq, Prod.mk.injEq] at h
  rw [← h.2]
  exact e2

theorem devExact_spec : ∀ (ps : List Portion) (n : Nat), Portion.data [] ∉ ps →
    (devExact n ps).1 = (readExact n (allBytes ps)).map Prod.fst ∧ Portion.data [] ∉ (devExact n ps).2 ∧
    ∀ b rest, readExact n (allBytes ps) = some (b, rest) → allBytes (devExact n ps).2 = rest
  | ps, 0, h => by
    have : readExact 0 (allBytes ps) = some ([], allBytes ps) := by simp [readExact]
    rw [devExact.eq_def, this]
    refine ⟨rfl, h, ?_⟩
    rintro b rest h
    simp only [Option.some.injEq, Prod.mk.injEq] at h
    exact h.2
  | [], n + 1, _ => by
    have : readExact (n + 1) (allBytes []) = none := by simp [readExact, allBytes, Device.content]
    rw [this]
    exact ⟨rfl, by simp [devExact], by simp⟩
  | .interrupted :: ps, n + 1, h => by
    rw [devExact, allBytes_int]
    exact devExact_spec ps (n + 1) (fun hm => h (List.mem_cons_of_mem _ hm))
  | .data bs :: ps, n + 1, h => by
    simp only [List.mem_cons, Portion.data.injEq, not_or] at h
    rw [devExact, allBytes_data, if_neg (fun e => h.1 e.symm)]
    by_cases hl : n + 1 ≤ bs.length
    · rw [if_pos hl]
      have : readExact (n + 1) (bs ++ allBytes ps) = some (bs.take (n + 1), bs.drop (n + 1) ++ allBytes ps) := by
        unfold readExact
        rw [if_pos (by rw [List.length_append]; omega), List.take_append_of_le_length hl, List.drop_append_of_le_length hl]
      rw [this]
      refine ⟨rfl, proper_putBack h.2, ?_⟩
      rintro b rest h
      simp only [Option.some.injEq, Prod.mk.injEq] at h
      rw [allBytes_putBack]
      exact h.2
    · rw [if_neg hl]
      obtain ⟨h1, h2, h3⟩ := devExact_spec ps (n + 1 - bs.length) h.2
      have : readExact (n + 1) (bs ++ allBytes ps) =
          (readExact (n + 1 - bs.length) (allBytes ps)).map fun r => (bs ++ r.1, r.2) := by
        unfold readExact
        rw [List.length_append]
        by_cases hc : n + 1 ≤ bs.length + (allBytes ps).length
        · rw [if_pos hc, if_pos (by omega), List.take_append, List.drop_append, List.take_of_length_le (by omega),
            List.drop_of_length_le (by omega)]
          rfl
        · rw [if_neg hc, if_neg (by omega)]
          rfl
      rw [this]
      refine ⟨?_, h2, ?_⟩
      · show (devExact _ ps).1.map _ = _
        rw [h1, Option.map_map, Option.map_map]
        rfl
      · intro b rest hr
        rcases hq : readExact (n + 1 - bs.length) (allBytes ps) with _ | ⟨b', rest'⟩
        · rw [hq] at hr; cases hr
        · rw [hq] at hr
          simp only [Option.map_some, Option.some.injEq, Prod.mk.injEq] at hr
          rw [← hr.2]
          exact h3 b' rest' hq

/-- **C128** fixed numbers of bytes, from which all binary formats are read: the bytes and what is left are those of the
data, whether the reader fails after them or ends -/
theorem c128_read_exact (d : Device) (hd : Proper d) (n : Nat) :
    (d.readExact n).1 = (readExact n d.content).map Prod.fst ∧ Proper (d.readExact n).2 ∧ (d.readExact n).2.fails = d.fails ∧
    ∀ b rest, readExact n d.content = some (b, rest) → (d.readExact n).2.content = rest := by
  obtain ⟨h1, h2, h3⟩ := devExact_spec d.portions n hd
  exact ⟨h1, h2, rfl, h3⟩

/-- **C128** and skipped bytes -/
theorem c128_skip_bytes : ∀ (n : Nat) (d : Device), Proper d →
    (d.skipBytes n).1.isSome = (skipBytes n d.content).isSome ∧ Proper (d.skipBytes n).2 ∧
    ∀ rest, skipBytes n d.content = some rest → (d.skipBytes n).2.content = rest
  | 0, d, hd => ⟨rfl, hd, by rintro rest h; simpa [skipBytes, Device.skipBytes] using h⟩
  | n + 1, d, hd => by
    obtain ⟨h1, h2, -, h3⟩ := c128_read_exact d hd 1
    rw [Device.skipBytes.eq_def]
    simp only
    rcases hc : d.content with _ | ⟨b, s⟩
    · rw [hc] at h1
      rcases hr : d.readExact 1 with ⟨o, d'⟩
      rw [hr] at h1 h2
      have : o = none := by simpa [readExact] using h1
      subst this
      exact ⟨rfl, h2, by simp [skipBytes]⟩
    · have e : readExact 1 d.content = some ([b], s) := by simp [readExact, hc]
      rw [e] at h1
      have h4 := h3 _ _ e
      rcases hr : d.readExact 1 with ⟨o, d'⟩
      rw [hr] at h1 h2 h4
      simp only [Option.map_some] at h1 h4
      subst h1
      have := c128_skip_bytes n d' h2
      rw [h4] at this
      exact this

/-- **C128 violated** a reader that fails is taken for a file that ends: for every beginning of a file that ends with a line
break, if it loads without an error it does so as well if the reader fails right after it, or anywhere in the next line; that
the rest is missing is never reported. -/
theorem c128_violated {α : Type} [Scalar α] (T : FloatText α) (file : Bytes) (rest : Bytes) (hr : (10 : UInt8) ∉ rest)
    (hfile : file = [] ∨ ∃ t, file = t ++ [10]) (d : Device) (hd : Proper d) (hc : d.content = file ++ rest) (hf : d.fails = true)
    (m : TMesh (Point3D α)) :
    d.loadXyz T = loadXyz T file ∧ d.loadXy T = loadXy T file ∧ d.loadObjMesh T m = loadObjMesh T file m ∧
    d.loadObjPoints T = loadObjPoints T file ∧ d.loadOffMesh T m = loadOffMesh T file m ∧
    d.loadOffPoints T = loadOffPoints T file ∧ d.loadPts T = loadPts T file ∧
    d.loadGcode T Scalar.zero = loadGcode T Scalar.zero file ∧ d.loadPtx T = loadPtx T file := by
  have h := c128_loads T d hd m
  have e : seen d = file := by
    unfold seen
    rw [if_pos hf, hc]
    exact wholeLines_unique hr hfile
  rw [e] at h
  exact h

/-- a reader that is interrupted, hands over two and a half lines in odd portions and fails: two lines are seen -/
example : let d : Device := ⟨[.data b!"1 2 ", .interrupted, .data b!"3\n4 5 6\n7", .data b!" 8"], true⟩
    Proper d ∧ seen d = b!"1 2 3\n4 5 6\n" ∧ d.lines = [b!"1 2 3", b!"4 5 6"] ∧
    (10 : UInt8) ∉ b!"7 8" ∧ d.content = b!"1 2 3\n4 5 6\n" ++ b!"7 8" := by
  refine ⟨by unfold Proper; decide, ?_⟩
  decide

end R3D

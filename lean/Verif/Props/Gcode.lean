import Verif.Props.Off
/-!
C69: interpreting g-code.
-/
namespace R3D
open Spec

variable {α : Type}

/-! ### specification -/

/-- the axes named by a command -/
structure Spec.Axes (α : Type) where
  x : Option α
  y : Option α
  z : Option α
deriving DecidableEq, Repr

/-- the commands of the reference interpreter -/
inductive Spec.GCmd (α : Type) where
  | move (a : Axes α)
  | set (a : Axes α)
  | absolute
  | relative
  | other

/-- the words that count: those before a comment which name an axis, at most three -/
def Spec.axisWords (ws : List Bytes) : List Bytes :=
  ((ws.takeWhile fun w => w.head? != some 59).filter fun w => (b!"XYZ").any (fun c => w.head? == some c) && decide (2 ≤ w.length)).take 3

/-- the value given to an axis: the last word with its letter counts -/
def Spec.axisValue (T : FloatText α) (c : UInt8) (ws : List Bytes) : Option α :=
  ((ws.filter fun w => w.head? == some c).getLast?).bind fun w => fromAscii T.parse (w.drop 1)

/-- the arguments of a command -/
def Spec.GArgs (T : FloatText α) (text : Bytes) (a : Axes α) : Prop :=
  ∃ ws, WordsOf (fun b => b == 32) text ws ∧ (∀ w ∈ axisWords ws, (fromAscii T.parse (w.drop 1)).isSome) ∧
    a.x = axisValue T 88 (axisWords ws) ∧ a.y = axisValue T 89 (axisWords ws) ∧ a.z = axisValue T 90 (axisWords ws)

/-- `line` is the command `name` with the arguments `rest` -/
def Spec.GMove (line rest : Bytes) : Prop :=
  rest ≠ [] ∧ (line = b!"G1 " ++ rest ∨ line = b!"G2 " ++ rest ∨ line = b!"G3 " ++ rest)

/-- the meaning of a line -/
def Spec.GLine (T : FloatText α) (line : Bytes) : GCmd α → Prop
  | .move a => ∃ rest, GMove line rest ∧ GArgs T rest a
  | .set a => ∃ rest, line = b!"G92 " ++ rest ∧ GArgs T rest a
  | .absolute => ∃ rest, line = b!"G90 " ++ rest
  | .relative => ∃ rest, line = b!"G91 " ++ rest
  | .other => ∀ rest, ¬ GMove line rest ∧ line ≠ b!"G92 " ++ rest ∧ line ≠ b!"G90 " ++ rest ∧ line ≠ b!"G91 " ++ rest

/-- lines whose axis values are no numbers -/
def Spec.GBad (T : FloatText α) (line : Bytes) : Prop :=
  ∃ rest, (GMove line rest ∨ line = b!"G92 " ++ rest) ∧ ∀ a, ¬ GArgs T rest a

/-- the state of the reference interpreter -/
structure Spec.GState (α : Type) where
  relative : Bool
  pos : Point3D α

/-- the axes a command names -/
def Spec.Axes.any (a : Axes α) : Bool := a.x.isSome || a.y.isSome || a.z.isSome

/-- the reference interpreter: the state after a command and the position reported for it -/
def Spec.gstep [Add α] (s : GState α) : GCmd α → GState α × Option (Point3D α)
  | .move a =>
    let p : Point3D α :=
      if s.relative then ⟨(a.x.map (s.pos.x + ·)).getD s.pos.x, (a.y.map (s.pos.y + ·)).getD s.pos.y, (a.z.map (s.pos.z + ·)).getD s.pos.z⟩
      else ⟨a.x.getD s.pos.x, a.y.getD s.pos.y, a.z.getD s.pos.z⟩
    (⟨s.relative, p⟩, if a.any then some p else none)
  | .set a =>
    let p : Point3D α := ⟨a.x.getD s.pos.x, a.y.getD s.pos.y, a.z.getD s.pos.z⟩
    (⟨s.relative, p⟩, if a.any then some p else none)
  | .absolute => (⟨false, s.pos⟩, none)
  | .relative => (⟨true, s.pos⟩, none)
  | .other => (s, none)

/-- the positions reported for a program -/
def Spec.grun [Add α] (s : GState α) : List (GCmd α) → List (Point3D α)
  | [] => []
  | c :: cs => (gstep s c).2.toList ++ grun (gstep s c).1 cs

/-! ### proofs -/

theorem gLoop_skip (T : FloatText α) (ws : List Bytes) (n : Nat) (x y z : Option α) :
    gcodeCommandLoop T ws n x y z = gcodeCommandLoop T (skipEmpty ws) n x y z := by
  induction ws generalizing n x y z with
  | nil => rfl
  | cons w ws ih =>
    cases w with
    | nil =>
      have : skipEmpty ([] :: ws) = skipEmpty ws := by simp [skipEmpty]
      rw [this]
      by_cases hn : n = 3
      · subst hn
        rw [gcodeCommandLoop, if_pos rfl]
        cases skipEmpty ws <;> simp [gcodeCommandLoop]
      · rw [gcodeCommandLoop, if_neg hn]
        exact ih n x y z
    | cons c w =>
      have : skipEmpty ((c :: w) :: ws) = (c :: w) :: skipEmpty ws := by simp [skipEmpty]
      rw [this]
      simp only [gcodeCommandLoop, ih]

/-- the words used from a state which has found `n` words already -/
def wordsLeft (n : Nat) (ws : List Bytes) : List Bytes :=
  ((ws.takeWhile fun w => w.head? != some 59).filter fun w => (b!"XYZ").any (fun c => w.head? == some c) && decide (2 ≤ w.length)).take (3 - n)

/-- the value of an axis, starting from `x` -/
def valueFrom (T : FloatText α) (c : UInt8) (x : Option α) (ws : List Bytes) : Option α :=
  ws.foldl (fun x w => if w.head? = some c then fromAscii T.parse (w.drop 1) else x) x

theorem valueFrom_eq (T : FloatText α) (c : UInt8) (x : Option α) (ws : List Bytes) :
    valueFrom T c x ws = if ws.any (fun w => w.head? == some c) then axisValue T c ws else x := by
  unfold valueFrom axisValue
  induction ws using List.reverseRecOn with
  | nil => rfl
  | append_singleton ws w ih =>
    rw [List.foldl_append, List.filter_append, List.any_append]
    by_cases h : w.head? = some c
    · simp [h]
    · have h' : (w.head? == some c) = false := by simpa using h
      simp only [List.foldl_cons, List.foldl_nil, if_neg h, ih, List.filter_cons, Bool.false_eq_true, if_false,
        List.filter_nil, List.append_nil, List.any_cons, List.any_nil, h', Bool.or_false]

theorem gLoop_spec (T : FloatText α) (ws : List Bytes) (hne : ∀ w ∈ ws, w ≠ []) (n : Nat) (hn : n ≤ 3) (x y z : Option α) :
    gcodeCommandLoop T ws n x y z =
      if ∀ w ∈ wordsLeft n ws, (fromAscii T.parse (w.drop 1)).isSome then
        some (valueFrom T 88 x (wordsLeft n ws), valueFrom T 89 y (wordsLeft n ws), valueFrom T 90 z (wordsLeft n ws))
      else none := by
  induction ws generalizing n x y z with
  | nil => simp [gcodeCommandLoop, wordsLeft, valueFrom]
  | cons w ws ih =>
    have ih := ih fun w hw => hne w (by simp [hw])
    by_cases h3 : n = 3
    · subst h3
      simp [gcodeCommandLoop, wordsLeft, valueFrom]
    · have hs : 3 - n = (3 - (n + 1)) + 1 := by omega
      cases w with
      | nil => exact absurd rfl (hne [] (by simp))
      | cons c arg =>
        rw [gcodeCommandLoop, if_neg h3]
        by_cases hc : c = 59
        · subst hc
          simp [wordsLeft, valueFrom]
        · rw [if_neg hc]
          have hskip : (¬ ((b!"XYZ").any (fun d => (c :: arg).head? == some d) && decide (2 ≤ (c :: arg).length)) = true) →
              wordsLeft n ((c :: arg) :: ws) = wordsLeft n ws := by
            intro h
            unfold wordsLeft
            rw [List.takeWhile_cons_of_pos (by simp [hc]), List.filter_cons, if_neg h]
          have htake : ((b!"XYZ").any (fun d => (c :: arg).head? == some d) && decide (2 ≤ (c :: arg).length)) = true →
              wordsLeft n ((c :: arg) :: ws) = (c :: arg) :: wordsLeft (n + 1) ws := by
            intro h
            unfold wordsLeft
            rw [List.takeWhile_cons_of_pos (by simp [hc]), List.filter_cons, if_pos h, hs, List.take_succ_cons]
          by_cases ha : arg = []
          · subst ha
            rw [if_pos rfl, ih n hn, hskip (by simp)]
          · have hl : 1 ≤ arg.length := List.length_pos_iff.2 ha
            have hd : (c :: arg).drop 1 = arg := rfl
            rw [if_neg ha]
            by_cases hX : c = 88
            · subst hX
              rw [if_pos rfl, htake (by simp; omega)]
              cases hp : fromAscii T.parse arg with
              | none =>
                rw [if_neg]
                intro h
                have := h _ List.mem_cons_self
                rw [hd, hp] at this
                cases this
              | some v =>
                simp only [ih (n + 1) (by omega), List.forall_mem_cons, hd, hp, Option.isSome_some, true_and]
                simp [valueFrom, hp]
            · rw [if_neg hX]
              by_cases hY : c = 89
              · subst hY
                rw [if_pos rfl, htake (by simp; omega)]
                cases hp : fromAscii T.parse arg with
                | none =>
                  rw [if_neg]
                  intro h
                  have := h _ List.mem_cons_self
                  rw [hd, hp] at this
                  cases this
                | some v =>
                  simp only [ih (n + 1) (by omega), List.forall_mem_cons, hd, hp, Option.isSome_some, true_and]
                  simp [valueFrom, hp]
              · rw [if_neg hY]
                by_cases hZ : c = 90
                · subst hZ
                  rw [if_pos rfl, htake (by simp; omega)]
                  cases hp : fromAscii T.parse arg with
                  | none =>
                    rw [if_neg]
                    intro h
                    have := h _ List.mem_cons_self
                    rw [hd, hp] at this
                    cases this
                  | some v =>
                    simp only [ih (n + 1) (by omega), List.forall_mem_cons, hd, hp, Option.isSome_some, true_and]
                    simp [valueFrom, hp]
                · rw [if_neg hZ, ih n hn, hskip (by simp [hX, hY, hZ])]

theorem gcodeCommand_iff {T : FloatText α} {text : Bytes} {x y z : Option α} :
    gcodeCommand T text = some (x, y, z) ↔ GArgs T text ⟨x, y, z⟩ := by
  obtain ⟨ws, hws⟩ := wordsOf_exists (fun b => b == 32) text
  have hne : ∀ w ∈ skipEmpty (splitP (fun b => b == 32) text), w ≠ [] := by
    intro w hw
    have := (List.mem_filter.1 hw).2
    simpa using this
  unfold gcodeCommand
  rw [gLoop_skip, gLoop_spec T _ hne 0 (by omega), words_of hws]
  have e : wordsLeft 0 ws = axisWords ws := rfl
  rw [e]
  have hv : ∀ c, valueFrom T c none (axisWords ws) = axisValue T c (axisWords ws) := by
    intro c
    rw [valueFrom_eq]
    split_ifs with h
    · rfl
    · unfold axisValue
      have : (axisWords ws).filter (fun w => w.head? == some c) = [] := by
        rw [List.filter_eq_nil_iff]
        intro w hw hh
        exact h (List.any_eq_true.2 ⟨w, hw, hh⟩)
      rw [this]; rfl
  simp only [hv]
  constructor
  · intro h
    split_ifs at h with h1
    simp only [Option.some.injEq, Prod.mk.injEq] at h
    obtain ⟨rfl, rfl, rfl⟩ := h
    exact ⟨ws, hws, h1, rfl, rfl, rfl⟩
  · rintro ⟨ws', hws', h1, hx, hy, hz⟩
    have : ws' = ws := wordsOf_unique hws' hws
    subst this
    dsimp only at hx hy hz
    rw [if_pos h1, hx, hy, hz]

/-- the reading of one line in a form close to the loop -/
theorem gline_cases (T : FloatText α) (line : Bytes) : (∃ c, GLine T line c) ∨ GBad T line := by
  by_cases hm : ∃ rest, GMove line rest
  · obtain ⟨rest, hm⟩ := hm
    by_cases ha : ∃ a, GArgs T rest a
    · exact .inl ⟨.move ha.choose, rest, hm, ha.choose_spec⟩
    · exact .inr ⟨rest, .inl hm, fun a h => ha ⟨a, h⟩⟩
  by_cases h92 : ∃ rest, line = b!"G92 " ++ rest
  · obtain ⟨rest, hm⟩ := h92
    by_cases ha : ∃ a, GArgs T rest a
    · exact .inl ⟨.set ha.choose, rest, hm, ha.choose_spec⟩
    · exact .inr ⟨rest, .inr hm, fun a h => ha ⟨a, h⟩⟩
  by_cases h90 : ∃ rest, line = b!"G90 " ++ rest
  · exact .inl ⟨.absolute, h90⟩
  by_cases h91 : ∃ rest, line = b!"G91 " ++ rest
  · exact .inl ⟨.relative, h91⟩
  exact .inl ⟨.other, fun rest => ⟨fun h => hm ⟨_, h⟩, fun h => h92 ⟨_, h⟩, fun h => h90 ⟨_, h⟩, fun h => h91 ⟨_, h⟩⟩⟩

theorem gLoop_move [Add α] (T : FloatText α) {line rest : Bytes} (h : GMove line rest) (ls : List Bytes) (s : GcodeIter α) :
    gcodeLoop T (line :: ls) s =
      match gcodeCommand T rest with
      | none => (some (.error (.line (s.iLine + 1) line .Command)), { s with lines := ls, iLine := s.iLine + 1, isDone := true })
      | some (ox, oy, oz) =>
        let p : Point3D α := ⟨gcodeMove s.relative s.pos.x ox, gcodeMove s.relative s.pos.y oy, gcodeMove s.relative s.pos.z oz⟩
        if ox.isSome || oy.isSome || oz.isSome then (some (.ok p), { s with lines := ls, iLine := s.iLine + 1, pos := p })
        else gcodeLoop T ls { s with lines := ls, iLine := s.iLine + 1 } := by
  obtain ⟨hne, h⟩ := h
  cases rest with
  | nil => exact absurd rfl hne
  | cons c rest =>
    rcases h with rfl | rfl | rfl <;>
    · simp only [List.cons_append, List.nil_append, gcodeLoop]
      rw [if_pos (by decide), if_pos (by decide)]
      rcases gcodeCommand T (c :: rest) with _ | ⟨_, _, _⟩ <;> rfl

theorem gLoop_set [Add α] (T : FloatText α) (rest : Bytes) (ls : List Bytes) (s : GcodeIter α) :
    gcodeLoop T ((b!"G92 " ++ rest) :: ls) s =
      match gcodeCommand T rest with
      | none => (some (.error (.line (s.iLine + 1) (b!"G92 " ++ rest) .Command)), { s with lines := ls, iLine := s.iLine + 1, isDone := true })
      | some (ox, oy, oz) =>
        let p : Point3D α := ⟨ox.getD s.pos.x, oy.getD s.pos.y, oz.getD s.pos.z⟩
        if ox.isSome || oy.isSome || oz.isSome then (some (.ok p), { s with lines := ls, iLine := s.iLine + 1, pos := p })
        else gcodeLoop T ls { s with lines := ls, iLine := s.iLine + 1 } := by
  simp only [List.cons_append, List.nil_append, gcodeLoop]
  rw [if_pos (by decide), if_neg (by decide), if_pos (by decide), if_neg (by decide), if_neg (by decide), if_pos (by decide)]
  rcases gcodeCommand T rest with _ | ⟨_, _, _⟩ <;> rfl

theorem gLoop_absolute [Add α] (T : FloatText α) (rest : Bytes) (ls : List Bytes) (s : GcodeIter α) :
    gcodeLoop T ((b!"G90 " ++ rest) :: ls) s = gcodeLoop T ls { s with lines := ls, iLine := s.iLine + 1, relative := false } := by
  simp only [List.cons_append, List.nil_append, gcodeLoop]
  rw [if_pos (by decide), if_neg (by decide), if_pos (by decide), if_pos (by decide)]

theorem gLoop_relative [Add α] (T : FloatText α) (rest : Bytes) (ls : List Bytes) (s : GcodeIter α) :
    gcodeLoop T ((b!"G91 " ++ rest) :: ls) s = gcodeLoop T ls { s with lines := ls, iLine := s.iLine + 1, relative := true } := by
  simp only [List.cons_append, List.nil_append, gcodeLoop]
  rw [if_pos (by decide), if_neg (by decide), if_pos (by decide), if_neg (by decide), if_pos (by decide)]

theorem gLoop_other [Add α] (T : FloatText α) {line : Bytes} (h : GLine T line .other) (ls : List Bytes) (s : GcodeIter α) :
    gcodeLoop T (line :: ls) s = gcodeLoop T ls { s with lines := ls, iLine := s.iLine + 1 } := by
  match line, h with
  | [], _ => simp [gcodeLoop]
  | [_], _ => simp [gcodeLoop]
  | [_, _], _ => simp [gcodeLoop]
  | [_, _, _], _ => simp [gcodeLoop]
  | c0 :: c1 :: c2 :: c3 :: tail, h =>
    simp only [gcodeLoop]
    by_cases h0 : c0 = 71
    · subst h0
      rw [if_pos rfl]
      by_cases h1 : c2 = 32 ∧ (c1 = 49 ∨ c1 = 50 ∨ c1 = 51)
      · obtain ⟨rfl, h1⟩ := h1
        exfalso
        refine (h (c3 :: tail)).1 ⟨by simp, ?_⟩
        rcases h1 with rfl | rfl | rfl
        · exact .inl rfl
        · exact .inr (.inl rfl)
        · exact .inr (.inr rfl)
      · rw [if_neg h1]
        by_cases h2 : c1 = 57 ∧ c3 = 32
        · obtain ⟨rfl, rfl⟩ := h2
          rw [if_pos ⟨rfl, rfl⟩]
          rw [if_neg (fun e => (h tail).2.2.1 (by subst e; rfl)), if_neg (fun e => (h tail).2.2.2 (by subst e; rfl)),
            if_neg (fun e => (h tail).2.1 (by subst e; rfl))]
        · rw [if_neg h2]
    · rw [if_neg h0]

/-- what was loaded: the run of the reference interpreter on the meaning of the lines, up to the first bad line -/
def Spec.GLoaded [Add α] (T : FloatText α) (ls : List Bytes) (i : Nat) (s : GState α) (pts : List (Point3D α))
    (r : Except (LineInfo GcodeError) Unit) : Prop :=
  ∃ good cmds rest, ls = good ++ rest ∧ List.Forall₂ (GLine T) good cmds ∧ pts = grun s cmds ∧
    ((rest = [] ∧ r = .ok ()) ∨
     ∃ bad rest', rest = bad :: rest' ∧ GBad T bad ∧ r = .error (.line (i + good.length + 1) bad .Command))

theorem gLoaded_cons [Add α] {T : FloatText α} {line : Bytes} {ls : List Bytes} {i : Nat} {s : GState α} {c : GCmd α}
    (hc : GLine T line c) {pts : List (Point3D α)} {r : Except (LineInfo GcodeError) Unit}
    (h : GLoaded T ls (i + 1) (gstep s c).1 pts r) : GLoaded T (line :: ls) i s ((gstep s c).2.toList ++ pts) r := by
  obtain ⟨good, cmds, rest, rfl, h1, rfl, h2⟩ := h
  refine ⟨line :: good, c :: cmds, rest, rfl, .cons hc h1, rfl, h2.imp id ?_⟩
  rintro ⟨bad, rest', rfl, h3, rfl⟩
  refine ⟨bad, rest', rfl, h3, ?_⟩
  rw [List.length_cons, show i + 1 + good.length + 1 = i + (good.length + 1) + 1 by omega]

theorem drain_gcode [Add α] (T : FloatText α) (N : Nat) (s : GcodeIter α) (hd : s.isDone = false) :
    drain (gcodeNext T) (N + 1) s =
      match gcodeLoop T s.lines s with
      | (.none, _) => some ([], .ok ())
      | (.some (.error e), _) => some ([], .error e)
      | (.some (.ok a), s') => (drain (gcodeNext T) N s').map fun r => (a :: r.1, r.2) := by
  rw [drain, gcodeNext, if_neg (by simp [hd])]
  rcases gcodeLoop T s.lines s with ⟨_ | ⟨_ | _⟩, _⟩ <;> rfl

theorem drain_gcode_spec [Add α] (T : FloatText α) (ls : List Bytes) : ∀ (N : Nat), ls.length < N → ∀ (i : Nat) (rel : Bool) (p : Point3D α),
    ∃ pts r, drain (gcodeNext T) N ⟨ls, false, i, rel, p⟩ = some (pts, r) ∧ GLoaded T ls i ⟨rel, p⟩ pts r := by
  induction ls with
  | nil =>
    intro N hN i rel p
    obtain ⟨N, rfl⟩ := Nat.exists_eq_succ_of_ne_zero (Nat.ne_of_gt hN)
    exact ⟨[], .ok (), by rw [drain_gcode T N _ rfl]; rfl, [], [], [], rfl, .nil, rfl, .inl ⟨rfl, rfl⟩⟩
  | cons line ls ih =>
    intro N hN i rel p
    obtain ⟨N, rfl⟩ := Nat.exists_eq_succ_of_ne_zero (Nat.ne_of_gt (Nat.zero_lt_of_lt hN))
    rw [List.length_cons] at hN
    have bad : GBad T line → gcodeLoop T (line :: ls) ⟨line :: ls, false, i, rel, p⟩ =
        (some (.error (.line (i + 1) line .Command)), ⟨ls, true, i + 1, rel, p⟩) → ∃ pts r,
        drain (gcodeNext T) (N + 1) ⟨line :: ls, false, i, rel, p⟩ = some (pts, r) ∧ GLoaded T (line :: ls) i ⟨rel, p⟩ pts r := by
      intro hb h
      exact ⟨[], _, by rw [drain_gcode T N _ rfl, h]; rfl, [], [], line :: ls, rfl, .nil, rfl, .inr ⟨line, ls, rfl, hb, rfl⟩⟩
    have silent : ∀ c rel', GLine T line c → gstep ⟨rel, p⟩ c = (⟨rel', p⟩, none) →
        gcodeLoop T (line :: ls) ⟨line :: ls, false, i, rel, p⟩ = gcodeLoop T ls ⟨ls, false, i + 1, rel', p⟩ → ∃ pts r,
        drain (gcodeNext T) (N + 1) ⟨line :: ls, false, i, rel, p⟩ = some (pts, r) ∧ GLoaded T (line :: ls) i ⟨rel, p⟩ pts r := by
      intro c rel' hc hg h
      obtain ⟨pts, r, h1, h2⟩ := ih (N + 1) (by omega) (i + 1) rel' p
      refine ⟨pts, r, ?_, ?_⟩
      · rw [drain_gcode T N _ rfl, h]
        rw [drain_gcode T N _ rfl] at h1
        exact h1
      · have := gLoaded_cons (i := i) (s := ⟨rel, p⟩) hc (pts := pts) (r := r) (by rw [hg]; exact h2)
        rw [hg] at this
        exact this
    have loud : ∀ c p', GLine T line c → gstep ⟨rel, p⟩ c = (⟨rel, p'⟩, some p') →
        gcodeLoop T (line :: ls) ⟨line :: ls, false, i, rel, p⟩ = (some (.ok p'), ⟨ls, false, i + 1, rel, p'⟩) → ∃ pts r,
        drain (gcodeNext T) (N + 1) ⟨line :: ls, false, i, rel, p⟩ = some (pts, r) ∧ GLoaded T (line :: ls) i ⟨rel, p⟩ pts r := by
      intro c p' hc hg h
      obtain ⟨pts, r, h1, h2⟩ := ih N (by omega) (i + 1) rel p'
      refine ⟨p' :: pts, r, ?_, ?_⟩
      · rw [drain_gcode T N _ rfl, h]
        dsimp only
        rw [h1]; rfl
      · have := gLoaded_cons (i := i) (s := ⟨rel, p⟩) hc (pts := pts) (r := r) (by rw [hg]; exact h2)
        rw [hg] at this
        exact this
    have other : GLine T line .other → ∃ pts r,
        drain (gcodeNext T) (N + 1) ⟨line :: ls, false, i, rel, p⟩ = some (pts, r) ∧ GLoaded T (line :: ls) i ⟨rel, p⟩ pts r :=
      fun h => silent .other rel h rfl (gLoop_other T h ls _)
    rcases gline_cases T line with ⟨c, hc⟩ | hb
    · cases c with
      | move a =>
        obtain ⟨rest, hm, ha⟩ := id hc
        have hcmd := gcodeCommand_iff.2 ha
        have hl := gLoop_move T hm ls ⟨line :: ls, false, i, rel, p⟩
        rw [hcmd] at hl
        dsimp only at hl
        have e : ∀ (cur : α) o, gcodeMove rel cur o = if rel then (o.map (cur + ·)).getD cur else o.getD cur := by
          intro cur o
          cases o <;> cases rel <;> rfl
        have hg : gstep ⟨rel, p⟩ (.move a) = (⟨rel, ⟨gcodeMove rel p.x a.x, gcodeMove rel p.y a.y, gcodeMove rel p.z a.z⟩⟩,
            if a.any then some ⟨gcodeMove rel p.x a.x, gcodeMove rel p.y a.y, gcodeMove rel p.z a.z⟩ else none) := by
          simp only [gstep, e]
          cases rel <;> rfl
        by_cases hany : a.any = true
        · rw [if_pos (show (a.x.isSome || a.y.isSome || a.z.isSome) = true from hany)] at hl
          rw [if_pos hany] at hg
          exact loud _ _ hc hg hl
        · rw [if_neg (show ¬ (a.x.isSome || a.y.isSome || a.z.isSome) = true from hany)] at hl
          rw [if_neg hany] at hg
          have : (⟨gcodeMove rel p.x a.x, gcodeMove rel p.y a.y, gcodeMove rel p.z a.z⟩ : Point3D α) = p := by
            simp only [Axes.any, Bool.or_eq_true, not_or, Bool.not_eq_true, Option.isSome_eq_false_iff, Option.isNone_iff_eq_none] at hany
            rw [hany.1.1, hany.1.2, hany.2]
            rfl
          rw [this] at hg
          exact silent _ _ hc hg hl
      | set a =>
        obtain ⟨rest, rfl, ha⟩ := id hc
        have hcmd := gcodeCommand_iff.2 ha
        have hl := gLoop_set T rest ls ⟨(b!"G92 " ++ rest) :: ls, false, i, rel, p⟩
        rw [hcmd] at hl
        dsimp only at hl
        by_cases hany : a.any = true
        · rw [if_pos (show (a.x.isSome || a.y.isSome || a.z.isSome) = true from hany)] at hl
          exact loud _ _ hc (by simp only [gstep, if_pos hany]) hl
        · rw [if_neg (show ¬ (a.x.isSome || a.y.isSome || a.z.isSome) = true from hany)] at hl
          have : (⟨a.x.getD p.x, a.y.getD p.y, a.z.getD p.z⟩ : Point3D α) = p := by
            simp only [Axes.any, Bool.or_eq_true, not_or, Bool.not_eq_true, Option.isSome_eq_false_iff, Option.isNone_iff_eq_none] at hany
            rw [hany.1.1, hany.1.2, hany.2]
            rfl
          exact silent _ _ hc (by simp only [gstep, if_neg hany, this]) hl
      | absolute =>
        obtain ⟨rest, rfl⟩ := id hc
        exact silent _ _ hc rfl (gLoop_absolute T rest ls _)
      | relative =>
        obtain ⟨rest, rfl⟩ := id hc
        exact silent _ _ hc rfl (gLoop_relative T rest ls _)
      | other => exact other hc
    · obtain ⟨rest, hm, ha⟩ := id hb
      have hcmd : gcodeCommand T rest = none := by
        cases h : gcodeCommand T rest with
        | none => rfl
        | some a => exact absurd (gcodeCommand_iff.1 h) (ha _)
      rcases hm with hm | rfl
      · have hl := gLoop_move T hm ls ⟨line :: ls, false, i, rel, p⟩
        rw [hcmd] at hl
        exact bad hb hl
      · have hl := gLoop_set T rest ls ⟨(b!"G92 " ++ rest) :: ls, false, i, rel, p⟩
        rw [hcmd] at hl
        exact bad hb hl

/-- **C69** (partial: see the violations below): loading g-code yields the positions of the reference interpreter for the lines as
`Spec.GLine` reads them, up to the first line with a malformed axis value, which is reported. -/
theorem c69_run_partial [Add α] (T : FloatText α) (zero : α) (input : Bytes) : ∃ pts r, loadGcode T zero input = some (pts, r) ∧
    GLoaded T (lines input) 0 ⟨false, ⟨zero, zero, zero⟩⟩ pts r :=
  drain_gcode_spec T (lines input) _ (by omega) 0 false _

theorem gmove_cases {line rest : Bytes} (h : GMove line rest) : line.drop 3 = rest ∧ (line : Bytes)[2]? = some 32 ∧ rest ≠ [] ∧
    (line : Bytes)[0]? = some 71 ∧ ((line : Bytes)[1]? = some 49 ∨ (line : Bytes)[1]? = some 50 ∨ (line : Bytes)[1]? = some 51) := by
  obtain ⟨h0, rfl | rfl | rfl⟩ := h <;> simp [h0]

theorem gargs_unique {T : FloatText α} {text : Bytes} {a b : Axes α} (ha : GArgs T text a) (hb : GArgs T text b) : a = b := by
  have h1 := gcodeCommand_iff.2 ha
  have h2 := gcodeCommand_iff.2 hb
  rw [h1] at h2
  simp only [Option.some.injEq, Prod.mk.injEq] at h2
  obtain ⟨x, y, z⟩ := a
  obtain ⟨x', y', z'⟩ := b
  simp only [Axes.mk.injEq]
  exact h2

/-- the reading of a line as a command with arguments, in bytes -/
theorem gline_tag {T : FloatText α} {line : Bytes} {c : GCmd α} (h : GLine T line c) :
    match c with
    | .move a => (line : Bytes)[2]? = some 32 ∧ GArgs T (line.drop 3) a
    | .set a => (line : Bytes)[2]? = some 50 ∧ (line : Bytes)[1]? = some 57 ∧ GArgs T (line.drop 4) a
    | .absolute => (line : Bytes)[2]? = some 48 ∧ (line : Bytes)[1]? = some 57
    | .relative => (line : Bytes)[2]? = some 49 ∧ (line : Bytes)[1]? = some 57
    | .other => True := by
  cases c with
  | move a =>
    obtain ⟨rest, hm, ha⟩ := h
    obtain ⟨rfl, h2, -⟩ := gmove_cases hm
    exact ⟨h2, ha⟩
  | set a =>
    obtain ⟨rest, rfl, ha⟩ := h
    exact ⟨rfl, rfl, ha⟩
  | absolute =>
    obtain ⟨rest, rfl⟩ := h
    exact ⟨rfl, rfl⟩
  | relative =>
    obtain ⟨rest, rfl⟩ := h
    exact ⟨rfl, rfl⟩
  | other => trivial

/-- C69: every line is read in exactly one way: as one command, or as a command with malformed arguments -/
theorem c69_line (T : FloatText α) (line : Bytes) : (∃ c, GLine T line c ∧ (∀ c', GLine T line c' → c' = c) ∧ ¬ GBad T line) ∨
    (GBad T line ∧ ∀ c, ¬ GLine T line c) := by
  have hbad : ∀ c, GLine T line c → ¬ GBad T line := by
    rintro c hc ⟨rest, hm, hno⟩
    cases c with
    | move a =>
      obtain ⟨r', hm', ha⟩ := hc
      obtain ⟨rfl, e2, -⟩ := gmove_cases hm'
      rcases hm with hm | rfl
      · obtain ⟨rfl, -⟩ := gmove_cases hm
        exact hno _ ha
      · simp at e2
    | set a =>
      obtain ⟨r', rfl, ha⟩ := hc
      rcases hm with hm | e
      · have := (gmove_cases hm).2.1
        simp at this
      · rw [List.append_cancel_left e] at ha
        exact hno _ ha
    | absolute =>
      obtain ⟨r', rfl⟩ := hc
      rcases hm with hm | e
      · have := (gmove_cases hm).2.1
        simp at this
      · simp at e
    | relative =>
      obtain ⟨r', rfl⟩ := hc
      rcases hm with hm | e
      · have := (gmove_cases hm).2.1
        simp at this
      · simp at e
    | other =>
      rcases hm with hm | e
      · exact (hc rest).1 hm
      · exact (hc rest).2.1 e
  rcases gline_cases T line with ⟨c, hc⟩ | hb
  · refine .inl ⟨c, hc, fun c' hc' => ?_, hbad c hc⟩
    have t := gline_tag hc
    have t' := gline_tag hc'
    have other : ∀ d, GLine T line d → GLine T line .other → d = .other := by
      intro d hd ho
      cases d with
      | move a => obtain ⟨r, hm, -⟩ := hd; exact absurd hm (ho r).1
      | set a => obtain ⟨r, hm, -⟩ := hd; exact absurd hm (ho r).2.1
      | absolute => obtain ⟨r, hm⟩ := hd; exact absurd hm (ho r).2.2.1
      | relative => obtain ⟨r, hm⟩ := hd; exact absurd hm (ho r).2.2.2
      | other => rfl
    cases c <;> cases c' <;> first
      | rfl
      | exact other _ hc' hc
      | exact (other _ hc hc').symm
      | (simp only at t t'; rw [gargs_unique t.2 t'.2])
      | (simp only at t t'; rw [gargs_unique t.2.2 t'.2.2])
      | (simp only at t t'; have := t.1.symm.trans t'.1; simp at this)
  · exact .inr ⟨hb, fun c hc => hbad c hc hb⟩

/-- C69 is violated by G90 and G91 on a line of their own: they are ignored. -/
theorem c69_violated_modal : ∃ file : Bytes, file = b!"G1 X1\nG91\nG1 X1\n" ∧
    loadGcode natText 0 file = some ([⟨1, 0, 0⟩, ⟨1, 0, 0⟩], .ok ()) ∧
    loadGcode natText 0 (b!"G1 X1\nG91 ;\nG1 X1\n") = some ([⟨1, 0, 0⟩, ⟨2, 0, 0⟩], .ok ()) := ⟨_, rfl, by decide +kernel⟩

/-- C69 is violated by G0: it is ignored, so that later relative moves start from the wrong position. -/
theorem c69_violated_rapid : ∃ file : Bytes, file = b!"G0 X5\nG91 ;\nG1 X1\n" ∧
    loadGcode natText 0 file = some ([⟨1, 0, 0⟩], .ok ()) := ⟨_, rfl, by decide +kernel⟩

/-- C69 is violated by arguments separated by tabs: they are part of the number and the whole file is rejected. -/
theorem c69_violated_tab : ∃ file : Bytes, file = b!"G1 X1\tY2\n" ∧
    loadGcode natText 0 file = some ([], .error (.line 1 b!"G1 X1\tY2" .Command)) := ⟨_, rfl, by decide +kernel⟩

/-- C69 example: a program with all commands -/
example : loadGcode natText 0 (b!"; start\nG1 X1 Y2 F30\nG91 ; relative\nG1 X1 Z3\nG92 X0\nG90 ;\nG2 Y7 ;X9\n") =
    some ([⟨1, 2, 0⟩, ⟨2, 2, 3⟩, ⟨0, 2, 3⟩, ⟨0, 7, 3⟩], .ok ()) := by decide +kernel

/-- C69 example: the meaning of a line -/
example : GLine natText (b!"G1 X1 Y2 F30") (.move ⟨some 1, some 2, none⟩) :=
  ⟨b!"X1 Y2 F30", ⟨by decide, .inl rfl⟩, gcodeCommand_iff.1 (by decide +kernel)⟩

end R3D

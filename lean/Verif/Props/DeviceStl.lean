import Verif.Model.DeviceStl
import Verif.Props.Device
import Verif.Props.Agree
/-!
C128 for .stl files: how a reader hands over the file, and what happens if it fails.
-/
namespace R3D
open Spec

/-- the part of the data of an .stl file in ASCII the loaders get to see: the first five bytes are read by their number, the rest in lines -/
def Spec.seenSolid (d : Device) : Bytes := if d.fails then d.content.take 5 ++ wholeLines (d.content.drop 5) else d.content

/-- is a file with these bytes taken for ASCII? -/
def Spec.takenForText (format : StlFormat) (s : Bytes) : Prop := format = .Ascii ∨ format = .Auto ∧ s.take 5 = b!"solid"

/-- loops over states that correspond to each other do the same -/
theorem forEach_sim {σ τ ε α μ : Type} {next : σ → Panics (Option (Except ε α) × σ)} {next' : τ → Panics (Option (Except ε α) × τ)}
    {push : μ → α → μ × Except ε Unit} (R : σ → τ → Prop)
    (h : ∀ s t, R s t → (next s = none ∧ next' t = none) ∨ ∃ o s' t', next s = some (o, s') ∧ next' t = some (o, t') ∧ R s' t') :
    ∀ (n : Nat) (s : σ) (t : τ) (m : μ), R s t → forEach next push n s m = forEach next' push n t m := by
  intro n
  induction n with
  | zero => intro s t m _; rfl
  | succ n ih =>
    intro s t m hr
    rw [forEach, forEach]
    rcases h s t hr with ⟨h1, h2⟩ | ⟨o, s', t', h1, h2, h3⟩
    · rw [h1, h2]
    · rw [h1, h2]
      rcases o with _ | _ | x
      · rfl
      · rfl
      · simp only
        rcases push m x with ⟨a, _ | _⟩
        · rfl
        · exact ih s' t' a h3

/-! ### binary -/

/-- the iterators over a reader and over its bytes are at the same place, unless they are done -/
def sameBinary (s : DevStlBinary) (t : StlBinaryIter) : Prop :=
  s.isDone = t.isDone ∧ (s.isDone = false → s.headerRead = t.headerRead ∧ s.nTriangles = t.nTriangles ∧ s.current = t.current ∧
    Proper s.read ∧ s.read.content = t.read)

/-- `read_exact` in the two cases -/
theorem readExact_cases (d : Device) (hd : Proper d) (n : Nat) :
    (readExact n d.content = none ∧ ∃ d', d.readExact n = (none, d')) ∨
      ∃ b d', readExact n d.content = some (b, d'.content) ∧ d.readExact n = (some b, d') ∧ Proper d' ∧ d'.fails = d.fails := by
  obtain ⟨h1, h2, h3, h4⟩ := c128_read_exact d hd n
  rcases hr : readExact n d.content with _ | ⟨b, rest⟩
  · rw [hr] at h1
    exact .inl ⟨rfl, (d.readExact n).2, Prod.ext h1 rfl⟩
  · rw [hr] at h1
    exact .inr ⟨b, (d.readExact n).2, by rw [h4 b rest hr], Prod.ext h1 rfl, h2, h3⟩

theorem sameBinary_next (s : DevStlBinary) (t : StlBinaryIter) (h : sameBinary s t) :
    (devStlBinaryNext s = none ∧ stlBinaryNext t = none) ∨
      ∃ o s' t', devStlBinaryNext s = some (o, s') ∧ stlBinaryNext t = some (o, t') ∧ sameBinary s' t' := by
  obtain ⟨hdone, h⟩ := h
  unfold devStlBinaryNext stlBinaryNext
  rw [← hdone]
  by_cases hd : s.isDone = true
  · rw [if_pos hd, if_pos hd]
    exact .inr ⟨_, _, _, rfl, rfl, hdone, fun h => by rw [hd] at h; cases h⟩
  · rw [if_neg hd, if_neg hd]
    have hd' : s.isDone = false := by simpa using hd
    obtain ⟨h1, h2, h3, h4, h5⟩ := h hd'
    rw [← h1, ← h2, ← h3, ← h5]
    by_cases hh : (!s.headerRead) = true
    · rw [if_pos hh, if_pos hh]
      rcases readExact_cases s.read h4 75 with ⟨e1, d', e2⟩ | ⟨b, d', e1, e2, e3, -⟩
      · rw [e1, e2]
        exact .inr ⟨_, _, _, rfl, rfl, rfl, fun h => by cases h⟩
      · rw [e1, e2]
        simp only [readNat]
        rcases readExact_cases d' e3 4 with ⟨e4, d'', e5⟩ | ⟨b, d'', e4, e5, e6, -⟩
        · rw [e4, e5]
          exact .inr ⟨_, _, _, rfl, rfl, rfl, fun h => by cases h⟩
        · rw [e4, e5]
          simp only
          by_cases hn : natOfBytes .little b > maxTrianglesBinary
          · rw [if_pos hn, if_pos hn]
            exact .inr ⟨_, _, _, rfl, rfl, rfl, fun h => by cases h⟩
          · rw [if_neg hn, if_neg hn]
            exact .inr ⟨_, _, _, rfl, rfl, rfl, fun _ => ⟨rfl, rfl, rfl, e6, rfl⟩⟩
    · rw [if_neg hh, if_neg hh]
      by_cases hc : s.current < s.nTriangles
      · rw [if_pos hc, if_pos hc]
        unfold devStlTriangle readStlTriangle
        rcases readExact_cases s.read h4 50 with ⟨e1, d', e2⟩ | ⟨b, d', e1, e2, e3, -⟩
        · rw [e1, e2]
          exact .inr ⟨_, _, _, rfl, rfl, rfl, fun h => by cases h⟩
        · rw [e1, e2]
          simp only
          rcases stlPointFromBytes (b.take 12) with _ | _ | n <;>
          rcases stlPointFromBytes ((b.drop 12).take 12) with _ | _ | x <;>
          rcases stlPointFromBytes ((b.drop 24).take 12) with _ | _ | y <;>
          rcases stlPointFromBytes ((b.drop 36).take 12) with _ | _ | z <;>
          first
          | exact .inl ⟨rfl, rfl⟩
          | exact .inr ⟨_, _, _, rfl, rfl, rfl, fun h => by cases h⟩
          | exact .inr ⟨_, _, _, rfl, rfl, rfl, fun _ => ⟨rfl, rfl, rfl, e3, rfl⟩⟩
      · rw [if_neg hc, if_neg hc]
        exact .inr ⟨_, _, _, rfl, rfl, rfl, fun h => by cases h⟩

/-! ### ASCII -/

/-- the loaders see `t` of the reader -/
def sees (d : Device) (t : Bytes) : Prop := Proper d ∧ seen d = t

theorem devUntil_none (fails : Bool) : ∀ (ps : List Portion), (devUntil fails ps).1 = none → (devUntil fails ps).2 = []
  | [], _ => by rw [devUntil]
  | .interrupted :: ps, h => by
    rw [devUntil] at h ⊢
    exact devUntil_none fails ps h
  | .data bs :: ps, h => by
    rw [devUntil] at h ⊢
    by_cases hb : (10 : UInt8) ∈ bs
    · rw [if_pos hb] at h; cases h
    · rw [if_neg hb] at h ⊢
      by_cases he : bs = []
      · rw [if_pos he] at h; cases h
      · rw [if_neg he] at h ⊢
        exact devUntil_none fails ps (by simpa using h)

theorem sees_until {d : Device} {t : Bytes} (h : sees d t) (hn : d.fails = false ∨ (10 : UInt8) ∈ d.content) :
    ∃ ps, devUntil d.fails d.portions = (some (readUntilNl t).1, ps) ∧ sees { d with portions := ps } (readUntilNl t).2 := by
  obtain ⟨hd, rfl⟩ := h
  obtain ⟨e1, e2, e3⟩ := (devUntil_spec d.fails d.portions hd).2 hn
  rw [← content_eq] at e1 e2
  have key : (readUntilNl (seen d)).1 = (readUntilNl d.content).1 ∧ (readUntilNl (seen d)).2 = seen { d with portions := (devUntil d.fails d.portions).2 } := by
    have hc : (Device.mk (devUntil d.fails d.portions).2 d.fails).content = (readUntilNl d.content).2 := e2
    unfold seen
    rw [hc]
    by_cases hf : d.fails = true
    · have hm := hn.resolve_left (by simp [hf])
      rw [if_pos hf, if_pos hf, wholeLines_step hm]
      obtain ⟨c, q1, q2, -⟩ := readUntilNl_mem hm
      have h10 : (10 : UInt8) ∈ (readUntilNl d.content).1 := by rw [q2]; simp
      rw [readUntilNl_append_mem h10]
      have : readUntilNl (readUntilNl d.content).1 = ((readUntilNl d.content).1, []) := by
        rw [q2, readUntilNl_append q1]
        simp [readUntilNl]
      rw [this]
      exact ⟨rfl, rfl⟩
    · rw [if_neg hf, if_neg hf]
      exact ⟨rfl, rfl⟩
  refine ⟨(devUntil d.fails d.portions).2, ?_, e3, key.2.symm⟩
  rw [key.1, ← e1]

theorem sees_fetch {d : Device} {t : Bytes} (h : sees d t) :
    (fetchLine t = none ∧ ∃ d', d.fetchLine = (none, d') ∧ sees d' t) ∨
      ∃ l rest d', fetchLine t = some (l, rest) ∧ d.fetchLine = (some l, d') ∧ sees d' rest := by
  by_cases hn : d.fails = false ∨ (10 : UInt8) ∈ d.content
  · obtain ⟨ps, e1, e2⟩ := sees_until h hn
    unfold Device.fetchLine fetchLine
    rw [e1]
    simp only
    by_cases hb : (readUntilNl t).1.length = 0
    · rw [if_pos hb, if_pos hb]
      refine .inl ⟨rfl, _, rfl, ?_⟩
      have ht : t = [] := by
        by_contra ht
        exact readUntilNl_ne ht (by simpa using hb)
      subst ht
      exact e2
    · rw [if_neg hb, if_neg hb]
      exact .inr ⟨_, _, _, rfl, rfl, e2⟩
  · rw [not_or] at hn
    have hf : d.fails = true := by simpa using hn.1
    have ht : t = [] := by
      rw [← h.2]
      unfold seen
      rw [if_pos hf, wholeLines_not_mem hn.2]
    subst ht
    have hu := (devUntil_spec d.fails d.portions h.1).1 hf hn.2
    refine .inl ⟨by simp [fetchLine, readUntilNl], ?_⟩
    unfold Device.fetchLine
    rcases hv : devUntil d.fails d.portions with ⟨_ | b, ps⟩
    · have := devUntil_none _ _ hu
      rw [hv] at this
      simp only at this
      subst this
      refine ⟨_, rfl, by simp [Proper], ?_⟩
      unfold seen
      split_ifs <;> rfl
    · rw [hv] at hu; cases hu

/-- code that does the same on a reader as on the bytes seen of it -/
def sameCode {β : Type} (a : DevStlM β) (b : StlM β) : Prop :=
  ∀ d t i, sees d t → ∃ o d' t' j, a (d, i) = (o, (d', j)) ∧ b (t, i) = (o, (t', j)) ∧ sees d' t'

theorem sameCode_bind {β γ : Type} {a : DevStlM β} {b : StlM β} {f : β → DevStlM γ} {g : β → StlM γ} (h : sameCode a b)
    (hf : ∀ x, sameCode (f x) (g x)) : sameCode (a >>= f) (b >>= g) := by
  intro d t i hs
  obtain ⟨o, d', t', j, h1, h2, h3⟩ := h d t i hs
  simp only [bind, ExceptT.bind, ExceptT.mk, StateT.bind, h1, h2, ExceptT.bindCont]
  rcases o with e | x
  · exact ⟨_, _, _, _, rfl, rfl, h3⟩
  · exact hf x d' t' j h3

theorem sameCode_pure {β : Type} (x : β) : sameCode (pure x) (pure x) := fun d t i h => ⟨.ok x, d, t, i, rfl, rfl, h⟩
theorem sameCode_fail {β : Type} (e : StlError) (l : Bytes) : sameCode (devStlFail e l : DevStlM β) (stlFail e l) :=
  fun d t i h => ⟨_, d, t, i, rfl, rfl, h⟩

theorem sameCode_line : sameCode devStlLine stlLine := by
  intro d t i h
  unfold devStlLine stlLine
  rcases sees_fetch h with ⟨h1, d', h2, h3⟩ | ⟨l, rest, d', h1, h2, h3⟩
  · rw [h1, h2]; exact ⟨_, _, _, _, rfl, rfl, h3⟩
  · rw [h1, h2]; exact ⟨_, _, _, _, rfl, rfl, h3⟩

theorem sameCode_vertex (T : FloatText F64) : sameCode (devStlVertexLine T) (stlVertexLine T) := by
  refine sameCode_bind sameCode_line fun l => ?_
  rcases readStlVertex T l with _ | p
  · exact sameCode_fail _ _
  · exact sameCode_pure p

theorem sameCode_keyword (k : Bytes) (e : StlError) : sameCode (devStlKeywordLine k e) (stlKeywordLine k e) := by
  refine sameCode_bind sameCode_line fun l => ?_
  simp only
  by_cases h : startsWith (trimStart l) k = true
  · rw [if_pos h, if_pos h]; exact sameCode_pure ()
  · rw [if_neg h, if_neg h]; exact sameCode_fail _ _

theorem sameCode_facet (T : FloatText F64) : sameCode (devStlFacet T) (readStlFacet T) := by
  refine sameCode_bind ?_ fun n => sameCode_bind (sameCode_keyword _ _) fun _ => sameCode_bind (sameCode_vertex T) fun a =>
    sameCode_bind (sameCode_vertex T) fun b => sameCode_bind (sameCode_vertex T) fun c => sameCode_bind (sameCode_keyword _ _) fun _ =>
    sameCode_bind (sameCode_keyword _ _) fun _ => sameCode_pure _
  refine sameCode_bind sameCode_line fun l => ?_
  simp only
  by_cases h : startsWith (trimStart l) b!"endsolid" = true
  · rw [if_pos h, if_pos h]; exact sameCode_fail _ _
  · rw [if_neg h, if_neg h]
    by_cases h : (!startsWith (trimStart l) b!"facet") = true
    · rw [if_pos h, if_pos h]; exact sameCode_fail _ _
    · rw [if_neg h, if_neg h]; exact sameCode_pure _

/-- the iterators over a reader and over the bytes seen of it are at the same place, unless they are done -/
def sameAscii (s : DevStlAscii) (t : StlAsciiIter) : Prop :=
  s.isDone = t.isDone ∧ (s.isDone = false → s.headerRead = t.headerRead ∧ s.iLine = t.iLine ∧ sees s.read t.read ∧
    (s.headerRead = false → s.read.fails = false ∨ (10 : UInt8) ∈ s.read.content))

theorem sameAscii_next (T : FloatText F64) (s : DevStlAscii) (t : StlAsciiIter) (h : sameAscii s t) :
    ∃ o s' t', devStlAsciiNext T s = (o, s') ∧ stlAsciiNext T t = some (o, t') ∧ sameAscii s' t' := by
  obtain ⟨hdone, h⟩ := h
  unfold devStlAsciiNext stlAsciiNext
  rw [← hdone]
  by_cases hd : s.isDone = true
  · rw [if_pos hd, if_pos hd]
    exact ⟨_, _, _, rfl, rfl, hdone, fun h => by rw [hd] at h; cases h⟩
  · rw [if_neg hd, if_neg hd]
    have hd' : s.isDone = false := by simpa using hd
    obtain ⟨h1, h2, h3, h4⟩ := h hd'
    have key : ∀ d t i, sees d t → ∃ o s' t', devStlAsciiFacet T d i = (o, s') ∧ (match readStlFacet T (t, i) with
        | (.ok f, (read, i)) => some (some (.ok (.data f)), (⟨read, false, true, i⟩ : StlAsciiIter))
        | (.error e, (read, i)) =>
          if e.err = .LoadFileEndReached then some (none, ⟨read, true, true, i⟩)
          else some (some (.error e), ⟨read, true, true, i⟩)) = some (o, t') ∧ sameAscii s' t' := by
      intro d t i hs
      obtain ⟨o, d', t', j, e1, e2, e3⟩ := sameCode_facet T d t i hs
      unfold devStlAsciiFacet
      rw [e1, e2]
      rcases o with e | f
      · simp only
        by_cases he : e.err = .LoadFileEndReached
        · rw [if_pos he, if_pos he]
          exact ⟨_, _, _, rfl, rfl, rfl, fun h => by cases h⟩
        · rw [if_neg he, if_neg he]
          exact ⟨_, _, _, rfl, rfl, rfl, fun h => by cases h⟩
      · exact ⟨_, _, _, rfl, rfl, rfl, fun _ => ⟨rfl, rfl, e3, fun h => by cases h⟩⟩
    rw [← h1, ← h2]
    by_cases hh : s.headerRead = true
    · rw [if_pos hh, if_pos hh]
      exact key _ _ _ h3
    · rw [if_neg hh, if_neg hh]
      obtain ⟨ps, e1, e2⟩ := sees_until h3 (h4 (by simpa using hh))
      rw [e1]
      exact key _ _ _ e2

/-! ### both -/

/-- iterators at the same place -/
def sameStl : DevStl → StlIter → Prop
  | .Binary s, .Binary t => sameBinary s t
  | .Ascii s, .Ascii t => sameAscii s t
  | _, _ => False

theorem sameStl_next (T : FloatText F64) : ∀ (s : DevStl) (t : StlIter), sameStl s t →
    (devStlNext T s = none ∧ stlNext T t = none) ∨ ∃ o s' t', devStlNext T s = some (o, s') ∧ stlNext T t = some (o, t') ∧ sameStl s' t'
  | .Binary s, .Binary t, h => by
    unfold devStlNext stlNext
    rcases sameBinary_next s t h with ⟨h1, h2⟩ | ⟨o, s', t', h1, h2, h3⟩
    · exact .inl ⟨by simp [h1], by simp [h2]⟩
    · exact .inr ⟨o, .Binary s', .Binary t', by simp [h1], by simp [h2], h3⟩
  | .Ascii s, .Ascii t, h => by
    unfold devStlNext stlNext
    obtain ⟨o, s', t', h1, h2, h3⟩ := sameAscii_next T s t h
    exact .inr ⟨o, .Ascii s', .Ascii t', by simp [h1], by simp [h2], h3⟩
  | .Binary _, .Ascii _, h => h.elim
  | .Ascii _, .Binary _, h => h.elim

/-- a loop that has come to an end for the bytes seen comes to the same end for the reader -/
theorem stlForEach_sim {μ : Type} (T : FloatText F64) (push : μ → StlItem StlPoint → μ) (d : Device) (format : StlFormat) (m : μ) (read : Bytes)
    (hle : read.length ≤ d.content.length) (hnew : (∃ e, devStlNew d format = .error e ∧ stlNew read format = .error e) ∨
      ∃ s t, devStlNew d format = .ok s ∧ stlNew read format = .ok t ∧ sameStl s t) {x} (hx : stlForEach T push read format m = some x) :
    d.stlForEach T push format m = some x := by
  unfold Device.stlForEach
  unfold stlForEach at hx
  rcases hnew with ⟨e, h1, h2⟩ | ⟨s, t, h1, h2, h3⟩
  · rw [h1]; rw [h2] at hx; exact hx
  · rw [h1]; rw [h2] at hx
    simp only at hx ⊢
    rw [forEach_sim sameStl (sameStl_next T) _ s t m h3]
    obtain ⟨k, hk⟩ := Nat.exists_eq_add_of_le hle
    rw [hk, Nat.add_right_comm]
    exact forEach_fuel k _ _ _ _ hx

theorem stlForEach_some {μ : Type} (T : FloatText F64) {push : μ → StlItem StlPoint → μ} (hpush : ∀ m n, push m (.reserve n) = m) (s : Bytes) (format : StlFormat)
    (m : μ) : ∃ x, stlForEach T push s format m = some x := by
  obtain ⟨fs, r, h⟩ := stlFile_exists T s format
  exact ⟨_, stlForEach_eq hpush h m⟩

theorem devNew_binary (d : Device) (hd : Proper d) (format : StlFormat) (ht : ¬takenForText format d.content) :
    (∃ e, devStlNew d format = .error e ∧ stlNew d.content format = .error e) ∨
      ∃ s t, devStlNew d format = .ok s ∧ stlNew d.content format = .ok t ∧ sameStl s t := by
  unfold devStlNew stlNew
  rcases readExact_cases d hd 5 with ⟨e1, d', e2⟩ | ⟨b, d', e1, e2, e3, -⟩
  · rw [e1, e2]; exact .inl ⟨_, rfl, rfl⟩
  · rw [e1, e2]
    have hb : b = d.content.take 5 := by
      unfold readExact at e1
      split_ifs at e1
      simp only [Option.some.injEq, Prod.mk.injEq] at e1
      exact e1.1.symm
    refine .inr ⟨.Binary ⟨d', false, false, 0, 0⟩, .Binary ⟨d'.content, false, false, 0, 0⟩, ?_, ?_, rfl, fun _ => ⟨rfl, rfl, rfl, e3, rfl⟩⟩ <;>
    · unfold takenForText at ht
      cases format
      · exact absurd (.inl rfl) ht
      · rfl
      · have : (b == b!"solid") = false := by
          rw [beq_eq_false_iff_ne, hb]
          exact fun h => ht (.inr ⟨rfl, h⟩)
        simp [this]

theorem devNew_ascii (d : Device) (hd : Proper d) (format : StlFormat) (ht : takenForText format d.content)
    (hn : d.fails = false ∨ (10 : UInt8) ∈ d.content.drop 5) :
    (∃ e, devStlNew d format = .error e ∧ stlNew (seenSolid d) format = .error e) ∨
      ∃ s t, devStlNew d format = .ok s ∧ stlNew (seenSolid d) format = .ok t ∧ sameStl s t := by
  unfold devStlNew stlNew
  rcases readExact_cases d hd 5 with ⟨e1, d', e2⟩ | ⟨b, d', e1, e2, e3, e4⟩
  · have hs : readExact 5 (seenSolid d) = none := by
      unfold readExact at e1 ⊢
      split_ifs at e1 with hl
      rw [if_neg]
      unfold seenSolid
      split_ifs
      · have hz : d.content.drop 5 = [] := List.drop_of_length_le (by omega)
        rw [hz, List.length_append, List.length_take]
        simp [wholeLines]
        omega
      · exact hl
    rw [hs, e2]; exact .inl ⟨_, rfl, rfl⟩
  · have hb : 5 ≤ d.content.length ∧ b = d.content.take 5 ∧ d'.content = d.content.drop 5 := by
      unfold readExact at e1
      split_ifs at e1 with hl
      simp only [Option.some.injEq, Prod.mk.injEq] at e1
      exact ⟨hl, e1.1.symm, e1.2.symm⟩
    have hs : readExact 5 (seenSolid d) = some (b, seen d') := by
      unfold readExact seenSolid seen
      rw [e4, hb.2.2, hb.2.1]
      by_cases hf : d.fails = true
      · have hl : (d.content.take 5).length = 5 := by rw [List.length_take]; omega
        rw [if_pos hf, if_pos hf, if_pos (by rw [List.length_append]; omega), List.take_left' hl, List.drop_left' hl]
      · rw [if_neg hf, if_neg hf, if_pos hb.1]
    rw [hs, e2]
    refine .inr ⟨.Ascii ⟨d', false, false, 0⟩, .Ascii ⟨seen d', false, false, 0⟩, ?_, ?_, rfl,
      fun _ => ⟨rfl, rfl, ⟨e3, rfl⟩, fun _ => by rw [e4, hb.2.2]; exact hn⟩⟩ <;>
    · rcases ht with rfl | ⟨rfl, h⟩
      · rfl
      · have : (b == b!"solid") = true := by rw [beq_iff_eq, hb.2.1]; exact h
        simp [this]

theorem wholeLines_length (s : Bytes) : (wholeLines s).length ≤ s.length := by
  obtain ⟨rest, h, -⟩ := wholeLines_spec s
  conv_rhs => rw [h]
  simp

theorem seenSolid_length (d : Device) : (seenSolid d).length ≤ d.content.length := by
  unfold seenSolid
  split_ifs
  · have := wholeLines_length (d.content.drop 5)
    rw [List.length_drop] at this
    rw [List.length_append, List.length_take]
    omega
  · exact le_rfl

/-- **C128** for binary .stl files: the loaders return what they return for the bytes handed over, however these are portioned and interrupted, and whether the
reader then ends or fails: that the rest is missing is reported in the same way in both cases -/
theorem c128_stl_binary (same : StlPoint → StlPoint → Bool) (T : FloatText F64) (d : Device) (hd : Proper d) (format : StlFormat)
    (ht : ¬takenForText format d.content) (m : TMesh StlPoint) (ip normals : List StlPoint) :
    d.loadStlMeshDuped T format m normals = loadStlMeshDuped T d.content format m normals ∧
    d.loadStlMeshUnique same T format m normals = loadStlMeshUnique same T d.content format m normals ∧
    d.loadStlTriplets T format ip normals = loadStlTriplets T d.content format ip normals := by
  have hnew := devNew_binary d hd format ht
  refine ⟨?_, ?_, ?_⟩
  · obtain ⟨x, hx⟩ := stlForEach_some T (push := stlPushDuped) (fun _ _ => rfl) d.content format (m, normals)
    exact (stlForEach_sim T _ d format _ _ le_rfl hnew hx).trans hx.symm
  · obtain ⟨x, hx⟩ := stlForEach_some T (push := stlPushUnique same) (fun _ _ => rfl) d.content format ⟨m, [], normals⟩
    unfold Device.loadStlMeshUnique loadStlMeshUnique
    rw [stlForEach_sim T _ d format _ _ le_rfl hnew hx, hx]
  · obtain ⟨x, hx⟩ := stlForEach_some T (push := stlPushTriplets) (fun _ _ => rfl) d.content format (ip, normals)
    exact (stlForEach_sim T _ d format _ _ le_rfl hnew hx).trans hx.symm

/-- **C128** for .stl files in ASCII: the loaders return what they return for the data, of a reader that fails for the lines handed over completely -/
theorem c128_stl_ascii (same : StlPoint → StlPoint → Bool) (T : FloatText F64) (d : Device) (hd : Proper d) (format : StlFormat)
    (ht : takenForText format d.content) (hn : d.fails = false ∨ (10 : UInt8) ∈ d.content.drop 5) (m : TMesh StlPoint) (ip normals : List StlPoint) :
    d.loadStlMeshDuped T format m normals = loadStlMeshDuped T (seenSolid d) format m normals ∧
    d.loadStlMeshUnique same T format m normals = loadStlMeshUnique same T (seenSolid d) format m normals ∧
    d.loadStlTriplets T format ip normals = loadStlTriplets T (seenSolid d) format ip normals := by
  have hnew := devNew_ascii d hd format ht hn
  have hle := seenSolid_length d
  refine ⟨?_, ?_, ?_⟩
  · obtain ⟨x, hx⟩ := stlForEach_some T (push := stlPushDuped) (fun _ _ => rfl) (seenSolid d) format (m, normals)
    exact (stlForEach_sim T _ d format _ _ hle hnew hx).trans hx.symm
  · obtain ⟨x, hx⟩ := stlForEach_some T (push := stlPushUnique same) (fun _ _ => rfl) (seenSolid d) format ⟨m, [], normals⟩
    unfold Device.loadStlMeshUnique loadStlMeshUnique
    rw [stlForEach_sim T _ d format _ _ hle hnew hx, hx]
  · obtain ⟨x, hx⟩ := stlForEach_some T (push := stlPushTriplets) (fun _ _ => rfl) (seenSolid d) format (ip, normals)
    exact (stlForEach_sim T _ d format _ _ hle hnew hx).trans hx.symm

/-- **C128** only a failure within the first line of an .stl file in ASCII is reported -/
theorem c128_stl_header (T : FloatText F64) (d : Device) (hd : Proper d) (format : StlFormat) (ht : takenForText format d.content)
    (hl : 5 ≤ d.content.length) (hf : d.fails = true) (hn : (10 : UInt8) ∉ d.content.drop 5) (m : TMesh StlPoint) (normals : List StlPoint) :
    d.loadStlMeshDuped T format m normals = some ((m, normals), .error (.index 0 .AccessFile)) := by
  unfold Device.loadStlMeshDuped Device.stlForEach devStlNew
  rcases readExact_cases d hd 5 with ⟨e1, d', e2⟩ | ⟨b, d', e1, e2, e3, e4⟩
  · unfold readExact at e1
    rw [if_pos hl] at e1
    cases e1
  · rw [e2]
    have hb : b = d.content.take 5 ∧ d'.content = d.content.drop 5 := by
      unfold readExact at e1
      rw [if_pos hl] at e1
      simp only [Option.some.injEq, Prod.mk.injEq] at e1
      exact ⟨e1.1.symm, e1.2.symm⟩
    have hu := (devUntil_spec d'.fails d'.portions e3).1 (by rw [e4, hf]) (by rw [← content_eq, hb.2]; exact hn)
    have key : forEach (devStlNext T) (fun m x => (stlPushDuped m x, .ok ())) (d.content.length + 3) (.Ascii ⟨d', false, false, 0⟩) (m, normals) =
        some ((m, normals), .error (.index 0 .AccessFile)) := by
      rw [forEach]
      unfold devStlNext devStlAsciiNext
      rcases hv : devUntil d'.fails d'.portions with ⟨_ | _, ps⟩
      · simp [hv]
      · rw [hv] at hu; cases hu
    rcases ht with rfl | ⟨rfl, h⟩
    · exact key
    · have : (b == b!"solid") = true := by rw [beq_iff_eq, hb.1]; exact h
      simp only [this, if_true]
      exact key

/-- **C128 violated** for .stl files in ASCII: a reader that fails behind a line break, or anywhere in the line that follows, is taken for a file that ends there -/
theorem c128_violated_stl (T : FloatText F64) (start file rest : Bytes) (hs : start.length = 5) (hr : (10 : UInt8) ∉ rest) (hfile : ∃ t, file = t ++ [10]) (d : Device)
    (hd : Proper d) (hc : d.content = start ++ file ++ rest) (hf : d.fails = true) (format : StlFormat) (ht : takenForText format d.content)
    (m : TMesh StlPoint) (normals : List StlPoint) :
    d.loadStlMeshDuped T format m normals = loadStlMeshDuped T (start ++ file) format m normals := by
  have hdrop : d.content.drop 5 = file ++ rest := by rw [hc, List.append_assoc, List.drop_left' hs]
  have htake : d.content.take 5 = start := by rw [hc, List.append_assoc, List.take_left' hs]
  have e : seenSolid d = start ++ file := by
    unfold seenSolid
    rw [if_pos hf, hdrop, htake, wholeLines_unique hr (.inr hfile)]
  rw [← e]
  refine (c128_stl_ascii (fun _ _ => false) T d hd format ht (.inr ?_) m [] normals).1
  rw [hdrop]
  obtain ⟨t, rfl⟩ := hfile
  simp

/-- one and a half facets in odd portions, then the reader fails: one triangle, no error -/
example : let d : Device := ⟨[.data b!"sol", .interrupted, .data b!"id\nfacet normal 0 0 1\nouter loop\nvertex 1 0 0\nvertex 0 1", .data b!" 0\nvertex 0 0 1\nendloop\nendfacet\nfacet\nou"], true⟩
    Proper d ∧ takenForText .Auto d.content ∧ (10 : UInt8) ∈ d.content.drop 5 ∧ ∃ m ns, d.loadStlMeshDuped natF64 .Auto ⟨[], []⟩ [] = some ((m, ns), .ok ()) ∧ m.faces = [⟨0, 1, 2⟩] := by
  refine ⟨by unfold Proper; decide, .inr ⟨rfl, by decide⟩, by decide, _, _, rfl, by decide +kernel⟩

/-- a binary file that breaks off is reported -/
example : let d : Device := ⟨[.data b!"abcdefg"], true⟩
    Proper d ∧ ¬takenForText .Auto d.content ∧ d.loadStlMeshDuped natF64 .Auto ⟨[], []⟩ [] = some ((⟨[], []⟩, []), .error (.none .AccessFile)) := by
  refine ⟨by unfold Proper; decide, ?_, by decide +kernel⟩
  rintro (h | ⟨-, h⟩)
  · cases h
  · exact absurd h (by decide)

end R3D

import Verif.Model.Stl
import Verif.Props.Ptx
import Verif.Props.ByteCodec
/-!
C64, C65: ASCII .stl files.
-/
namespace R3D
open Spec

/-! ### what a loop over an iterator does -/

section
variable {σ ε ι μ : Type}

/-- the iterator in state `s` gives the items `xs` and then ends, with `r` -/
inductive Spec.Yields (next : σ → Panics (Option (Except ε ι) × σ)) : σ → List ι → Except ε Unit → Prop
  | done {s s' : σ} (h : next s = some (none, s')) : Yields next s [] (.ok ())
  | error {s s' : σ} {e : ε} (h : next s = some (some (.error e), s')) : Yields next s [] (.error e)
  | item {s s' : σ} {x : ι} {xs : List ι} {r : Except ε Unit} (h : next s = some (some (.ok x), s'))
      (hs : Yields next s' xs r) : Yields next s (x :: xs) r

theorem forEach_yields {next : σ → Panics (Option (Except ε ι) × σ)} {s : σ} {xs : List ι} {r : Except ε Unit}
    (h : Yields next s xs r) (push : μ → ι → μ) (fuel : Nat) (hf : xs.length < fuel) (m : μ) :
    forEach next (fun m x => (push m x, .ok ())) fuel s m = some (xs.foldl push m, r) := by
  induction h generalizing fuel m with
  | done h => obtain ⟨n, rfl⟩ : ∃ n, fuel = n + 1 := ⟨fuel - 1, by omega⟩; simp only [forEach, h]; rfl
  | error h => obtain ⟨n, rfl⟩ : ∃ n, fuel = n + 1 := ⟨fuel - 1, by omega⟩; simp only [forEach, h]; rfl
  | item h hs ih =>
    obtain ⟨n, rfl⟩ : ∃ n, fuel = n + 1 := ⟨fuel - 1, by omega⟩
    simp only [forEach, h]
    exact ih n (by simpa using hf) _

end

/-! ### specification -/

/-- `t` is the line without the blanks in front -/
def Spec.Unindent (l t : Bytes) : Prop :=
  ∃ b, l = b ++ t ∧ (∀ x ∈ b, x ∈ b!" \t") ∧ ∀ x ∈ t.head?, x ∉ b!" \t"

/-- the line starts with the keyword, after blanks -/
def Spec.Keyword (kw l : Bytes) : Prop := ∃ r, Unindent l (kw ++ r)

/-- three numbers, after `skip` other words -/
def Spec.NumbersAfter (T : FloatText F64) (skip : Nat) (line : Bytes) (p : StlPoint) : Prop :=
  ∃ pre wx wy wz ws, pre.length = skip ∧ WordsOf blank line (pre ++ wx :: wy :: wz :: ws) ∧
    fromAscii T.parse wx = some p.x ∧ fromAscii T.parse wy = some p.y ∧ fromAscii T.parse wz = some p.z

/-- `vertex x y z` -/
def Spec.StlVertex (T : FloatText F64) (line : Bytes) (p : StlPoint) : Prop := NumbersAfter T 1 line p

/-- `facet normal x y z`, and z up if the numbers are missing -/
def Spec.StlNormal (T : FloatText F64) (line : Bytes) (n : StlPoint) : Prop :=
  ∃ t, Unindent line t ∧
    (NumbersAfter T 2 t n ∨ ((¬∃ p, NumbersAfter T 2 t p) ∧ n = ⟨.fin false 0, .fin false 0, .fin false 1⟩))

/-- what is demanded of the `k`-th line of a facet -/
def Spec.StlPart (T : FloatText F64) : Nat → Bytes → Prop
  | 0, l => Keyword b!"facet" l
  | 1, l => Keyword b!"outer loop" l
  | 5, l => Keyword b!"endloop" l
  | 6, l => Keyword b!"endfacet" l
  | _, l => ∃ p, StlVertex T l p

/-- the error if the `k`-th line of a facet is wrong, and whether it shows the line without its indentation -/
def Spec.stlPartError : Nat → StlError × Bool
  | 0 => (.Facet, true)
  | 1 => (.Loop, true)
  | 5 => (.EndLoop, true)
  | 6 => (.EndFacet, true)
  | _ => (.Vertex, false)

/-- the seven lines of the facet `f` -/
def Spec.StlFacet (T : FloatText F64) (ls : List Bytes) (f : StlFace StlPoint) : Prop :=
  ls.length = 7 ∧ (∀ k l, ls[k]? = some l → StlPart T k l) ∧
  (∀ l, ls[0]? = some l → StlNormal T l f.n) ∧ (∀ l, ls[2]? = some l → StlVertex T l f.a) ∧
  (∀ l, ls[3]? = some l → StlVertex T l f.b) ∧ (∀ l, ls[4]? = some l → StlVertex T l f.c)

/-- What the lines `ls` below the `i`-th mean: the facets loaded from them and how loading ends. `cut` is what is wrong
with it (C65): the end of the file inside of a facet is not reported. -/
inductive Spec.StlText (T : FloatText F64) : Nat → List Bytes → List (StlFace StlPoint) → Except (LineInfo StlError) Unit → Prop
  | endsolid {i : Nat} {l : Bytes} {ls : List Bytes} (h : Keyword b!"endsolid" l) : StlText T i (l :: ls) [] (.ok ())
  | facet {i : Nat} {ls ls' : List Bytes} {f : StlFace StlPoint} {fs : List (StlFace StlPoint)}
      {r : Except (LineInfo StlError) Unit} (h : StlFacet T ls f) (ht : StlText T (i + 7) ls' fs r) :
      StlText T i (ls ++ ls') (f :: fs) r
  | cut {i : Nat} {ls : List Bytes} (h : ls.length < 7) (hp : ∀ k l, ls[k]? = some l → StlPart T k l) :
      StlText T i ls [] (.ok ())
  | bad {i k : Nat} {pre post : List Bytes} {l t : Bytes} (hk : pre.length = k) (h7 : k < 7)
      (hp : ∀ j l, pre[j]? = some l → StlPart T j l)
      (hl : ¬StlPart T k l) (h0 : k = 0 → ¬Keyword b!"endsolid" l) (ht : if (stlPartError k).2 then Unindent l t else t = l) :
      StlText T i (pre ++ l :: post) [] (.error (.line (i + k + 1) t (stlPartError k).1))

/-! ### single lines -/

theorem lines_nil {s : Bytes} (h : lines s = []) : fetchLine s = none := by
  rcases hf : fetchLine s with _ | ⟨l, r⟩
  · rfl
  · rw [(lines_fetchLine s).1 l r hf] at h
    cases h

theorem lines_cons {s l : Bytes} {ls : List Bytes} (h : lines s = l :: ls) : ∃ r, fetchLine s = some (l, r) ∧ lines r = ls := by
  rcases hf : fetchLine s with _ | ⟨l', r⟩
  · rw [(lines_fetchLine s).2 hf] at h
    cases h
  · rw [(lines_fetchLine s).1 l' r hf] at h
    cases h
    exact ⟨r, rfl, rfl⟩

theorem unindent_iff {l t : Bytes} : Unindent l t ↔ trimStart l = t := by
  rw [c72_trim_start]
  rfl

theorem keyword_iff {kw l : Bytes} : Keyword kw l ↔ startsWith (trimStart l) kw = true := by
  rw [startsWith_iff]
  constructor
  · rintro ⟨r, h⟩; exact ⟨r, unindent_iff.1 h⟩
  · rintro ⟨r, h⟩; exact ⟨r, unindent_iff.2 h⟩

theorem stlNumbers_iff {T : FloatText F64} {line : Bytes} {k : Nat} {p : StlPoint} :
    stlNumbers T (toWords line) k = some p ↔ NumbersAfter T k line p := by
  obtain ⟨ws, hw⟩ := wordsOf_exists blank line
  rw [toWords_iff.2 hw]
  constructor
  · intro h
    simp only [stlNumbers, Option.bind_eq_bind, Option.bind_eq_some_iff, nthNum] at h
    obtain ⟨x, ⟨wx, h1, h1'⟩, y, ⟨wy, h2, h2'⟩, z, ⟨wz, h3, h3'⟩, he⟩ := h
    simp only [Option.pure_def, Option.some.injEq] at he
    subst he
    obtain ⟨l1, e1⟩ := List.getElem?_eq_some_iff.1 h1
    obtain ⟨l2, e2⟩ := List.getElem?_eq_some_iff.1 h2
    obtain ⟨l3, e3⟩ := List.getElem?_eq_some_iff.1 h3
    refine ⟨ws.take k, wx, wy, wz, ws.drop (k + 3), by simp; omega, ?_, h1', h2', h3'⟩
    have : ws = ws.take k ++ wx :: wy :: wz :: ws.drop (k + 3) := by
      conv_lhs => rw [← List.take_append_drop k ws, List.drop_eq_getElem_cons l1, List.drop_eq_getElem_cons l2, List.drop_eq_getElem_cons l3]
      rw [e1, e2, e3]
    rw [← this]
    exact hw
  · rintro ⟨pre, wx, wy, wz, ws', hk, hw', h1, h2, h3⟩
    rw [wordsOf_unique hw hw']
    subst hk
    simp [stlNumbers, nthNum, h1, h2, h3, List.getElem?_append_right]

theorem stlVertex_iff {T : FloatText F64} {line : Bytes} {p : StlPoint} : readStlVertex T line = some p ↔ StlVertex T line p :=
  stlNumbers_iff

theorem stlNormal_iff {T : FloatText F64} {line : Bytes} {n : StlPoint} :
    (readStlNormal T (trimStart line)).getD ⟨.fin false 0, .fin false 0, .fin false 1⟩ = n ↔ StlNormal T line n := by
  have hu : ∀ t, Unindent line t ↔ trimStart line = t := fun t => unindent_iff
  simp only [StlNormal, hu, exists_eq_left', readStlNormal]
  rcases h : stlNumbers T (toWords (trimStart line)) 2 with _ | q
  · have : ¬∃ p, NumbersAfter T 2 (trimStart line) p := by
      rintro ⟨p, hp⟩
      rw [stlNumbers_iff.2 hp] at h
      cases h
    simp only [Option.getD_none]
    constructor
    · rintro rfl; exact .inr ⟨this, rfl⟩
    · rintro (h' | ⟨_, rfl⟩)
      · exact absurd ⟨_, h'⟩ this
      · rfl
  · simp only [Option.getD_some]
    have hq := stlNumbers_iff.1 h
    constructor
    · rintro rfl; exact .inl hq
    · rintro (h' | ⟨h', _⟩)
      · rw [stlNumbers_iff.2 h'] at h; cases h; rfl
      · exact absurd ⟨q, hq⟩ h'

theorem stlNormal_exists (T : FloatText F64) (line : Bytes) : ∃ n, StlNormal T line n := ⟨_, stlNormal_iff.1 rfl⟩

/-! ### the steps of reading a facet -/

theorem stlBind_ok {β γ : Type} {x : StlM β} {s s' : Bytes × Nat} {a : β} (h : x s = (.ok a, s')) (f : β → StlM γ) :
    (x >>= f) s = f a s' := by
  simp only [bind, ExceptT.bind, ExceptT.mk, StateT.bind, h, ExceptT.bindCont]

theorem stlBind_error {β γ : Type} {x : StlM β} {s s' : Bytes × Nat} {e : LineInfo StlError} (h : x s = (.error e, s')) (f : β → StlM γ) :
    (x >>= f) s = (.error e, s') := by
  simp only [bind, ExceptT.bind, ExceptT.mk, StateT.bind, h, ExceptT.bindCont]
  rfl

/-- `x` reads one line, which must be `Good`, or may be `Stop` -/
structure StlStep {β : Type} (x : StlM β) (Good : Bytes → β → Prop) (Stop : Bytes → Prop) (e : StlError) (unindent : Bool) : Prop where
  eof : ∀ s i, lines s = [] → x (s, i) = (.error (.index i .LoadFileEndReached), (s, i))
  ok : ∀ s i l ls a, lines s = l :: ls → Good l a → ∃ s', lines s' = ls ∧ x (s, i) = (.ok a, (s', i + 1))
  bad : ∀ s i l ls t, lines s = l :: ls → (¬∃ a, Good l a) → ¬Stop l → (if unindent then Unindent l t else t = l) →
    ∃ s', x (s, i) = (.error (.line (i + 1) t e), (s', i + 1))

theorem stlLine_nil {s : Bytes} (i : Nat) (h : lines s = []) : stlLine (s, i) = (.error (.index i .LoadFileEndReached), (s, i)) := by
  simp only [stlLine, lines_nil h]

theorem stlLine_cons {s l : Bytes} {ls : List Bytes} (i : Nat) (h : lines s = l :: ls) :
    ∃ s', lines s' = ls ∧ stlLine (s, i) = (.ok l, (s', i + 1)) := by
  obtain ⟨r, hr, hl⟩ := lines_cons h
  exact ⟨r, hl, by simp only [stlLine, hr]⟩

theorem step_keyword (kw : Bytes) (e : StlError) : StlStep (stlKeywordLine kw e) (fun l _ => Keyword kw l) (fun _ => False) e true where
  eof s i h := stlBind_error (stlLine_nil i h) _
  ok s i l ls a h hg := by
    obtain ⟨s', hs, hl⟩ := stlLine_cons i h
    refine ⟨s', hs, ?_⟩
    rw [stlKeywordLine, stlBind_ok hl]
    rw [if_pos (keyword_iff.1 hg)]
    rfl
  bad s i l ls t h hg hstop ht := by
    obtain ⟨s', hs, hl⟩ := stlLine_cons i h
    refine ⟨s', ?_⟩
    rw [stlKeywordLine, stlBind_ok hl]
    rw [if_neg (fun hk => hg ⟨(), keyword_iff.2 hk⟩), ← unindent_iff.1 ht]
    rfl

theorem step_vertex (T : FloatText F64) : StlStep (stlVertexLine T) (StlVertex T) (fun _ => False) .Vertex false where
  eof s i h := stlBind_error (stlLine_nil i h) _
  ok s i l ls a h hg := by
    obtain ⟨s', hs, hl⟩ := stlLine_cons i h
    refine ⟨s', hs, ?_⟩
    rw [stlVertexLine, stlBind_ok hl, stlVertex_iff.2 hg]
    rfl
  bad s i l ls t h hg hstop ht := by
    obtain ⟨s', hs, hl⟩ := stlLine_cons i h
    refine ⟨s', ?_⟩
    have hn : readStlVertex T l = none := by
      rcases hv : readStlVertex T l with _ | p
      · rfl
      · exact absurd ⟨p, stlVertex_iff.1 hv⟩ hg
    rw [stlVertexLine, stlBind_ok hl, hn]
    obtain rfl : t = l := ht
    rfl

theorem endsolid_not_facet {l : Bytes} (h : Keyword b!"endsolid" l) : ¬Keyword b!"facet" l := by
  rintro ⟨r, hr⟩
  obtain ⟨r', hr'⟩ := h
  have := (unindent_iff.1 hr).symm.trans (unindent_iff.1 hr')
  simp at this

theorem step_facet (T : FloatText F64) :
    StlStep (stlFacetLine T) (fun l n => Keyword b!"facet" l ∧ StlNormal T l n) (Keyword b!"endsolid") .Facet true where
  eof s i h := stlBind_error (stlLine_nil i h) _
  ok s i l ls a h hg := by
    obtain ⟨s', hs, hl⟩ := stlLine_cons i h
    refine ⟨s', hs, ?_⟩
    rw [stlFacetLine, stlBind_ok hl]
    rw [if_neg (fun hk => endsolid_not_facet (keyword_iff.2 hk) hg.1), if_neg (by simp [keyword_iff.1 hg.1]),
      stlNormal_iff.2 hg.2]
    rfl
  bad s i l ls t h hg hstop ht := by
    obtain ⟨s', hs, hl⟩ := stlLine_cons i h
    have hf : ¬Keyword b!"facet" l := fun hk => hg ⟨_, hk, stlNormal_iff.1 rfl⟩
    refine ⟨s', ?_⟩
    rw [stlFacetLine, stlBind_ok hl]
    rw [if_neg (fun hk => hstop (keyword_iff.2 hk)), if_pos (by simpa using fun hk => hf (keyword_iff.2 hk)), ← unindent_iff.1 ht]
    rfl

section
variable {β γ : Type} {x : StlM β} {Good : Bytes → β → Prop} {Stop : Bytes → Prop} {e : StlError} {u : Bool}

theorem StlStep.bind_ok (hx : StlStep x Good Stop e u) {s : Bytes} (i : Nat) {l : Bytes} {ls : List Bytes} {a : β} (h : lines s = l :: ls)
    (hg : Good l a) (f : β → StlM γ) : ∃ s', lines s' = ls ∧ (x >>= f) (s, i) = f a (s', i + 1) := by
  obtain ⟨s', hs, he⟩ := hx.ok s i l ls a h hg
  exact ⟨s', hs, stlBind_ok he f⟩

theorem StlStep.bind_eof (hx : StlStep x Good Stop e u) {s : Bytes} (i : Nat) (h : lines s = []) (f : β → StlM γ) :
    (x >>= f) (s, i) = (.error (.index i .LoadFileEndReached), (s, i)) := stlBind_error (hx.eof s i h) f

theorem StlStep.bind_bad (hx : StlStep x Good Stop e u) {s : Bytes} (i : Nat) {l t : Bytes} {ls : List Bytes} (h : lines s = l :: ls)
    (hg : ¬∃ a, Good l a) (hs : ¬Stop l) (ht : if u then Unindent l t else t = l) (f : β → StlM γ) :
    ∃ s', (x >>= f) (s, i) = (.error (.line (i + 1) t e), (s', i + 1)) := by
  obtain ⟨s', he⟩ := hx.bad s i l ls t h hg hs ht
  exact ⟨s', stlBind_error he f⟩

end

theorem facet_endsolid (T : FloatText F64) {s l : Bytes} {ls : List Bytes} (i : Nat) (h : lines s = l :: ls) (he : Keyword b!"endsolid" l) :
    ∃ e s', readStlFacet T (s, i) = (.error e, s') ∧ e.err = .LoadFileEndReached := by
  obtain ⟨s', hs, hl⟩ := stlLine_cons i h
  have : stlFacetLine T (s, i) = (.error (.line (i + 1) (trimStart l) .LoadFileEndReached), (s', i + 1)) := by
    rw [stlFacetLine, stlBind_ok hl, if_pos (keyword_iff.1 he)]
    rfl
  exact ⟨_, _, stlBind_error this _, rfl⟩

/-- the lines of a facet, one after the other -/
theorem facet_lines {T : FloatText F64} {ls : List Bytes} {f : StlFace StlPoint} (h : StlFacet T ls f) :
    ∃ l0 l1 l2 l3 l4 l5 l6, ls = [l0, l1, l2, l3, l4, l5, l6] ∧ (Keyword b!"facet" l0 ∧ StlNormal T l0 f.n) ∧ Keyword b!"outer loop" l1 ∧
      StlVertex T l2 f.a ∧ StlVertex T l3 f.b ∧ StlVertex T l4 f.c ∧ Keyword b!"endloop" l5 ∧ Keyword b!"endfacet" l6 := by
  obtain ⟨hn, hp, h0, h2, h3, h4⟩ := h
  match ls, hn with
  | [l0, l1, l2, l3, l4, l5, l6], _ =>
    exact ⟨l0, l1, l2, l3, l4, l5, l6, rfl, ⟨hp 0 l0 rfl, h0 l0 rfl⟩, hp 1 l1 rfl, h2 l2 rfl, h3 l3 rfl, h4 l4 rfl, hp 5 l5 rfl, hp 6 l6 rfl⟩

theorem facet_ok {T : FloatText F64} {s : Bytes} {ls ls' : List Bytes} {f : StlFace StlPoint} (i : Nat) (h : StlFacet T ls f)
    (hs : lines s = ls ++ ls') : ∃ s', lines s' = ls' ∧ readStlFacet T (s, i) = (.ok f, (s', i + 7)) := by
  obtain ⟨l0, l1, l2, l3, l4, l5, l6, rfl, h0, h1, h2, h3, h4, h5, h6⟩ := facet_lines h
  rw [readStlFacet]
  obtain ⟨s0, hs0, e⟩ := (step_facet T).bind_ok i hs h0 _
  rw [e]; clear e
  obtain ⟨s1, hs1, e⟩ := (step_keyword _ _).bind_ok (i + 1) (a := ()) hs0 h1 _
  rw [e]; clear e
  obtain ⟨s2, hs2, e⟩ := (step_vertex T).bind_ok (i + 2) hs1 h2 _
  rw [e]; clear e
  obtain ⟨s3, hs3, e⟩ := (step_vertex T).bind_ok (i + 3) hs2 h3 _
  rw [e]; clear e
  obtain ⟨s4, hs4, e⟩ := (step_vertex T).bind_ok (i + 4) hs3 h4 _
  rw [e]; clear e
  obtain ⟨s5, hs5, e⟩ := (step_keyword _ _).bind_ok (i + 5) (a := ()) hs4 h5 _
  rw [e]; clear e
  obtain ⟨s6, hs6, e⟩ := (step_keyword _ _).bind_ok (i + 6) (a := ()) hs5 h6 _
  rw [e]; clear e
  exact ⟨s6, hs6, rfl⟩

theorem facet_cut {T : FloatText F64} {s : Bytes} (i : Nat) (hlen : (lines s).length < 7)
    (hp : ∀ k l, (lines s)[k]? = some l → StlPart T k l) :
    ∃ e s', readStlFacet T (s, i) = (.error e, s') ∧ e.err = .LoadFileEndReached := by
  have hne : ∀ l, ∃ n, StlNormal T l n := fun l => ⟨_, stlNormal_iff.1 rfl⟩
  rw [readStlFacet]
  rcases hs : lines s with _ | ⟨l0, ls⟩
  · rw [(step_facet T).bind_eof i hs]; exact ⟨_, _, rfl, rfl⟩
  rw [hs] at hlen hp
  obtain ⟨n, hn⟩ := hne l0
  obtain ⟨s0, hs0, e⟩ := (step_facet T).bind_ok i hs ⟨hp 0 l0 rfl, hn⟩ _
  rw [e]; clear e
  rcases ls with _ | ⟨l1, ls⟩
  · rw [(step_keyword _ _).bind_eof _ hs0]; exact ⟨_, _, rfl, rfl⟩
  obtain ⟨s1, hs1, e⟩ := (step_keyword _ _).bind_ok (i + 1) (a := ()) hs0 (hp 1 l1 rfl) _
  rw [e]; clear e
  rcases ls with _ | ⟨l2, ls⟩
  · rw [(step_vertex T).bind_eof _ hs1]; exact ⟨_, _, rfl, rfl⟩
  obtain ⟨p, h2⟩ := hp 2 l2 rfl
  obtain ⟨s2, hs2, e⟩ := (step_vertex T).bind_ok (i + 2) hs1 h2 _
  rw [e]; clear e
  rcases ls with _ | ⟨l3, ls⟩
  · rw [(step_vertex T).bind_eof _ hs2]; exact ⟨_, _, rfl, rfl⟩
  obtain ⟨p3, h3⟩ := hp 3 l3 rfl
  obtain ⟨s3, hs3, e⟩ := (step_vertex T).bind_ok (i + 3) hs2 h3 _
  rw [e]; clear e
  rcases ls with _ | ⟨l4, ls⟩
  · rw [(step_vertex T).bind_eof _ hs3]; exact ⟨_, _, rfl, rfl⟩
  obtain ⟨p4, h4⟩ := hp 4 l4 rfl
  obtain ⟨s4, hs4, e⟩ := (step_vertex T).bind_ok (i + 4) hs3 h4 _
  rw [e]; clear e
  rcases ls with _ | ⟨l5, ls⟩
  · rw [(step_keyword _ _).bind_eof _ hs4]; exact ⟨_, _, rfl, rfl⟩
  obtain ⟨s5, hs5, e⟩ := (step_keyword _ _).bind_ok (i + 5) (a := ()) hs4 (hp 5 l5 rfl) _
  rw [e]; clear e
  rcases ls with _ | ⟨l6, ls⟩
  · rw [(step_keyword _ _).bind_eof _ hs5]; exact ⟨_, _, rfl, rfl⟩
  simp at hlen
  omega

theorem facet_bad {T : FloatText F64} {s : Bytes} {pre post : List Bytes} {l t : Bytes} (i : Nat) (hs : lines s = pre ++ l :: post)
    (h7 : pre.length < 7) (hp : ∀ j l, pre[j]? = some l → StlPart T j l) (hl : ¬StlPart T pre.length l)
    (h0 : pre.length = 0 → ¬Keyword b!"endsolid" l) (ht : if (stlPartError pre.length).2 then Unindent l t else t = l) :
    ∃ s', readStlFacet T (s, i) = (.error (.line (i + pre.length + 1) t (stlPartError pre.length).1), s') := by
  have hne : ∀ l, ∃ n, StlNormal T l n := fun l => ⟨_, stlNormal_iff.1 rfl⟩
  rw [readStlFacet]
  rcases pre with _ | ⟨l0, pre⟩
  · obtain ⟨s', e⟩ := (step_facet T).bind_bad i hs (fun ⟨_, h, _⟩ => hl h) (h0 rfl) ht _
    exact ⟨_, e⟩
  obtain ⟨n, hn⟩ := hne l0
  obtain ⟨s0, hs0, e⟩ := (step_facet T).bind_ok i hs ⟨hp 0 l0 rfl, hn⟩ _
  rw [e]; clear e
  rcases pre with _ | ⟨l1, pre⟩
  · obtain ⟨s', e⟩ := (step_keyword _ .Loop).bind_bad (i + 1) hs0 (fun ⟨_, h⟩ => hl h) id ht _
    exact ⟨_, e⟩
  obtain ⟨s1, hs1, e⟩ := (step_keyword _ _).bind_ok (i + 1) (a := ()) hs0 (hp 1 l1 rfl) _
  rw [e]; clear e
  rcases pre with _ | ⟨l2, pre⟩
  · obtain ⟨s', e⟩ := (step_vertex T).bind_bad (i + 2) hs1 hl id ht _
    exact ⟨_, e⟩
  obtain ⟨p, h2⟩ := hp 2 l2 rfl
  obtain ⟨s2, hs2, e⟩ := (step_vertex T).bind_ok (i + 2) hs1 h2 _
  rw [e]; clear e
  rcases pre with _ | ⟨l3, pre⟩
  · obtain ⟨s', e⟩ := (step_vertex T).bind_bad (i + 3) hs2 hl id ht _
    exact ⟨_, e⟩
  obtain ⟨p3, h3⟩ := hp 3 l3 rfl
  obtain ⟨s3, hs3, e⟩ := (step_vertex T).bind_ok (i + 3) hs2 h3 _
  rw [e]; clear e
  rcases pre with _ | ⟨l4, pre⟩
  · obtain ⟨s', e⟩ := (step_vertex T).bind_bad (i + 4) hs3 hl id ht _
    exact ⟨_, e⟩
  obtain ⟨p4, h4⟩ := hp 4 l4 rfl
  obtain ⟨s4, hs4, e⟩ := (step_vertex T).bind_ok (i + 4) hs3 h4 _
  rw [e]; clear e
  rcases pre with _ | ⟨l5, pre⟩
  · obtain ⟨s', e⟩ := (step_keyword _ .EndLoop).bind_bad (i + 5) hs4 (fun ⟨_, h⟩ => hl h) id ht _
    exact ⟨_, e⟩
  obtain ⟨s5, hs5, e⟩ := (step_keyword _ _).bind_ok (i + 5) (a := ()) hs4 (hp 5 l5 rfl) _
  rw [e]; clear e
  rcases pre with _ | ⟨l6, pre⟩
  · obtain ⟨s', e⟩ := (step_keyword _ .EndFacet).bind_bad (i + 6) hs5 (fun ⟨_, h⟩ => hl h) id ht _
    exact ⟨_, e⟩
  simp at h7
  omega

/-! ### the iterator -/

theorem stlAscii_body {T : FloatText F64} {i : Nat} {ls : List Bytes} {fs : List (StlFace StlPoint)} {r : Except (LineInfo StlError) Unit}
    (h : StlText T i ls fs r) (s : Bytes) (hs : lines s = ls) :
    Yields (stlAsciiNext T) ⟨s, false, true, i⟩ (fs.map .data) r := by
  have hnext : ∀ s i, stlAsciiNext T ⟨s, false, true, i⟩ = match readStlFacet T (s, i) with
    | (.ok f, (read, i)) => some (some (.ok (.data f)), ⟨read, false, true, i⟩)
    | (.error e, (read, i)) =>
      if e.err = .LoadFileEndReached then some (none, ⟨read, true, true, i⟩)
      else some (some (.error e), ⟨read, true, true, i⟩) := fun _ _ => rfl
  induction h generalizing s with
  | endsolid h =>
    obtain ⟨e, ⟨s', i'⟩, he, herr⟩ := facet_endsolid T _ hs h
    refine .done (s' := ⟨s', true, true, i'⟩) ?_
    rw [hnext, he]
    exact if_pos herr
  | facet h ht ih =>
    obtain ⟨s', hs', he⟩ := facet_ok _ h hs
    refine .item (s' := ⟨s', false, true, _⟩) ?_ (ih s' hs')
    rw [hnext, he]
  | cut h hp =>
    subst hs
    obtain ⟨e, ⟨s', i'⟩, he, herr⟩ := facet_cut _ h hp
    refine .done (s' := ⟨s', true, true, i'⟩) ?_
    rw [hnext, he]
    exact if_pos herr
  | @bad i k pre post l t hk h7 hp hl h0 ht =>
    subst hk
    obtain ⟨⟨s', i'⟩, he⟩ := facet_bad i hs h7 hp hl h0 ht
    refine .error (s' := ⟨s', true, true, i'⟩) ?_
    rw [hnext, he]
    refine if_neg ?_
    show (stlPartError pre.length).1 ≠ _
    unfold stlPartError
    split <;> decide

/-- every sequence of lines has a meaning -/
theorem stlText_exists (T : FloatText F64) : ∀ (n : Nat) (ls : List Bytes), ls.length ≤ n → ∀ i, ∃ fs r, StlText T i ls fs r := by
  intro n
  induction n using Nat.strong_induction_on with
  | _ n ih =>
  intro ls hn i
  by_cases hend : ∃ l ls', ls = l :: ls' ∧ Keyword b!"endsolid" l
  · obtain ⟨l, ls', rfl, h⟩ := hend
    exact ⟨_, _, .endsolid h⟩
  by_cases hall : ∀ k l, k < 7 → ls[k]? = some l → StlPart T k l
  · by_cases h7 : ls.length < 7
    · refine ⟨_, _, .cut h7 fun k l hl => hall k l ?_ hl⟩
      have := (List.getElem?_eq_some_iff.1 hl).1
      omega
    · obtain ⟨fs, r, hr⟩ := ih (n - 7) (by omega) (ls.drop 7) (by simp; omega) (i + 7)
      have ht : ∀ k l, (ls.take 7)[k]? = some l → k < 7 ∧ ls[k]? = some l := by
        intro k l hl
        rw [List.getElem?_take] at hl
        split at hl
        · exact ⟨‹_›, hl⟩
        · cases hl
      have hv : ∀ k, k = 2 ∨ k = 3 ∨ k = 4 → ∃ p, ∀ l, (ls.take 7)[k]? = some l → StlVertex T l p := by
        intro k hk
        have hlt : k < ls.length := by omega
        obtain ⟨p, hp⟩ : ∃ p, StlVertex T ls[k] p := by
          have := hall k ls[k] (by omega) (List.getElem?_eq_getElem hlt)
          rcases hk with rfl | rfl | rfl <;> exact this
        refine ⟨p, fun l hl => ?_⟩
        have := (ht k l hl).2
        rw [List.getElem?_eq_getElem hlt] at this
        cases this
        exact hp
      obtain ⟨a, ha⟩ := hv 2 (.inl rfl)
      obtain ⟨b, hb⟩ := hv 3 (.inr (.inl rfl))
      obtain ⟨c, hc⟩ := hv 4 (.inr (.inr rfl))
      have hl0 : 0 < ls.length := by omega
      obtain ⟨n0, hn0⟩ : ∃ n, ∀ l, (ls.take 7)[0]? = some l → StlNormal T l n := by
        obtain ⟨n0, h0⟩ := stlNormal_exists T ls[0]
        refine ⟨n0, fun l hl => ?_⟩
        have := (ht 0 l hl).2
        rw [List.getElem?_eq_getElem hl0] at this
        cases this
        exact h0
      refine ⟨⟨a, b, c, n0⟩ :: fs, r, ?_⟩
      rw [← List.take_append_drop 7 ls]
      exact .facet ⟨by simp; omega, fun k l hl => hall k l (ht k l hl).1 (ht k l hl).2, hn0, ha, hb, hc⟩ hr
  · classical
    push Not at hall
    have hex : ∃ k, k < 7 ∧ ∃ l, ls[k]? = some l ∧ ¬StlPart T k l := by
      obtain ⟨k, l, h1, h2, h3⟩ := hall
      exact ⟨k, h1, l, h2, h3⟩
    obtain ⟨h7, l, hl, hbad⟩ := Nat.find_spec hex
    set k := Nat.find hex with hk
    obtain ⟨hlt, hget⟩ := List.getElem?_eq_some_iff.1 hl
    have hsplit : ls = ls.take k ++ l :: ls.drop (k + 1) := by
      conv_lhs => rw [← List.take_append_drop k ls, List.drop_eq_getElem_cons hlt, hget]
    have hlen : (ls.take k).length = k := by simp; omega
    refine ⟨[], .error (.line (i + k + 1) (if (stlPartError k).2 then trimStart l else l) (stlPartError k).1), ?_⟩
    rw [hsplit]
    refine .bad (t := if (stlPartError k).2 then trimStart l else l) hlen h7 (fun j l' hj => ?_) hbad ?_ ?_
    · have hjk : j < k := by
        have := (List.getElem?_eq_some_iff.1 hj).1
        omega
      rw [List.getElem?_take, if_pos hjk] at hj
      by_contra hc
      exact Nat.find_min hex hjk ⟨by omega, l', hj, hc⟩
    · intro h0 he
      refine hend ⟨l, ls.drop 1, ?_, he⟩
      conv_lhs => rw [hsplit, h0]
      simp
    · split
      · exact unindent_iff.2 rfl
      · rfl

end R3D

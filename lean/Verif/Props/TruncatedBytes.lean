import Verif.Props.Truncated
import Verif.Props.NoPanic
/-!
# C119 for the formats with binary data: .stl, .ply, .las, .psl

Binary data may be cut anywhere.
-/
namespace R3D
open Spec

/-! ### reading bytes -/

theorem readExact_more {n : Nat} {s b r : Bytes} (y : Bytes) (h : readExact n s = some (b, r)) : readExact n (s ++ y) = some (b, r ++ y) := by
  unfold readExact at h ⊢
  split at h
  · rename_i hn
    cases h
    rw [if_pos (by simp; omega), List.take_append_of_le_length hn, List.drop_append_of_le_length hn]
  · cases h

theorem readNat_more {e : Endian} {w : Nat} {s r : Bytes} {x : Nat} (y : Bytes) (h : readNat e w s = some (x, r)) :
    readNat e w (s ++ y) = some (x, r ++ y) := by
  unfold readNat at h ⊢
  split at h
  · cases h
  · rename_i hr
    cases h
    rw [readExact_more y hr]

theorem readInt_more {e : Endian} {w : Nat} {s r : Bytes} {x : Int} (y : Bytes) (h : readInt e w s = some (x, r)) :
    readInt e w (s ++ y) = some (x, r ++ y) := by
  unfold readInt at h ⊢
  split at h
  · cases h
  · rename_i hr
    cases h
    rw [readExact_more y hr]

theorem readF32_more {e : Endian} {s r : Bytes} {x : F64} (y : Bytes) (h : readF32 e s = some (x, r)) :
    readF32 e (s ++ y) = some (x, r ++ y) := by
  unfold readF32 at h ⊢
  split at h
  · cases h
  · rename_i hr
    cases h
    rw [readExact_more y hr]

theorem readF64_more {e : Endian} {s r : Bytes} {x : F64} (y : Bytes) (h : readF64 e s = some (x, r)) :
    readF64 e (s ++ y) = some (x, r ++ y) := by
  unfold readF64 at h ⊢
  split at h
  · cases h
  · rename_i hr
    cases h
    rw [readExact_more y hr]

theorem skipBytes_more {n : Nat} {s r : Bytes} (y : Bytes) (h : skipBytes n s = some r) : skipBytes n (s ++ y) = some (r ++ y) := by
  induction n generalizing s with
  | zero =>
    cases s <;> (unfold skipBytes at h; cases h; rfl)
  | succ n ih =>
    cases s with
    | nil => cases h
    | cons b s => exact ih (s := s) h

theorem readFaceType_more {e : Endian} {t : FaceType} {s r : Bytes} {x : Nat} (y : Bytes) (h : readFaceType e t s = some (x, r)) :
    readFaceType e t (s ++ y) = some (x, r ++ y) := by
  cases t <;> simp only [readFaceType, Option.map_eq_some_iff] at h ⊢
  all_goals first
    | exact readNat_more y h
    | (obtain ⟨⟨i, r'⟩, h1, h2⟩ := h
       cases h2
       exact ⟨_, readInt_more y h1, rfl⟩)

theorem readVertexType_more {e : Endian} {t : VertexType} {s r : Bytes} {x : F64} (y : Bytes)
    (h : readVertexType e t s = some (x, r)) : readVertexType e t (s ++ y) = some (x, r ++ y) := by
  cases t
  · exact readF32_more y h
  · exact readF64_more y h

/-! ### .psl -/

theorem pslHeader_more {s r : Bytes} {n : Int} (y : Bytes) (h : pslHeader s = some (n, r)) : pslHeader (s ++ y) = some (n, r ++ y) := by
  unfold pslHeader at h ⊢
  simp only [Option.bind_eq_bind, Option.bind_eq_some_iff, Option.pure_def] at h
  obtain ⟨⟨_, s1⟩, h1, ⟨_, s2⟩, h2, ⟨_, s3⟩, h3, ⟨_, s4⟩, h4, ⟨_, s5⟩, h5, ⟨_, s6⟩, h6, h7⟩ := h
  cases h7
  simp [readExact_more y h1, readInt_more y h2, readExact_more y h3, readInt_more y h4, readInt_more y h5, readExact_more y h6]

theorem pslPassHeader_more {s r : Bytes} {n : Int} (y : Bytes) (h : pslPassHeader s = some (n, r)) :
    pslPassHeader (s ++ y) = some (n, r ++ y) := by
  unfold pslPassHeader at h ⊢
  simp only [Option.bind_eq_bind, Option.bind_eq_some_iff, Option.pure_def] at h
  obtain ⟨⟨_, s1⟩, h1, ⟨_, s2⟩, h2, ⟨_, s3⟩, h3, h7⟩ := h
  cases h7
  simp [readInt_more y h1, readInt_more y h2, readExact_more y h3]

theorem pslLineHeader_more {s r : Bytes} {n : Int} (y : Bytes) (h : pslLineHeader s = some (n, r)) :
    pslLineHeader (s ++ y) = some (n, r ++ y) := by
  unfold pslLineHeader at h ⊢
  simp only [Option.bind_eq_bind, Option.bind_eq_some_iff, Option.pure_def] at h
  obtain ⟨⟨_, s1⟩, h1, ⟨_, s2⟩, h2, ⟨_, s3⟩, h3, h7⟩ := h
  cases h7
  simp [readInt_more y h1, readExact_more y h2, readExact_more y h3]

theorem pslPoint_more {s r : Bytes} {n : Point3D F64} (y : Bytes) (h : pslPoint s = some (n, r)) :
    pslPoint (s ++ y) = some (n, r ++ y) := by
  unfold pslPoint at h ⊢
  simp only [Option.bind_eq_bind, Option.bind_eq_some_iff, Option.pure_def] at h
  obtain ⟨⟨_, s1⟩, h1, ⟨_, s2⟩, h2, ⟨_, s3⟩, h3, h7⟩ := h
  cases h7
  simp [readF32_more y h1, readF32_more y h2, readF32_more y h3]

/-- the same iterator with more data behind -/
def PslIter.more (s : PslIter) (y : Bytes) : PslIter := { s with read := s.read ++ y }

theorem pslFetchLines_more {s s' : PslIter} (y : Bytes) (h : pslFetchLines s = some s') : pslFetchLines (s.more y) = some (s'.more y) := by
  unfold pslFetchLines at h ⊢
  have hcc : ((s.more y).nLinesLeft == 0 && decide ((s.more y).nPassesLeft > 0)) = (s.nLinesLeft == 0 && decide (s.nPassesLeft > 0)) := rfl
  split at h
  · rename_i hc
    rw [if_pos (hcc.trans hc)]
    simp only [Option.bind_eq_bind, Option.bind_eq_some_iff, Option.pure_def] at h
    obtain ⟨⟨n, r⟩, h1, h2⟩ := h
    cases h2
    simp [PslIter.more, pslPassHeader_more y h1]
  · rename_i hc
    rw [if_neg (by rw [hcc]; exact hc)]
    cases h
    rfl

theorem pslFetchPoints_more {s s' : PslIter} (y : Bytes) (h : pslFetchPoints s = some s') : pslFetchPoints (s.more y) = some (s'.more y) := by
  unfold pslFetchPoints at h ⊢
  have hcc : ((s.more y).nPointLeft == 0 && decide ((s.more y).nLinesLeft > 0)) = (s.nPointLeft == 0 && decide (s.nLinesLeft > 0)) := rfl
  split at h
  · rename_i hc
    rw [if_pos (hcc.trans hc)]
    simp only [Option.bind_eq_bind, Option.bind_eq_some_iff, Option.pure_def] at h
    obtain ⟨⟨n, r⟩, h1, h2⟩ := h
    cases h2
    simp [PslIter.more, pslLineHeader_more y h1]
  · rename_i hc
    rw [if_neg (by rw [hcc]; exact hc)]
    cases h
    rfl

theorem pslNextPoint_more {s s' : PslIter} {p : Point3D F64} (y : Bytes) (h : pslNextPoint s = (some (.ok p), s')) :
    pslNextPoint (s.more y) = (some (.ok p), s'.more y) := by
  unfold pslNextPoint at h ⊢
  cases h1 : pslFetchCounts s with
  | none => rw [h1] at h; cases h
  | some s1 =>
    have h1' : pslFetchCounts (s.more y) = some (s1.more y) := by
      unfold pslFetchCounts at h1 ⊢
      simp only [Option.bind_eq_bind, Option.bind_eq_some_iff] at h1
      obtain ⟨s2, ha, hb⟩ := h1
      simp [pslFetchLines_more y ha, pslFetchPoints_more y hb]
    rw [h1] at h
    rw [h1']
    dsimp only at h ⊢
    split at h
    · cases h
    · rename_i hc
      rw [if_neg (by exact hc)]
      have e : pslReduceCount (s1.more y) = (pslReduceCount s1).more y := by
        unfold pslReduceCount PslIter.more
        dsimp only
        split_ifs <;> rfl
      rw [e]
      split at h
      · cases h
      · rename_i p' rest hp
        cases h
        have := pslPoint_more y hp
        dsimp only [PslIter.more]
        rw [this]

/-- C119 for .psl, cut anywhere; the cut file may be reported as not readable -/
theorem c119_psl (a b : Bytes) (x y) (hx : loadPsl a = some x) (hy : loadPsl (a ++ b) = some y) :
    BeginsLike (· <+: ·) (fun e => e = PslError.AccessFile) x y := by
  refine drain_begins (R := fun s t => t = s.more b) ?_ (fun _ _ e _ _ _ => .inl (by cases e; rfl)) _ _ _ _ rfl x y hx hy
  rintro s t p s' rfl h
  refine ⟨_, ?_, rfl⟩
  unfold pslNext at h ⊢
  split at h
  · cases h
  · rename_i hd
    rw [if_neg (by exact hd)]
    split at h
    · rename_i hi
      rw [if_pos (by exact hi)]
      cases h1 : pslInitialize { s with isInitialized := true } with
      | none => rw [h1] at h; cases h
      | some s1 =>
        rw [h1] at h
        have : pslInitialize { s.more b with isInitialized := true } = some (s1.more b) := by
          unfold pslInitialize at h1 ⊢
          simp only [Option.bind_eq_bind, Option.bind_eq_some_iff, Option.pure_def] at h1
          obtain ⟨⟨n, r⟩, h1, h2⟩ := h1
          cases h2
          simp only [PslIter.more]
          simp [pslHeader_more b h1]
        rw [this]
        exact pslNextPoint_more b h
    · rename_i hi
      rw [if_neg (by exact hi)]
      exact pslNextPoint_more b h

/-! ### .las -/

theorem lasFetchOne_more {h : LasHeader} {s : Bytes} {x r} (y : Bytes) (hh : lasFetchOne h s = some (.ok x, r)) :
    lasFetchOne h (s ++ y) = some (.ok x, r ++ y) := by
  unfold lasFetchOne at hh ⊢
  cases h1 : readExact h.pointRecordLength s with
  | none => rw [h1] at hh; cases hh
  | some br =>
    obtain ⟨bu, rest⟩ := br
    rw [h1] at hh
    rw [readExact_more y h1]
    simp only [Option.bind_eq_bind, Option.bind_eq_some_iff, Option.pure_def] at hh ⊢
    obtain ⟨b, hb, x', hx, y', hy, z', hz, he⟩ := hh
    cases he
    exact ⟨b, hb, x', hx, y', hy, z', hz, rfl⟩

theorem lasFetchOne_error {h : LasHeader} {s : Bytes} {e r} (hh : lasFetchOne h s = some (.error e, r)) : e = .AccessFile := by
  unfold lasFetchOne at hh
  split at hh
  · cases hh; rfl
  · simp only [Option.bind_eq_bind, Option.bind_eq_some_iff, Option.pure_def] at hh
    obtain ⟨b, hb, x', hx, y', hy, z', hz, he⟩ := hh
    cases he

theorem lasHeader_more {s : Bytes} (y : Bytes) (h : 375 ≤ s.length) : lasHeader (s ++ y) = lasHeader s := by
  have : lasLoadHeader (s ++ y) = lasLoadHeader s := by
    unfold lasLoadHeader
    have h1 : readExact 375 s = some (s.take 375, s.drop 375) := by unfold readExact; rw [if_pos h]
    rw [readExact_more y h1, h1]
  unfold lasHeader
  rw [this]

/-- C119 for .las, cut anywhere; the cut file may be reported as not readable, and its header as malformed if that was cut -/
theorem c119_las (a b : Bytes) (x y) (hx : loadLas a = some x) (hy : loadLas (a ++ b) = some y) :
    BeginsLike (· <+: ·) (fun e => e = LasError.AccessFile ∨ e = .Header ∧ a.length < 375) x y := by
  refine forEach_begins (fun m => List.prefix_refl m) (fun _ _ _ h1 h2 => h1.trans h2)
    (R := fun s t => s.file = a ∧ t.file = a ++ b ∧ s.read <+: t.read ∧ (s.header = none → s.read = a ∧ t.read = a ++ b) ∧
      t.isDone = s.isDone ∧ t.current = s.current ∧ t.header = s.header)
    ?_ ?_ ?_ _ _ _ _ [] ⟨rfl, rfl, List.prefix_append _ _, fun _ => ⟨rfl, rfl⟩, rfl, rfl, rfl⟩ x y hx hy
  · intro m x
    cases x <;> simp [lasPush]
  · rintro ⟨f, r, d, c, h⟩ ⟨f', r', d', c', h'⟩ p s' ⟨h1, h2, h3, h4, h5, h6, h7⟩ hn
    dsimp only at h1 h2 h3 h4 h5 h6 h7
    subst h1 h2 h5 h6 h7
    unfold lasNext at hn ⊢
    dsimp only at hn ⊢
    split at hn
    · cases hn
    · rename_i hd
      rw [if_neg hd]
      cases h' with
      | none =>
        obtain ⟨e1, e2⟩ := h4 rfl
        subst e1 e2
        dsimp only at hn ⊢
        split at hn
        · cases hn
        · cases hn
        · rename_i hd hh
          cases hn
          have hl : 375 ≤ r.length := by
            by_contra hc
            unfold lasHeader lasLoadHeader at hh
            have : readExact 375 r = none := by unfold readExact; rw [if_neg hc]
            rw [this] at hh
            cases hh
          rw [lasHeader_more b hl, hh]
          refine ⟨_, rfl, rfl, rfl, ?_, fun hc => (by cases hc), rfl, rfl, rfl⟩
          exact List.IsPrefix.drop (List.prefix_append _ _) _
      | some hd =>
        dsimp only at hn ⊢
        split at hn
        · rename_i hc
          rw [if_pos hc]
          obtain ⟨y', rfl⟩ := h3
          split at hn
          · cases hn
          · cases hn
          · rename_i p' rest hf
            cases hn
            rw [lasFetchOne_more y' hf]
            exact ⟨_, rfl, rfl, rfl, List.prefix_append _ _, fun hc => (by cases hc), rfl, rfl, rfl⟩
        · cases hn
  · rintro ⟨f, r, d, c, h⟩ ⟨f', r', d', c', h'⟩ e s' ⟨h1, h2, h3, h4, h5, h6, h7⟩ hn
    dsimp only at h1 h2 h3 h4 h5 h6 h7
    subst h1 h2 h5 h6 h7
    unfold lasNext at hn ⊢
    dsimp only at hn ⊢
    split at hn
    · cases hn
    · rename_i hd
      rw [if_neg hd]
      cases h' with
      | none =>
        obtain ⟨e1, e2⟩ := h4 rfl
        subst e1 e2
        dsimp only at hn ⊢
        split at hn
        · cases hn
        · rename_i hh
          cases hn
          by_cases hl : r.length < 375
          · exact .inl (.inr ⟨rfl, hl⟩)
          · right
            rw [lasHeader_more b (by omega), hh]
            exact ⟨_, rfl⟩
        · cases hn
      | some hd =>
        dsimp only at hn ⊢
        split at hn
        · split at hn
          · cases hn
          · rename_i hf
            cases hn
            exact .inl (.inl (lasFetchOne_error hf))
          · cases hn
        · cases hn

/-! ### .stl -/

/-- where a .stl file may be cut: anywhere if it is binary, behind a line otherwise -/
def Spec.StlCutAt (format : StlFormat) (a : Bytes) : Prop :=
  EndsLine a ∨ format = .Binary ∨ (format = .Auto ∧ ¬ b!"solid" <+: a)

theorem readUntilNl_more {s : Bytes} (y : Bytes) (h : EndsLine s) (hs : s ≠ []) :
    EndsLine (readUntilNl s).2 ∧ readUntilNl (s ++ y) = ((readUntilNl s).1, (readUntilNl s).2 ++ y) := by
  induction s with
  | nil => exact absurd rfl hs
  | cons b s ih =>
    have hcase : b = 10 ∧ s = [] ∨ EndsLine s ∧ s ≠ [] := by
      rcases h with h | ⟨c, h⟩
      · cases h
      · cases c with
        | nil => left; simpa using h
        | cons y c => right; exact ⟨.inr ⟨c, (List.cons.inj h).2⟩, by rw [(List.cons.inj h).2]; simp⟩
    by_cases hb : b = 10
    · subst hb
      simp only [readUntilNl, List.cons_append, if_true]
      refine ⟨?_, trivial⟩
      rcases hcase with ⟨_, rfl⟩ | h
      · exact .inl rfl
      · exact h.1
    · rcases hcase with ⟨h, _⟩ | ⟨h1, h2⟩
      · exact absurd h hb
      · obtain ⟨h3, h4⟩ := ih h1 h2
        simp only [readUntilNl, List.cons_append, hb, if_false, h4]
        exact ⟨h3, trivial⟩

theorem fetchLine_more {s l r : Bytes} (y : Bytes) (h : EndsLine s) (hf : fetchLine s = some (l, r)) :
    EndsLine r ∧ fetchLine (s ++ y) = some (l, r ++ y) := by
  have hs : s ≠ [] := by rintro rfl; cases hf
  obtain ⟨h1, h2⟩ := readUntilNl_more y h hs
  unfold fetchLine at hf ⊢
  dsimp only at hf ⊢
  split at hf
  · cases hf
  · rename_i hc
    cases hf
    rw [h2]
    dsimp only
    rw [if_neg hc]
    exact ⟨h1, rfl⟩

/-- a step of the ASCII parser does the same with more data behind, unless it has reached the end -/
def StlMore (y : Bytes) {β : Type} (m : StlM β) : Prop := ∀ r i, EndsLine r →
  (∃ k s', m (r, i) = (.error (.index k .LoadFileEndReached), s')) ∨
  ∃ x r' i', m (r, i) = (x, (r', i')) ∧ EndsLine r' ∧ m (r ++ y, i) = (x, (r' ++ y, i'))

theorem StlMore.bind {y : Bytes} {β γ : Type} {m : StlM β} {f : β → StlM γ} (hm : StlMore y m) (hf : ∀ b, StlMore y (f b)) :
    StlMore y (m >>= f) := by
  intro r i h
  have hb : ∀ st, (m >>= f) st = (match m st with
    | (.ok a, st') => f a st'
    | (.error e, st') => (.error e, st')) := by
    intro st
    show (ExceptT.bind m f) st = _
    unfold ExceptT.bind ExceptT.mk
    show (ExceptT.bindCont f (m st).1 (m st).2) = _
    rcases hmst : m st with ⟨e | a, st'⟩ <;> rfl
  rcases hm r i h with ⟨k, s', h1⟩ | ⟨x, r', i', h1, h2, h3⟩
  · left
    rw [hb, h1]
    exact ⟨k, s', rfl⟩
  · rw [hb, hb, h1, h3]
    rcases x with e | a
    · exact .inr ⟨_, _, _, rfl, h2, rfl⟩
    · exact hf a r' i' h2

theorem StlMore.pure {y : Bytes} {β : Type} (b : β) : StlMore y (pure b : StlM β) := fun r i h => .inr ⟨_, r, i, rfl, h, rfl⟩

theorem StlMore.line (y : Bytes) : StlMore y stlLine := by
  intro r i h
  unfold stlLine
  cases hf : fetchLine r with
  | none => exact .inl ⟨i, (r, i), rfl⟩
  | some lr =>
    obtain ⟨l, r'⟩ := lr
    obtain ⟨h1, h2⟩ := fetchLine_more y h hf
    refine .inr ⟨.ok l, r', i + 1, rfl, h1, by simp only [h2]⟩

theorem StlMore.fail (y : Bytes) {β : Type} (e : StlError) (l : Bytes) : StlMore y (stlFail e l : StlM β) :=
  fun r i h => .inr ⟨_, r, i, rfl, h, rfl⟩

theorem StlMore.facet (y : Bytes) (T : FloatText F64) : StlMore y (readStlFacet T) := by
  have hk : ∀ k e, StlMore y (stlKeywordLine k e) := by
    intro k e
    refine (StlMore.line y).bind fun l => ?_
    dsimp only
    split_ifs
    · exact StlMore.pure _
    · exact StlMore.fail y _ _
  have hv : StlMore y (stlVertexLine T) := by
    refine (StlMore.line y).bind fun l => ?_
    split
    · exact StlMore.pure _
    · exact StlMore.fail y _ _
  have hf : StlMore y (stlFacetLine T) := by
    refine (StlMore.line y).bind fun l => ?_
    dsimp only
    split_ifs
    · exact StlMore.fail y _ _
    · exact StlMore.fail y _ _
    · exact StlMore.pure _
  unfold readStlFacet
  exact hf.bind fun n => (hk _ _).bind fun _ => hv.bind fun _ => hv.bind fun _ => hv.bind fun _ => (hk _ _).bind fun _ =>
    (hk _ _).bind fun _ => StlMore.pure _

theorem readStlTriangle_more {s : Bytes} {x r} (y : Bytes) (h : readStlTriangle s = some (.ok x, r)) :
    readStlTriangle (s ++ y) = some (.ok x, r ++ y) := by
  unfold readStlTriangle at h ⊢
  cases h1 : readExact 50 s with
  | none => rw [h1] at h; cases h
  | some br =>
    obtain ⟨bu, rest⟩ := br
    rw [h1] at h
    rw [readExact_more y h1]
    dsimp only at h ⊢
    revert h
    generalize stlPointFromBytes (bu.take 12) = o1
    generalize stlPointFromBytes ((bu.drop 12).take 12) = o2
    generalize stlPointFromBytes ((bu.drop 24).take 12) = o3
    generalize stlPointFromBytes ((bu.drop 36).take 12) = o4
    intro h
    split at h
    · cases h; rfl
    · cases h
    · cases h
    · cases h
    · cases h
    · cases h

theorem readStlTriangle_error {s : Bytes} {e r} (y : Bytes) (h : readStlTriangle s = some (.error e, r)) :
    e = .AccessFile ∨ readStlTriangle (s ++ y) = some (.error e, r ++ y) := by
  unfold readStlTriangle at h ⊢
  cases h1 : readExact 50 s with
  | none => rw [h1] at h; cases h; exact .inl rfl
  | some br =>
    obtain ⟨bu, rest⟩ := br
    right
    rw [h1] at h
    rw [readExact_more y h1]
    dsimp only at h ⊢
    revert h
    generalize stlPointFromBytes (bu.take 12) = o1
    generalize stlPointFromBytes ((bu.drop 12).take 12) = o2
    generalize stlPointFromBytes ((bu.drop 24).take 12) = o3
    generalize stlPointFromBytes ((bu.drop 36).take 12) = o4
    intro h
    rcases o1 with _ | _ | o1 <;> rcases o2 with _ | _ | o2 <;> rcases o3 with _ | _ | o3 <;> rcases o4 with _ | _ | o4 <;>
      first
        | (cases h; done)
        | (cases h; rfl)

/-- the states of the iterators over the cut and the whole file -/
def StlR (y : Bytes) : StlIter → StlIter → Prop
  | .Binary s, .Binary t => t = { s with read := s.read ++ y }
  | .Ascii s, .Ascii t => t = { s with read := s.read ++ y } ∧ EndsLine s.read
  | _, _ => False

theorem stlBinary_ok {s s' : StlBinaryIter} {x} (y : Bytes) (h : stlBinaryNext s = some (some (.ok x), s')) :
    stlBinaryNext { s with read := s.read ++ y } = some (some (.ok x), { s' with read := s'.read ++ y }) := by
  unfold stlBinaryNext at h ⊢
  dsimp only
  split at h
  · cases h
  · rename_i hd
    rw [if_neg hd]
    split at h
    · rename_i hr
      rw [if_pos hr]
      split at h
      · cases h
      · rename_i h1
        rw [readExact_more y h1]
        dsimp only
        split at h
        · cases h
        · rename_i h2
          rw [readNat_more y h2]
          dsimp only
          split at h
          · cases h
          · rename_i hm
            rw [if_neg hm]
            cases h
            rfl
    · rename_i hr
      rw [if_neg hr]
      split at h
      · rename_i hc
        rw [if_pos hc]
        split at h
        · cases h
        · cases h
        · rename_i h1
          rw [readStlTriangle_more y h1]
          cases h
          rfl
      · cases h

theorem stlBinary_error {s s' : StlBinaryIter} {e} (y : Bytes) (h : stlBinaryNext s = some (some (.error e), s')) :
    e = .none .AccessFile ∨ ∃ t', stlBinaryNext { s with read := s.read ++ y } = some (some (.error e), t') := by
  unfold stlBinaryNext at h ⊢
  dsimp only
  split at h
  · cases h
  · rename_i hd
    rw [if_neg hd]
    split at h
    · rename_i hr
      rw [if_pos hr]
      split at h
      · cases h; exact .inl rfl
      · rename_i h1
        rw [readExact_more y h1]
        dsimp only
        split at h
        · cases h; exact .inl rfl
        · rename_i h2
          rw [readNat_more y h2]
          dsimp only
          split at h
          · rename_i hm
            rw [if_pos hm]
            cases h
            exact .inr ⟨_, rfl⟩
          · cases h
    · rename_i hr
      rw [if_neg hr]
      split at h
      · rename_i hc
        rw [if_pos hc]
        split at h
        · cases h
        · rename_i h1
          cases h
          rcases readStlTriangle_error y h1 with h | h
          · exact .inl (by rw [h])
          · rw [h]
            exact .inr ⟨_, rfl⟩
        · cases h
      · cases h

theorem stlAscii_next {T : FloatText F64} {s s' : StlAsciiIter} {x} (y : Bytes) (hl : EndsLine s.read)
    (h : stlAsciiNext T s = some (some x, s')) :
    stlAsciiNext T { s with read := s.read ++ y } = some (some x, { s' with read := s'.read ++ y }) ∧ EndsLine s'.read := by
  unfold stlAsciiNext at h ⊢
  dsimp only at h ⊢
  split at h
  · cases h
  · rename_i hd
    rw [if_neg hd]
    -- the first line
    have hstart : ∀ st, (if s.headerRead = true then (s.read, s.iLine) else ((readUntilNl s.read).2, s.iLine + 1)) = st →
        st.1 = [] ∨ EndsLine st.1 ∧
        (if s.headerRead = true then (s.read ++ y, s.iLine) else ((readUntilNl (s.read ++ y)).2, s.iLine + 1)) = (st.1 ++ y, st.2) := by
      rintro st rfl
      split
      · exact .inr ⟨hl, rfl⟩
      · by_cases he : s.read = []
        · left; rw [he]; rfl
        · obtain ⟨h1, h2⟩ := readUntilNl_more y hl he
          exact .inr ⟨h1, by rw [h2]⟩
    generalize (if s.headerRead = true then (s.read, s.iLine) else ((readUntilNl s.read).2, s.iLine + 1)) = st at h hstart
    obtain ⟨r0, i0⟩ := st
    rcases hstart _ rfl with he | ⟨he, hs⟩
    · dsimp only at he
      subst he
      have : ∃ s', readStlFacet T ([], i0) = (.error (.index i0 .LoadFileEndReached), s') := ⟨_, rfl⟩
      obtain ⟨s', hs'⟩ := this
      rw [hs'] at h
      cases h
    · rw [hs]
      dsimp only
      rcases StlMore.facet y T r0 i0 he with ⟨k, s', h1⟩ | ⟨x', r', i', h1, h2, h3⟩
      · rw [h1] at h
        dsimp only at h
        simp only [LineInfo.err, if_true] at h
        cases h
      · rw [h1] at h
        rw [h3]
        rcases x' with e | f
        · dsimp only at h ⊢
          split at h
          · cases h
          · rename_i hne
            rw [if_neg hne]
            cases h
            exact ⟨rfl, h2⟩
        · dsimp only at h ⊢
          cases h
          exact ⟨rfl, h2⟩

/-- the error of a cut .stl file -/
def Spec.StlCut (e : LineInfo StlError) : Prop := e = .none .AccessFile

theorem stlForEach_begins {μ : Type} {le : μ → μ → Prop} (hrefl : ∀ m, le m m) (htrans : ∀ a b c, le a b → le b c → le a c)
    {push : μ → StlItem StlPoint → μ} (hpush : ∀ m x, le m (push m x)) (T : FloatText F64) (a b : Bytes) (format : StlFormat)
    (h : StlCutAt format a) (m : μ) (x y) (hx : stlForEach T push a format m = some x)
    (hy : stlForEach T push (a ++ b) format m = some y) : BeginsLike le StlCut x y := by
  unfold stlForEach at hx hy
  cases hn : readExact 5 a with
  | none =>
    unfold stlNew at hx
    rw [hn] at hx
    cases hx
    have hgrow : le m y.1 := by
      have := forEach_begins (R := fun _ _ : StlIter => False) (cut := fun _ => True) hrefl htrans
        (next := stlNext T) (push := fun m x => (push m x, .ok ())) hpush (fun _ _ _ _ h => h.elim) (fun _ _ _ _ h => h.elim)
      split at hy
      · cases hy; exact hrefl _
      · rename_i s hs
        clear this
        revert hy
        generalize (a ++ b).length + 3 = n
        intro hy
        have key : ∀ (n : Nat) (s : StlIter) (m : μ) (y : μ × Except (LineInfo StlError) Unit),
            forEach (stlNext T) (fun m x => (push m x, .ok ())) n s m = some y → le m y.1 := by
          intro n
          induction n with
          | zero => intro s m y h; cases h
          | succ n ih =>
            intro s m y h
            unfold forEach at h
            split at h
            · cases h
            · cases h; exact hrefl _
            · cases h; exact hrefl _
            · exact htrans _ _ _ (hpush m _) (ih _ _ _ h)
        exact key _ _ _ _ hy
    exact ⟨hgrow, fun e he => by cases he; exact .inl rfl⟩
  | some br =>
    obtain ⟨bu, rest⟩ := br
    have hbu : bu = a.take 5 ∧ rest = a.drop 5 ∧ 5 ≤ a.length := by
      unfold readExact at hn
      split at hn
      · cases hn; exact ⟨rfl, rfl, by assumption⟩
      · cases hn
    unfold stlNew at hx hy
    rw [hn] at hx
    rw [readExact_more b hn] at hy
    dsimp only at hx hy
    refine forEach_begins (R := StlR b) (cut := StlCut) hrefl htrans hpush ?_ ?_ _ _ _ _ m ?_ x y hx hy
    · rintro (s | s) (t | t) x' s' hR hnx
      · cases hR
        simp only [stlNext, Option.map_eq_some_iff] at hnx ⊢
        obtain ⟨⟨r1, r2⟩, h1, h2⟩ := hnx
        cases h2
        exact ⟨_, ⟨_, stlBinary_ok b h1, rfl⟩, rfl⟩
      · exact hR.elim
      · exact hR.elim
      · obtain ⟨rfl, hl⟩ := hR
        simp only [stlNext, Option.map_eq_some_iff] at hnx ⊢
        obtain ⟨⟨r1, r2⟩, h1, h2⟩ := hnx
        cases h2
        obtain ⟨h3, h4⟩ := stlAscii_next b hl h1
        exact ⟨_, ⟨_, h3, rfl⟩, rfl, h4⟩
    · rintro (s | s) (t | t) x' s' hR hnx
      · cases hR
        simp only [stlNext, Option.map_eq_some_iff] at hnx ⊢
        obtain ⟨⟨r1, r2⟩, h1, h2⟩ := hnx
        cases h2
        rcases stlBinary_error b h1 with h | ⟨t', h⟩
        · exact .inl h
        · exact .inr ⟨_, _, h, rfl⟩
      · exact hR.elim
      · exact hR.elim
      · obtain ⟨rfl, hl⟩ := hR
        simp only [stlNext, Option.map_eq_some_iff] at hnx ⊢
        obtain ⟨⟨r1, r2⟩, h1, h2⟩ := hnx
        cases h2
        obtain ⟨h3, h4⟩ := stlAscii_next b hl h1
        exact .inr ⟨_, _, h3, rfl⟩
    · have hends : EndsLine a → EndsLine rest := by
        rintro (rfl | ⟨c, rfl⟩)
        · simp at hbu
        · rw [hbu.2.1]
          have h5 := hbu.2.2
          by_cases hc : 5 ≤ c.length
          · right
            exact ⟨c.drop 5, by rw [List.drop_append_of_le_length hc]⟩
          · left
            apply List.drop_eq_nil_of_le
            simp only [List.length_append, List.length_cons, List.length_nil] at h5 ⊢
            omega
      have hrest : ∀ f : Bool, ((f = true) → EndsLine a) →
          StlR b (if f = true then .Ascii ⟨rest, false, false, 0⟩ else .Binary ⟨rest, false, false, 0, 0⟩)
            (if f = true then .Ascii ⟨rest ++ b, false, false, 0⟩ else .Binary ⟨rest ++ b, false, false, 0, 0⟩) := by
        intro f hf
        cases f with
        | true => exact ⟨rfl, hends (hf rfl)⟩
        | false => exact rfl
      apply hrest
      intro hf
      rcases h with h | rfl | ⟨rfl, h⟩
      · exact h
      · cases hf
      · exfalso
        apply h
        have : bu = b!"solid" := by simpa using hf
        rw [← this, hbu.1]
        exact List.take_prefix _ _

/-- a mesh and its normals are the first ones of another mesh -/
def Spec.StlBegins (a b : TMesh StlPoint × List StlPoint) : Prop := MeshBegins a.1 b.1 ∧ a.2 <+: b.2

theorem StlBegins.refl (m : TMesh StlPoint × List StlPoint) : StlBegins m m := ⟨MeshBegins.refl _, List.prefix_refl _⟩
theorem StlBegins.trans (a b c : TMesh StlPoint × List StlPoint) (h1 : StlBegins a b) (h2 : StlBegins b c) : StlBegins a c :=
  ⟨MeshBegins.trans _ _ _ h1.1 h2.1, h1.2.trans h2.2⟩

theorem stlVertexId_begins (same : StlPoint → StlPoint → Bool) (s : StlUnique) (p : StlPoint) :
    MeshBegins s.mesh (stlVertexId same s p).1.mesh ∧ (stlVertexId same s p).1.normals = s.normals := by
  unfold stlVertexId
  split
  · exact ⟨MeshBegins.refl _, rfl⟩
  · exact ⟨MeshBegins.addVertex _ _, rfl⟩

/-- C119 for .stl: all three loaders, for cuts behind a line and, of binary files, anywhere; the cut file may be reported as not
readable -/
theorem c119_stl (T : FloatText F64) (a b : Bytes) (format : StlFormat) (h : StlCutAt format a) :
    (∀ m n x y, loadStlMeshDuped T a format m n = some x → loadStlMeshDuped T (a ++ b) format m n = some y →
      BeginsLike StlBegins StlCut x y) ∧
    (∀ same m n x y, loadStlMeshUnique same T a format m n = some x → loadStlMeshUnique same T (a ++ b) format m n = some y →
      BeginsLike StlBegins StlCut x y) ∧
    (∀ m n x y, loadStlTriplets T a format m n = some x → loadStlTriplets T (a ++ b) format m n = some y →
      BeginsLike (fun p q => p.1 <+: q.1 ∧ p.2 <+: q.2) StlCut x y) := by
  refine ⟨fun m n x y => ?_, fun same m n x y hx hy => ?_, fun m n x y => ?_⟩
  · refine stlForEach_begins StlBegins.refl StlBegins.trans ?_ T a b format h (m, n) x y
    rintro ⟨m, n⟩ (k | f)
    · exact StlBegins.refl _
    · refine ⟨?_, List.prefix_append _ _⟩
      unfold stlPushDuped TMesh.addFace
      exact ⟨List.prefix_append _ _, List.prefix_append _ _⟩
  · unfold loadStlMeshUnique at hx hy
    simp only [Option.map_eq_some_iff] at hx hy
    obtain ⟨x0, hx, rfl⟩ := hx
    obtain ⟨y0, hy, rfl⟩ := hy
    have := stlForEach_begins (le := fun p q : StlUnique => StlBegins (p.mesh, p.normals) (q.mesh, q.normals))
      (fun _ => StlBegins.refl _) (fun _ _ _ => StlBegins.trans _ _ _) (push := stlPushUnique same) ?_ T a b format h _ x0 y0 hx hy
    · refine ⟨this.1, fun e he => ?_⟩
      rcases this.2 e he with h | h
      · exact .inl h
      · rw [h]; exact .inr rfl
    · rintro s (k | f)
      · exact StlBegins.refl _
      · obtain ⟨a1, a2⟩ := stlVertexId_begins same s f.a
        obtain ⟨b1, b2⟩ := stlVertexId_begins same (stlVertexId same s f.a).1 f.b
        obtain ⟨c1, c2⟩ := stlVertexId_begins same (stlVertexId same (stlVertexId same s f.a).1 f.b).1 f.c
        have hall := MeshBegins.trans _ _ _ a1 (MeshBegins.trans _ _ _ b1 c1)
        have hn := c2.trans (b2.trans a2)
        unfold stlPushUnique
        dsimp only
        generalize stlVertexId same (stlVertexId same (stlVertexId same s f.a).1 f.b).1 f.c = s3 at hall hn ⊢
        generalize (stlVertexId same s f.a).2 = ia
        generalize (stlVertexId same (stlVertexId same s f.a).1 f.b).2 = ib
        have ht := MeshBegins.tryAddConnection s3.1.mesh ia ib s3.2
        split
        · rename_i hq
          rw [hq] at ht
          exact ⟨MeshBegins.trans _ _ _ hall ht, by dsimp only; rw [hn]; exact List.prefix_append _ _⟩
        · rename_i hq
          rw [hq] at ht
          exact ⟨MeshBegins.trans _ _ _ hall ht, by dsimp only; rw [hn]⟩
  · refine stlForEach_begins (le := fun p q : List StlPoint × List StlPoint => p.1 <+: q.1 ∧ p.2 <+: q.2)
      (fun _ => ⟨List.prefix_refl _, List.prefix_refl _⟩) (fun _ _ _ h1 h2 => ⟨h1.1.trans h2.1, h1.2.trans h2.2⟩) ?_ T a b format h
      (m, n) x y
    rintro ⟨m, n⟩ (k | f)
    · exact ⟨List.prefix_refl _, List.prefix_refl _⟩
    · exact ⟨List.prefix_append _ _, List.prefix_append _ _⟩

/-- binary .stl files may be cut anywhere: 80 bytes of header, the number of triangles, and no triangle -/
example : StlCutAt .Auto (List.replicate 80 0 ++ [1, 0, 0, 0]) ∧
    loadStlTriplets natF64 (List.replicate 80 0 ++ [1, 0, 0, 0]) .Auto [] [] = some (([], []), .error (.none .AccessFile)) :=
  ⟨.inr (.inr ⟨rfl, by decide⟩), by decide +kernel⟩

end R3D

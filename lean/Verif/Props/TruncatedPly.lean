import Verif.Props.TruncatedBytes
/-!
# C119 for .ply

The header and ASCII data may be cut behind any line, binary data anywhere.
-/
namespace R3D
open Spec

/-- where a .ply file may be cut: behind a line, or anywhere behind the header of a binary file -/
def Spec.PlyCutAt (a : Bytes) : Prop :=
  EndsLine a ∨ ∃ header body, a = header ++ body ∧ EndsLine header ∧ b!"end_header" ∈ lines header ∧ b!"format ascii 1.0" ∉ lines header

/-- the errors of cut .ply files: data missing, vertices missing, the header incomplete -/
def Spec.PlyCut (e : LineInfo PlyError) : Prop :=
  e = .none .AccessFile ∨ e = .none .LoadVertexCountIncorrect ∨ e = .none .LoadHeaderInvalid

/-! ### the header -/

/-- the same result with more bytes left -/
def plyMoreLeft (y : Bytes) (o : Panics (Except (LineInfo PlyError) (PlyHeader × Bytes × Nat))) :
    Panics (Except (LineInfo PlyError) (PlyHeader × Bytes × Nat)) :=
  o.map fun r => r.map fun h => (h.1, h.2.1 ++ y, h.2.2)

theorem plyHeaderLoop_more (y : Bytes) (n k : Nat) (a : Bytes) (i : Nat) (s : PlyHeaderState) (h : EndsLine a) (hn : a.length < n)
    (hk : n ≤ k) : (plyHeaderLoop n a i s = some (.error (.none .LoadHeaderInvalid)) ∧ b!"end_header" ∉ lines a) ∨
      (plyHeaderLoop k (a ++ y) i s = plyMoreLeft y (plyHeaderLoop n a i s) ∧
        ∀ hd rest j, plyHeaderLoop n a i s = some (.ok (hd, rest, j)) → EndsLine rest) := by
  induction n generalizing k a i s with
  | zero => omega
  | succ n ih =>
    obtain ⟨k, rfl⟩ : ∃ k', k = k' + 1 := ⟨k - 1, by omega⟩
    unfold plyHeaderLoop
    cases hf : fetchLine a with
    | none =>
      left
      refine ⟨rfl, ?_⟩
      rw [(lines_fetchLine a).2 hf]
      simp
    | some lr =>
      obtain ⟨l, r⟩ := lr
      obtain ⟨h1, h2⟩ := fetchLine_more y h hf
      have hlen := fetchLine_length hf
      rw [h2]
      dsimp only
      cases hl : plyHeaderLine l s with
      | none => right; exact ⟨rfl, fun _ _ _ hc => by cases hc⟩
      | some o =>
        rcases o with e | st
        · right; exact ⟨rfl, fun _ _ _ hc => by cases hc⟩
        · cases st with
          | next s' =>
            dsimp only
            rcases ih k r (i + 1) s' h1 (by omega) (by omega) with ⟨h3, h4⟩ | h3
            · left
              refine ⟨h3, ?_⟩
              rw [(lines_fetchLine a).1 l r hf]
              simp only [List.mem_cons, not_or]
              refine ⟨?_, h4⟩
              rintro rfl
              revert hl
              unfold plyHeaderLine plyHeaderRest plyFormatLine
              have e1 : startsWith b!"end_header" b!"comment" = false := by decide
              have e2 : startsWith b!"end_header" b!"obj_info" = false := by decide
              have e3 : startsWith b!"end_header" b!"element vertex" = false := by decide
              have e4 : startsWith b!"end_header" b!"element face" = false := by decide
              have e5 : startsWith b!"end_header" b!"property" = false := by decide
              have e6 : ¬ (b!"end_header" = b!"ply") := by decide
              have e7 : ¬ (b!"end_header" = b!"format ascii 1.0") := by decide
              have e8 : ¬ (b!"end_header" = b!"format binary_little_endian 1.0") := by decide
              have e9 : ¬ (b!"end_header" = b!"format binary_big_endian 1.0") := by decide
              simp only [e1, e2, e3, e4, e5, e6, e7, e8, e9, if_false, and_false, Bool.false_eq_true]
              split
              · simp
              · split
                · simp
                · split
                  · rcases plyEndHeader s with e | hd <;> simp [Except.map]
                  · simp
            · exact .inr h3
          | done hd =>
            right
            refine ⟨rfl, fun _ _ _ hc => ?_⟩
            cases hc
            exact h1

theorem plyHeaderLine_ascii {l : Bytes} {s : PlyHeaderState} :
    (∀ s', plyHeaderLine l s = some (.ok (.next s')) → s'.format = some .Ascii → s.format = some .Ascii ∨ l = b!"format ascii 1.0") ∧
    (∀ h, plyHeaderLine l s = some (.ok (.done h)) → s.format = some h.format) := by
  have hax : ∀ (s0 : PlyHeaderState) a s1, s0.addAxis a = some s1 → s1.format = s0.format := by
    intro s0 a s1 h
    unfold PlyHeaderState.addAxis at h
    split at h
    · cases h; rfl
    · cases h
  have hv : ∀ s', plyVertexProperty l s = some (.ok s') → s'.format = s.format := by
    intro s' h
    unfold plyVertexProperty at h
    dsimp only at h
    split at h
    · cases h
    · split at h
      · cases h
      · split at h
        · split at h
          · cases h
          · simp only [Option.map_eq_some_iff] at h
            obtain ⟨s1, h1, h2⟩ := h
            cases h2
            exact (by have := hax _ _ _ h1; exact this)
        · split at h
          · split at h
            · cases h
            · simp only [Option.map_eq_some_iff] at h
              obtain ⟨s1, h1, h2⟩ := h
              cases h2
              exact (by have := hax _ _ _ h1; exact this)
          · split at h
            · split at h
              · cases h
              · simp only [Option.map_eq_some_iff] at h
                obtain ⟨s1, h1, h2⟩ := h
                cases h2
                exact (by have := hax _ _ _ h1; exact this)
            · split at h
              · cases h; rfl
              · split at h
                · cases h; rfl
                · split at h
                  · cases h; rfl
                  · cases h; rfl
  have hfp : ∀ s', plyFaceProperty l s = .ok s' → s'.format = s.format := by
    intro s' h
    unfold plyFaceProperty at h
    split at h
    · split at h
      · split at h
        · cases h
        · split at h
          · cases h
          · cases h; rfl
      · cases h; rfl
    · split at h
      · cases h
      · split at h
        · cases h; rfl
        · cases h; rfl
  have he : ∀ h, plyEndHeader s = .ok h → s.format = some h.format := by
    intro h hh
    unfold plyEndHeader at hh
    split at hh
    · rename_i hf _ _ _ _
      split at hh
      · cases hh
      · cases hh; exact hf
    · cases hh
  have hr : (∀ s', plyHeaderRest l s = some (.ok (.next s')) → s'.format = s.format) ∧
      (∀ h, plyHeaderRest l s = some (.ok (.done h)) → s.format = some h.format) := by
    unfold plyHeaderRest
    split
    · split
      · cases hp : plyVertexProperty l s with
        | none => simp
        | some o =>
          rcases o with e | s1
          · simp [Except.map]
          · have := hv s1 hp
            simp [Except.map, this]
      · cases hp : plyFaceProperty l s with
        | error e => simp [Except.map]
        | ok s1 =>
          have := hfp s1 hp
          simp [Except.map, this]
      · simp
    · split
      · cases hp : plyEndHeader s with
        | error e => simp [Except.map]
        | ok hd =>
          have := he hd hp
          simp [Except.map, this]
      · simp
  unfold plyHeaderLine
  split
  · exact ⟨fun s' h hf => (by cases h; exact .inl hf), fun h hh => by cases hh⟩
  split
  · exact ⟨fun s' h hf => (by cases h; exact .inl hf), fun h hh => by cases hh⟩
  split
  · split
    · exact ⟨fun s' h hf => (by cases h; exact .inl hf), fun h hh => by cases hh⟩
    · exact ⟨fun s' h hf => (by cases h), fun h hh => by cases hh⟩
  split
  · split
    · exact ⟨fun s' h hf => (by cases h), fun h hh => by cases hh⟩
    · rename_i f hfl
      refine ⟨fun s' h hf => ?_, fun h hh => by cases hh⟩
      cases h
      dsimp only at hf
      cases hf
      unfold plyFormatLine at hfl
      split at hfl
      · right; assumption
      · split at hfl
        · cases hfl
        · split at hfl <;> cases hfl
  split
  · split
    · exact ⟨fun s' h hf => (by cases h), fun h hh => by cases hh⟩
    · exact ⟨fun s' h hf => (by cases h; exact .inl hf), fun h hh => by cases hh⟩
  split
  · split
    · exact ⟨fun s' h hf => (by cases h), fun h hh => by cases hh⟩
    · exact ⟨fun s' h hf => (by cases h; exact .inl hf), fun h hh => by cases hh⟩
  exact ⟨fun s' h hf => .inl (by rw [← hr.1 s' h]; exact hf), hr.2⟩

theorem plyHeaderLoop_format (n : Nat) (a : Bytes) (i : Nat) (s : PlyHeaderState) (hs : s.format ≠ some .Ascii)
    (ha : b!"format ascii 1.0" ∉ lines a) (hd : PlyHeader) (rest : Bytes) (j : Nat)
    (h : plyHeaderLoop n a i s = some (.ok (hd, rest, j))) : hd.format ≠ .Ascii := by
  induction n generalizing a i s with
  | zero => cases h
  | succ n ih =>
    unfold plyHeaderLoop at h
    cases hf : fetchLine a with
    | none => rw [hf] at h; cases h
    | some lr =>
      obtain ⟨l, r⟩ := lr
      rw [hf] at h
      rw [(lines_fetchLine a).1 l r hf] at ha
      simp only [List.mem_cons, not_or] at ha
      dsimp only at h
      split at h
      · cases h
      · cases h
      · rename_i s' hl
        refine ih _ _ s' ?_ ha.2 h
        intro hc
        rcases plyHeaderLine_ascii.1 s' hl hc with h1 | h1
        · exact hs h1
        · exact ha.1 h1.symm
      · rename_i h' hl
        cases h
        have := plyHeaderLine_ascii.2 _ hl
        intro hc
        rw [hc] at this
        exact hs this

theorem plyLoadHeader_more (a b : Bytes) (h : PlyCutAt a) :
    plyLoadHeader a = some (.error (.none .LoadHeaderInvalid)) ∨
    (plyLoadHeader (a ++ b) = plyMoreLeft b (plyLoadHeader a) ∧
      ∀ hd rest j, plyLoadHeader a = some (.ok (hd, rest, j)) → hd.format = .Ascii → EndsLine rest) := by
  rcases h with h | ⟨hdr, body, rfl, h1, h2, h3⟩
  · rcases plyHeaderLoop_more b (a.length + 1) ((a ++ b).length + 1) a 0 .init h (by omega) (by simp) with h | h
    · exact .inl h.1
    · exact .inr ⟨h.1, fun hd rest j hh _ => h.2 hd rest j hh⟩
  · right
    rcases plyHeaderLoop_more body (hdr.length + 1) ((hdr ++ body).length + 1) hdr 0 .init h1 (by omega) (by simp) with h | h
    · exact absurd h2 h.2
    rcases plyHeaderLoop_more (body ++ b) (hdr.length + 1) ((hdr ++ body ++ b).length + 1) hdr 0 .init h1 (by omega) (by simp) with h' | h'
    · exact absurd h2 h'.2
    have e1 : plyLoadHeader (hdr ++ body) = plyMoreLeft body (plyHeaderLoop (hdr.length + 1) hdr 0 .init) := h.1
    have e2 : plyLoadHeader (hdr ++ body ++ b) = plyMoreLeft (body ++ b) (plyHeaderLoop (hdr.length + 1) hdr 0 .init) := by
      rw [← h'.1, ← List.append_assoc]; rfl
    rw [e1, e2]
    refine ⟨?_, ?_⟩
    · rcases plyHeaderLoop (hdr.length + 1) hdr 0 .init with _ | _ | ⟨hd, rest, j⟩
      · rfl
      · rfl
      · simp [plyMoreLeft, Except.map]
    · intro hd rest j hh hf
      exfalso
      rcases ho : plyHeaderLoop (hdr.length + 1) hdr 0 .init with _ | _ | ⟨hd', rest', j'⟩
      · rw [ho] at hh; cases hh
      · rw [ho] at hh; cases hh
      · have := plyHeaderLoop_format _ _ _ .init (by simp [PlyHeaderState.init]) h3 _ _ _ ho
        rw [ho] at hh
        cases hh
        exact this hf

/-! ### the data -/

/-- the same position with more data behind -/
def PlyCursor.more (s : PlyCursor) (y : Bytes) : PlyCursor := ⟨s.read ++ y, s.isDone, s.current, s.iLine⟩

theorem plyBinaryVertex_more {e : Endian} {h : PlyVertexData} {s r : Bytes} {p} (y : Bytes)
    (hh : plyBinaryVertex e h s = some (p, r)) : plyBinaryVertex e h (s ++ y) = some (p, r ++ y) := by
  unfold plyBinaryVertex at hh ⊢
  simp only [Option.bind_eq_bind, Option.bind_eq_some_iff, Option.pure_def] at hh ⊢
  obtain ⟨s1, h1, ⟨x1, s2⟩, h2, s3, h3, ⟨x2, s4⟩, h4, s5, h5, ⟨x3, s6⟩, h6, s7, h7, h8⟩ := hh
  cases h8
  exact ⟨_, skipBytes_more y h1, _, readVertexType_more y h2, _, skipBytes_more y h3, _, readVertexType_more y h4, _,
    skipBytes_more y h5, _, readVertexType_more y h6, _, skipBytes_more y h7, rfl⟩

theorem plyBinaryFace_ok {e : Endian} {h : PlyFaceData} {s r : Bytes} {p} (y : Bytes)
    (hh : plyBinaryFace e h s = (.ok p, r)) : plyBinaryFace e h (s ++ y) = (.ok p, r ++ y) := by
  unfold plyBinaryFace at hh ⊢
  split at hh
  · cases hh
  · rename_i n s2 h1
    simp only [Option.bind_eq_bind, Option.bind_eq_some_iff] at h1
    obtain ⟨s1, h1, h2⟩ := h1
    simp only [Option.bind_eq_bind, skipBytes_more y h1, Option.bind_some, readFaceType_more y h2]
    split at hh
    · cases hh
    · rename_i hn
      rw [if_neg hn]
      split at hh
      · cases hh
      · rename_i f s6 h3
        simp only [Option.bind_eq_bind, Option.bind_eq_some_iff, Option.pure_def] at h3
        obtain ⟨⟨x1, s3⟩, h3, ⟨x2, s4⟩, h4, ⟨x3, s5⟩, h5, s6', h6, h7⟩ := h3
        cases h7
        cases hh
        simp [readFaceType_more y h3, readFaceType_more y h4, readFaceType_more y h5, skipBytes_more y h6]

theorem plyBinaryFace_error {e : Endian} {h : PlyFaceData} {s r : Bytes} {x} (y : Bytes)
    (hh : plyBinaryFace e h s = (.error x, r)) : x = .AccessFile ∨ plyBinaryFace e h (s ++ y) = (.error x, r ++ y) := by
  unfold plyBinaryFace at hh ⊢
  split at hh
  · cases hh; exact .inl rfl
  · rename_i n s2 h1
    simp only [Option.bind_eq_bind, Option.bind_eq_some_iff] at h1
    obtain ⟨s1, h1, h2⟩ := h1
    simp only [Option.bind_eq_bind, skipBytes_more y h1, Option.bind_some, readFaceType_more y h2]
    split at hh
    · rename_i hn
      rw [if_pos hn]
      cases hh
      exact .inr rfl
    · split at hh
      · cases hh; exact .inl rfl
      · cases hh

theorem plyPointsInner_more (T : FloatText F64) (f : PlyFormat) (h : PlyVertexData) (s : PlyCursor) (y : Bytes)
    (hl : f = .Ascii → EndsLine s.read) :
    (∀ p s', plyPointsInner T f h s = (some (.ok p), s') →
      plyPointsInner T f h (s.more y) = (some (.ok p), s'.more y) ∧ (f = .Ascii → EndsLine s'.read)) ∧
    (∀ e s', plyPointsInner T f h s = (some (.error e), s') →
      PlyCut e ∨ ∃ t', plyPointsInner T f h (s.more y) = (some (.error e), t')) ∧
    (∀ s', plyPointsInner T f h s = (none, s') → (f = .Ascii ∧ s'.read = []) ∨
      (plyPointsInner T f h (s.more y) = (none, s'.more y) ∧ (f = .Ascii → EndsLine s'.read))) := by
  obtain ⟨read, d, c, i⟩ := s
  cases f with
  | Ascii =>
    have hl' := hl rfl
    dsimp only at hl'
    simp only [plyPointsInner, plyAsciiPointsNext, PlyCursor.more, plyAsciiPointsEnd]
    by_cases hd : d = true
    · subst hd
      simp only [if_true]
      refine ⟨fun p s' h => (by cases h), fun e s' h => (by cases h), fun s' h => ?_⟩
      cases h
      exact .inr ⟨rfl, fun _ => hl'⟩
    · simp only [hd, if_false, Bool.false_eq_true]
      by_cases hc : c < h.count
      · simp only [hc, if_true]
        cases hf : fetchLine read with
        | none =>
          have hre : read = [] := by
            by_contra hne
            unfold fetchLine at hf
            cases read with
            | nil => exact hne rfl
            | cons b t =>
              unfold readUntilNl at hf
              split at hf <;> simp at hf
          dsimp only
          refine ⟨fun p s' h => ?_, fun e s' h => ?_, fun s' h => ?_⟩
          · split at h <;> cases h
          · split at h
            · cases h; exact .inl (.inr (.inl rfl))
            · cases h
          · split at h
            · cases h
            · cases h; exact .inl ⟨trivial, hre⟩
        | some lr =>
          obtain ⟨l, r⟩ := lr
          obtain ⟨h1, h2⟩ := fetchLine_more y hl' hf
          simp only [h2]
          cases plyAsciiVertex T h l with
          | ok p =>
            refine ⟨fun p s' h => ?_, fun e s' h => (by cases h), fun s' h => by cases h⟩
            cases h
            exact ⟨rfl, fun _ => h1⟩
          | error e =>
            refine ⟨fun p s' h => (by cases h), fun e s' h => ?_, fun s' h => by cases h⟩
            cases h
            exact .inr ⟨_, rfl⟩
      · simp only [hc, if_false]
        by_cases hce : c = h.count
        · simp only [hce, ne_eq, not_true, if_false]
          refine ⟨fun p s' h => (by cases h), fun e s' h => (by cases h), fun s' h => ?_⟩
          cases h
          exact .inr ⟨rfl, fun _ => hl'⟩
        · simp only [hce, ne_eq, not_false_eq_true, if_true]
          refine ⟨fun p s' h => (by cases h), fun e s' h => ?_, fun s' h => (by cases h)⟩
          cases h
          exact .inl (.inr (.inl rfl))
  | Binary en =>
    simp only [plyPointsInner, plyBinaryPointsNext, PlyCursor.more]
    by_cases hd : d = true
    · subst hd
      simp only [if_true, plySimple]
      refine ⟨fun p s' h => (by cases h), fun e s' h => (by cases h), fun s' h => ?_⟩
      cases h
      exact .inr ⟨rfl, fun h => by cases h⟩
    · simp only [hd, if_false, Bool.false_eq_true]
      by_cases hc : c < h.count
      · simp only [hc, if_true]
        cases hv : plyBinaryVertex en h read with
        | none =>
          simp only [plySimple]
          refine ⟨fun p s' h => (by cases h), fun e s' h => ?_, fun s' h => by cases h⟩
          cases h
          exact .inl (.inl rfl)
        | some pr =>
          obtain ⟨p, r⟩ := pr
          simp only [plyBinaryVertex_more y hv, plySimple]
          refine ⟨fun p s' h => ?_, fun e s' h => (by cases h), fun s' h => by cases h⟩
          cases h
          exact ⟨rfl, fun h => by cases h⟩
      · simp only [hc, if_false, plySimple]
        refine ⟨fun p s' h => (by cases h), fun e s' h => (by cases h), fun s' h => ?_⟩
        cases h
        exact .inr ⟨rfl, fun h => by cases h⟩

theorem plyFacesInner_more (f : PlyFormat) (h : PlyFaceData) (s : PlyCursor) (y : Bytes) (hl : f = .Ascii → EndsLine s.read) :
    (∀ p s', plyFacesInner f h s = (some (.ok p), s') →
      plyFacesInner f h (s.more y) = (some (.ok p), s'.more y) ∧ (f = .Ascii → EndsLine s'.read)) ∧
    (∀ e s', plyFacesInner f h s = (some (.error e), s') →
      PlyCut e ∨ ∃ t', plyFacesInner f h (s.more y) = (some (.error e), t')) ∧
    (f = .Ascii → s.read = [] → (plyFacesInner f h s).1 = none) := by
  obtain ⟨read, d, c, i⟩ := s
  cases f with
  | Ascii =>
    have hl' := hl rfl
    dsimp only at hl'
    simp only [plyFacesInner, plyAsciiFacesNext, PlyCursor.more]
    by_cases hd : d = true
    · subst hd
      simp only [if_true]
      exact ⟨fun p s' h => (by cases h), fun e s' h => (by cases h), fun _ _ => trivial⟩
    · simp only [hd, if_false, Bool.false_eq_true]
      by_cases hc : c < h.count
      · simp only [hc, if_true]
        cases hf : fetchLine read with
        | none => exact ⟨fun p s' h => (by cases h), fun e s' h => (by cases h), fun _ _ => rfl⟩
        | some lr =>
          obtain ⟨l, r⟩ := lr
          obtain ⟨h1, h2⟩ := fetchLine_more y hl' hf
          simp only [h2]
          refine ⟨?_, ?_, fun _ hr => ?_⟩
          · intro p s' h
            split at h
            · cases h; exact ⟨rfl, fun _ => h1⟩
            · cases h
          · intro e s' h
            split at h
            · cases h
            · cases h; exact .inr ⟨_, rfl⟩
          · subst hr
            cases hf
      · simp only [hc, if_false]
        exact ⟨fun p s' h => (by cases h), fun e s' h => (by cases h), fun _ _ => trivial⟩
  | Binary en =>
    simp only [plyFacesInner, plyBinaryFacesNext, PlyCursor.more]
    refine ⟨?_, ?_, fun h => by cases h⟩
    · intro p s' hh
      by_cases hd : d = true
      · subst hd; simp only [if_true, plySimple] at hh; cases hh
      · simp only [hd, if_false, Bool.false_eq_true] at hh ⊢
        by_cases hc : c < h.count
        · simp only [hc, if_true] at hh ⊢
          rcases hv : plyBinaryFace en h read with ⟨x | fc, r⟩
          · rw [hv] at hh; simp only [plySimple] at hh; cases hh
          · rw [hv] at hh
            simp only [plyBinaryFace_ok y hv, plySimple] at hh ⊢
            cases hh
            exact ⟨rfl, fun h => by cases h⟩
        · simp only [hc, if_false, plySimple] at hh; cases hh
    · intro e s' hh
      by_cases hd : d = true
      · subst hd; simp only [if_true, plySimple] at hh; cases hh
      · simp only [hd, if_false, Bool.false_eq_true] at hh ⊢
        by_cases hc : c < h.count
        · simp only [hc, if_true] at hh ⊢
          rcases hv : plyBinaryFace en h read with ⟨x | fc, r⟩
          · rw [hv] at hh
            simp only [plySimple] at hh
            cases hh
            rcases plyBinaryFace_error y hv with rfl | h
            · exact .inl (.inl rfl)
            · simp only [h, plySimple]
              exact .inr ⟨_, rfl⟩
          · rw [hv] at hh; simp only [plySimple] at hh; cases hh
        · simp only [hc, if_false, plySimple] at hh; cases hh

/-- the positions of the mesh iterators over the cut and the whole file -/
def PlyR (f : PlyFormat) (y : Bytes) : PlyMeshCursor → PlyMeshCursor → Prop
  | .points s, .points t => t = s.more y ∧ (f = .Ascii → EndsLine s.read)
  | .faces s, .faces t => t = s.more y ∧ (f = .Ascii → EndsLine s.read)
  | _, _ => False

theorem plyMeshFaces_more (f : PlyFormat) (hf : PlyFaceData) (s : PlyCursor) (y : Bytes) (hl : f = .Ascii → EndsLine s.read) :
    (∀ x s', plyMeshFaces f hf s = (some (.ok x), s') → ∃ t', plyMeshFaces f hf (s.more y) = (some (.ok x), t') ∧ PlyR f y s' t') ∧
    (∀ e s', plyMeshFaces f hf s = (some (.error e), s') →
      PlyCut e ∨ ∃ t', plyMeshFaces f hf (s.more y) = (some (.error e), t')) ∧
    (f = .Ascii → s.read = [] → (plyMeshFaces f hf s).1 = none) := by
  obtain ⟨h1, h2, h3⟩ := plyFacesInner_more f hf s y hl
  unfold plyMeshFaces
  refine ⟨?_, ?_, ?_⟩
  · intro x s' h
    split at h
    · cases h
    · cases h
    · rename_i a b c s1 hi
      cases h
      obtain ⟨e1, e2⟩ := h1 _ _ hi
      rw [e1]
      exact ⟨_, rfl, rfl, e2⟩
  · intro e s' h
    split at h
    · cases h
    · rename_i e' s1 hi
      cases h
      rcases h2 _ _ hi with h | ⟨t', h⟩
      · exact .inl h
      · rw [h]
        exact .inr ⟨_, rfl⟩
    · cases h
  · intro e1 e2
    have := h3 e1 e2
    split
    · rfl
    · rename_i hi; rw [hi] at this; cases this
    · rename_i hi; rw [hi] at this; cases this

theorem plyMeshInner_more (T : FloatText F64) (f : PlyFormat) (hv : PlyVertexData) (hf : PlyFaceData) (y : Bytes) (s t : PlyMeshCursor)
    (hR : PlyR f y s t) :
    (∀ x s', plyMeshInner T f hv hf s = (some (.ok x), s') → ∃ t', plyMeshInner T f hv hf t = (some (.ok x), t') ∧ PlyR f y s' t') ∧
    (∀ e s', plyMeshInner T f hv hf s = (some (.error e), s') → PlyCut e ∨ ∃ t', plyMeshInner T f hv hf t = (some (.error e), t')) := by
  rcases s with s | s <;> rcases t with t | t
  · obtain ⟨rfl, hl⟩ := hR
    obtain ⟨h1, h2, h3⟩ := plyPointsInner_more T f hv s y hl
    unfold plyMeshInner
    dsimp only
    refine ⟨?_, ?_⟩
    · intro x s' h
      split at h
      · rename_i p s1 hi
        cases h
        obtain ⟨e1, e2⟩ := h1 _ _ hi
        rw [e1]
        exact ⟨_, rfl, rfl, e2⟩
      · cases h
      · rename_i s1 hi
        rcases h3 _ hi with ⟨e1, e2⟩ | ⟨e1, e2⟩
        · have := (plyMeshFaces_more f hf ⟨s1.read, false, 0, s1.iLine⟩ y (fun _ => .inl e2)).2.2 e1 e2
          rw [h] at this
          cases this
        · rw [e1]
          exact (plyMeshFaces_more f hf ⟨s1.read, false, 0, s1.iLine⟩ y e2).1 x s' h
    · intro e s' h
      split at h
      · cases h
      · rename_i e' s1 hi
        cases h
        rcases h2 _ _ hi with h | ⟨t', h⟩
        · exact .inl h
        · rw [h]
          exact .inr ⟨_, rfl⟩
      · rename_i s1 hi
        rcases h3 _ hi with ⟨e1, e2⟩ | ⟨e1, e2⟩
        · have := (plyMeshFaces_more f hf ⟨s1.read, false, 0, s1.iLine⟩ y (fun _ => .inl e2)).2.2 e1 e2
          rw [h] at this
          cases this
        · rw [e1]
          exact (plyMeshFaces_more f hf ⟨s1.read, false, 0, s1.iLine⟩ y e2).2.1 e s' h
  · exact hR.elim
  · exact hR.elim
  · obtain ⟨rfl, hl⟩ := hR
    unfold plyMeshInner
    exact ⟨(plyMeshFaces_more f hf s y hl).1, (plyMeshFaces_more f hf s y hl).2.1⟩

/-! ### the loaders -/

theorem plyPush_begins (m : TMesh PlyPoint) (x : Item PlyPoint) : MeshBegins m (plyPush m x).1 := by
  cases x with
  | data p => exact MeshBegins.addVertex m p
  | face a b c =>
    have h := MeshBegins.tryAddConnection m a b c
    unfold plyPush
    dsimp only
    split <;> (rename_i hq; rw [hq] at h; exact h)
  | reserve _ _ => exact MeshBegins.refl m

theorem forEach_grows {σ ε α μ : Type} {le : μ → μ → Prop} (hrefl : ∀ m, le m m) (htrans : ∀ a b c, le a b → le b c → le a c)
    {next : σ → Panics (Option (Except ε α) × σ)} {push : μ → α → μ × Except ε Unit} (hpush : ∀ m x, le m (push m x).1)
    (n : Nat) (s : σ) (m : μ) (b : μ × Except ε Unit) (h : forEach next push n s m = some b) : le m b.1 := by
  induction n generalizing s m with
  | zero => cases h
  | succ n ih =>
    unfold forEach at h
    split at h
    · cases h
    · cases h; exact hrefl _
    · cases h; exact hrefl _
    · rename_i x t' _
      have hp := hpush m x
      split at h
      · rename_i m' he
        rw [he] at hp
        exact htrans _ _ _ hp (ih _ _ h)
      · rename_i m' e he
        rw [he] at hp
        cases h
        exact hp

/-- C119 for .ply: meshes and points; the cut file may be reported as not readable, incomplete, or its header as malformed -/
theorem c119_ply (T : FloatText F64) (a b : Bytes) (h : PlyCutAt a) :
    (∀ m x y, loadPlyMesh T a m = some x → loadPlyMesh T (a ++ b) m = some y → BeginsLike MeshBegins PlyCut x y) ∧
    (∀ m x y, loadPlyPoints T a m = some x → loadPlyPoints T (a ++ b) m = some y → BeginsLike (· <+: ·) PlyCut x y) := by
  constructor
  · intro m x y hx hy
    unfold loadPlyMesh PlyMeshIter.new at hx hy
    rcases plyLoadHeader_more a b h with h | ⟨h1, h2⟩
    · rw [h] at hx
      cases hx
      refine ⟨?_, fun e he => by cases he; exact .inl (.inr (.inr rfl))⟩
      split at hy
      · cases hy
      · cases hy; exact MeshBegins.refl _
      · exact forEach_grows MeshBegins.refl MeshBegins.trans plyPush_begins _ _ _ _ hy
    · rw [h1] at hy
      rcases ho : plyLoadHeader a with _ | e | ⟨hd, rest, j⟩
      · rw [ho] at hx; cases hx
      · rw [ho] at hx hy
        cases hx
        cases hy
        exact ⟨MeshBegins.refl _, fun _ _ => .inr rfl⟩
      · rw [ho] at hx hy
        have hl := h2 hd rest j ho
        simp only [plyMoreLeft, Option.map_some, Except.map] at hx hy
        cases hfc : hd.face with
        | none =>
          simp only [hfc] at hx hy
          cases hx
          cases hy
          exact ⟨MeshBegins.refl _, fun _ _ => .inr rfl⟩
        | some fd =>
          simp only [hfc] at hx hy
          refine forEach_begins MeshBegins.refl MeshBegins.trans (cut := PlyCut)
            (R := fun s t => s.format = hd.format ∧ t.format = s.format ∧ t.vertex = s.vertex ∧ t.face = s.face ∧
              t.toReserve = s.toReserve ∧ PlyR hd.format b s.inner t.inner)
            plyPush_begins ?_ ?_ _ _ _ _ m ?_ x y hx hy
          · rintro ⟨f, v, fa, inn, tr⟩ ⟨f', v', fa', inn', tr'⟩ p s' ⟨e0, e1, e2, e3, e4, hR⟩ hn
            dsimp only at e0 e1 e2 e3 e4 hR
            subst e0 e1 e2 e3 e4
            simp only [Option.some.injEq] at hn ⊢
            unfold plyMeshNext at hn ⊢
            cases tr' with
            | some nk =>
              cases hn
              exact ⟨_, rfl, rfl, rfl, rfl, rfl, rfl, hR⟩
            | none =>
              dsimp only at hn ⊢
              simp only [Prod.mk.injEq] at hn
              obtain ⟨n1, rfl⟩ := hn
              obtain ⟨t', g1, g2⟩ := (plyMeshInner_more T _ _ _ b inn inn' hR).1 p _ (Prod.ext n1 rfl)
              rw [g1]
              exact ⟨_, rfl, rfl, rfl, rfl, rfl, rfl, g2⟩
          · rintro ⟨f, v, fa, inn, tr⟩ ⟨f', v', fa', inn', tr'⟩ e s' ⟨e0, e1, e2, e3, e4, hR⟩ hn
            dsimp only at e0 e1 e2 e3 e4 hR
            subst e0 e1 e2 e3 e4
            simp only [Option.some.injEq] at hn ⊢
            unfold plyMeshNext at hn ⊢
            cases tr' with
            | some nk => cases hn
            | none =>
              dsimp only at hn ⊢
              simp only [Prod.mk.injEq] at hn
              obtain ⟨n1, rfl⟩ := hn
              rcases (plyMeshInner_more T _ _ _ b inn inn' hR).2 e _ (Prod.ext n1 rfl) with g | ⟨t', g⟩
              · exact .inl g
              · rw [g]
                exact .inr ⟨_, rfl⟩
          · exact ⟨rfl, rfl, rfl, rfl, rfl, And.intro rfl hl⟩
  · intro m x y hx hy
    unfold loadPlyPoints PlyPointsIter.new at hx hy
    rcases plyLoadHeader_more a b h with h | ⟨h1, h2⟩
    · rw [h] at hx
      cases hx
      refine ⟨?_, fun e he => by cases he; exact .inl (.inr (.inr rfl))⟩
      split at hy
      · cases hy
      · cases hy; exact List.prefix_refl _
      · exact forEach_grows (fun m => List.prefix_refl m) (fun _ _ _ h1 h2 => h1.trans h2) pushItem_begins _ _ _ _ hy
    · rw [h1] at hy
      rcases ho : plyLoadHeader a with _ | e | ⟨hd, rest, j⟩
      · rw [ho] at hx; cases hx
      · rw [ho] at hx hy
        cases hx
        cases hy
        exact ⟨List.prefix_refl _, fun _ _ => .inr rfl⟩
      · rw [ho] at hx hy
        have hl := h2 hd rest j ho
        simp only [plyMoreLeft, Option.map_some, Except.map] at hx hy
        refine forEach_begins (fun m => List.prefix_refl m) (fun _ _ _ h1 h2 => h1.trans h2) (cut := PlyCut)
          (R := fun s t => t.format = s.format ∧ t.vertex = s.vertex ∧
            t.toReserve = s.toReserve ∧ t.inner = s.inner.more b ∧ (s.format = .Ascii → EndsLine s.inner.read))
          pushItem_begins ?_ ?_ _ _ _ _ m ⟨rfl, rfl, rfl, rfl, hl⟩ x y hx hy
        · rintro ⟨f, v, inn, tr⟩ ⟨f', v', inn', tr'⟩ p s' ⟨e1, e2, e4, e5, hR⟩ hn
          dsimp only at e1 e2 e4 e5 hR
          subst e1 e2 e4 e5
          simp only [Option.some.injEq] at hn ⊢
          unfold plyPointsNext at hn ⊢
          cases tr' with
          | some nk =>
            cases hn
            exact ⟨_, rfl, rfl, rfl, rfl, rfl, hR⟩
          | none =>
            dsimp only at hn ⊢
            simp only [Prod.mk.injEq] at hn
            obtain ⟨n1, rfl⟩ := hn
            rcases hi : plyPointsInner T f' v' inn with ⟨_ | e | q, s1⟩
            · rw [hi] at n1; cases n1
            · rw [hi] at n1; cases n1
            · obtain ⟨g1, g2⟩ := (plyPointsInner_more T f' v' inn b hR).1 q s1 hi
              rw [hi] at n1
              rw [g1]
              cases n1
              exact ⟨_, rfl, rfl, rfl, rfl, rfl, g2⟩
        · rintro ⟨f, v, inn, tr⟩ ⟨f', v', inn', tr'⟩ e s' ⟨e1, e2, e4, e5, hR⟩ hn
          dsimp only at e1 e2 e4 e5 hR
          subst e1 e2 e4 e5
          simp only [Option.some.injEq] at hn ⊢
          unfold plyPointsNext at hn ⊢
          cases tr' with
          | some nk => cases hn
          | none =>
            dsimp only at hn ⊢
            simp only [Prod.mk.injEq] at hn
            obtain ⟨n1, rfl⟩ := hn
            rcases hi : plyPointsInner T f' v' inn with ⟨_ | e' | q, s1⟩
            · rw [hi] at n1; cases n1
            · rw [hi] at n1
              cases n1
              rcases (plyPointsInner_more T f' v' inn b hR).2.1 e s1 hi with g | ⟨t', g⟩
              · exact .inl g
              · rw [g]
                exact .inr ⟨_, rfl⟩
            · rw [hi] at n1; cases n1

/-- C119 for the loader that finds out whether there are faces: the parts of a mesh, the points, and (if there is no error) the same kind of
data -/
theorem c119_ply_either (T : FloatText F64) (a b : Bytes) (h : PlyCutAt a) (m : TMesh PlyPoint) (ip : List PlyPoint) (x y)
    (hx : loadPlyEither T a m ip = some x) (hy : loadPlyEither T (a ++ b) m ip = some y) :
    MeshBegins x.1 y.1 ∧ x.2.1 <+: y.2.1 ∧ (∀ e, x.2.2 = .error e → PlyCut e ∨ y = x) ∧
    (∀ k k', x.2.2 = .ok k → y.2.2 = .ok k' → k' = k) := by
  unfold loadPlyEither at hx hy
  rcases plyLoadHeader_more a b h with h | ⟨h1, h2⟩
  · rw [h] at hx
    cases hx
    refine ⟨?_, ?_, fun e he => by cases he; exact .inl (.inr (.inr rfl)), fun k k' h => by cases h⟩
    · split at hy
      · cases hy
      · cases hy; exact MeshBegins.refl _
      · split at hy
        · simp only [Option.map_eq_some_iff] at hy
          obtain ⟨r, hr, rfl⟩ := hy
          exact forEach_grows MeshBegins.refl MeshBegins.trans plyPush_begins _ _ _ _ hr
        · simp only [Option.map_eq_some_iff] at hy
          obtain ⟨r, hr, rfl⟩ := hy
          exact MeshBegins.refl _
    · split at hy
      · cases hy
      · cases hy; exact List.prefix_refl _
      · split at hy
        · simp only [Option.map_eq_some_iff] at hy
          obtain ⟨r, hr, rfl⟩ := hy
          exact List.prefix_refl _
        · simp only [Option.map_eq_some_iff] at hy
          obtain ⟨r, hr, rfl⟩ := hy
          exact forEach_grows (fun m => List.prefix_refl m) (fun _ _ _ h1 h2 => h1.trans h2) pushItem_begins _ _ _ _ hr
  · rw [h1] at hy
    rcases ho : plyLoadHeader a with _ | e | ⟨hd, rest, j⟩
    · rw [ho] at hx; cases hx
    · rw [ho] at hx hy
      cases hx
      cases hy
      exact ⟨MeshBegins.refl _, List.prefix_refl _, fun _ _ => .inr rfl, fun k k' h => by cases h⟩
    · rw [ho] at hx hy
      have hl := h2 hd rest j ho
      simp only [plyMoreLeft, Option.map_some, Except.map] at hx hy
      have hkind : ∀ {ε α β : Type} {r : Except ε α} {c k : β}, (match r with | .error e => .error e | .ok _ => .ok c : Except ε β) = .ok k →
          k = c := by
        intro ε α β r c k hk
        cases r <;> cases hk
        rfl
      cases hfc : hd.face with
      | none =>
        simp only [hfc, Option.map_eq_some_iff] at hx hy
        obtain ⟨r, hr, rfl⟩ := hx
        obtain ⟨r', hr', rfl⟩ := hy
        have key := forEach_begins (fun m => List.prefix_refl m) (fun _ _ _ h1 h2 => h1.trans h2) (cut := PlyCut)
          (R := fun s t : PlyCursor => t = s.more b ∧ (hd.format = .Ascii → EndsLine s.read))
          pushItem_begins ?_ ?_ _ _ _ _ ip ⟨rfl, hl⟩ r r' hr hr'
        · refine ⟨MeshBegins.refl _, key.1, fun e he => ?_, fun k k' h1 h2 => (hkind h2).trans (hkind h1).symm⟩
          rcases r with ⟨l, e' | u⟩
          · cases he
            rcases key.2 e rfl with h | rfl
            · exact .inl h
            · exact .inr rfl
          · cases he
        · rintro s _ p s' ⟨rfl, hR⟩ hn
          simp only [Option.some.injEq, Prod.mk.injEq] at hn ⊢
          obtain ⟨n1, rfl⟩ := hn
          rcases hi : plyPointsInner T hd.format hd.vertex s with ⟨_ | e | q, s1⟩
          · rw [hi] at n1; cases n1
          · rw [hi] at n1; cases n1
          · obtain ⟨g1, g2⟩ := (plyPointsInner_more T hd.format hd.vertex s b hR).1 q s1 hi
            rw [hi] at n1
            rw [g1]
            exact ⟨_, ⟨n1, rfl⟩, rfl, g2⟩
        · rintro s _ e s' ⟨rfl, hR⟩ hn
          simp only [Option.some.injEq, Prod.mk.injEq] at hn ⊢
          obtain ⟨n1, rfl⟩ := hn
          rcases hi : plyPointsInner T hd.format hd.vertex s with ⟨_ | e' | q, s1⟩
          · rw [hi] at n1; cases n1
          · rw [hi] at n1
            cases n1
            rcases (plyPointsInner_more T hd.format hd.vertex s b hR).2.1 e s1 hi with g | ⟨t', g⟩
            · exact .inl g
            · rw [g]
              exact .inr ⟨_, rfl, rfl⟩
          · rw [hi] at n1; cases n1
      | some fd =>
        simp only [hfc, Option.map_eq_some_iff] at hx hy
        obtain ⟨r, hr, rfl⟩ := hx
        obtain ⟨r', hr', rfl⟩ := hy
        have key := forEach_begins MeshBegins.refl MeshBegins.trans (cut := PlyCut) (R := PlyR hd.format b)
          plyPush_begins ?_ ?_ _ _ _ _ m ?_ r r' hr hr'
        · refine ⟨key.1, List.prefix_refl _, fun e he => ?_, fun k k' h1 h2 => (hkind h2).trans (hkind h1).symm⟩
          rcases r with ⟨l, e' | u⟩
          · cases he
            rcases key.2 e rfl with h | rfl
            · exact .inl h
            · exact .inr rfl
          · cases he
        · intro s t p s' hR hn
          simp only [Option.some.injEq] at hn ⊢
          exact (plyMeshInner_more T _ _ _ b s t hR).1 p s' hn
        · intro s t e s' hR hn
          simp only [Option.some.injEq] at hn ⊢
          exact (plyMeshInner_more T _ _ _ b s t hR).2 e s' hn
        · exact And.intro rfl hl

/-- a binary mesh with one vertex and one face -/
def cutPlyHeader : Bytes := b!"ply\nformat binary_big_endian 1.0\nelement vertex 2\nproperty float x\nproperty float y\nproperty float z\nelement face 1\nproperty list uchar uint vertex_indices\nend_header\n"

/-- cut within the second vertex: the first one is loaded, and an error reported -/
example : PlyCutAt (cutPlyHeader ++ [63, 128, 0, 0, 0, 0, 0, 0, 0, 0, 0, 0, 64]) ∧
    loadPlyMesh natF64 (cutPlyHeader ++ [63, 128, 0, 0, 0, 0, 0, 0, 0, 0, 0, 0, 64]) ⟨[], []⟩ =
      some (⟨[⟨F64.ofRat 1, F64.ofRat 0, F64.ofRat 0⟩], []⟩, .error (.none .AccessFile)) :=
  ⟨.inr ⟨cutPlyHeader, _, rfl, .inr ⟨cutPlyHeader.dropLast, by decide +kernel⟩, by decide +kernel, by decide +kernel⟩, by decide +kernel⟩

/-- an ASCII file without its last vertex is loaded without any error (see C61, C119 only says that less is loaded) -/
theorem c119_silent : ∃ a b : Bytes, EndsLine a ∧ ∃ p q, loadPlyPoints natF64 a [] = some ([p], .ok ()) ∧
    loadPlyPoints natF64 (a ++ b) [] = some ([p, q], .ok ()) :=
  ⟨b!"ply\nformat ascii 1.0\nelement vertex 2\nproperty float x\nproperty float y\nproperty float z\nend_header\n1 2 3\n", b!"4 5 6\n",
    .inr ⟨b!"ply\nformat ascii 1.0\nelement vertex 2\nproperty float x\nproperty float y\nproperty float z\nend_header\n1 2 3", rfl⟩,
    ⟨F64.ofRat 1, F64.ofRat 2, F64.ofRat 3⟩, ⟨F64.ofRat 4, F64.ofRat 5, F64.ofRat 6⟩, by decide +kernel, by decide +kernel⟩

end R3D
